import Verif.Proofs.Mms3
/-!
# Lemmas: which exceptions a decoder can raise, that it only ever moves forward, and that it consumes input
-/
set_option autoImplicit false

namespace Verif.Mms

/-- the decoder raises only exceptions in `E`, and what is left to read is an end piece of what there was -/
def Safe {α : Type} (E : List PyErr) (m : D α) : Prop := ∀ s : It,
  (∀ a s', m s = .ok a s' → s'.rem <:+ s.rem) ∧ (∀ e s', m s = .err e s' → e ∈ E ∧ s'.rem <:+ s.rem)

/-- a successful call consumes input -/
def Prog {α : Type} (m : D α) : Prop := ∀ (s : It) (a : α) (s' : It), m s = .ok a s' → s'.rem.length < s.rem.length

/-- after DecodeError nothing was consumed and no preview is pending -/
def Restores {α : Type} (m : D α) : Prop := ∀ (s s' : It), m s = .err .decodeError s' → s' = ⟨s.rem, 0⟩

variable {α β : Type} {E F : List PyErr}

theorem Safe.mono {m : D α} (h : Safe E m) (hs : ∀ e ∈ E, e ∈ F) : Safe F m := by
  intro s
  exact ⟨(h s).1, fun e s' he => ⟨hs e ((h s).2 e s' he).1, ((h s).2 e s' he).2⟩⟩

theorem Safe.pure (a : α) : Safe E (pure a : D α) := by
  intro s
  constructor
  · intro b s' h
    have : s = s' := by injection h
    rw [this]; exact List.suffix_refl _
  · intro e s' h; cases h

theorem Safe.throw {e : PyErr} (h : e ∈ E) : Safe E (M.throw e : D α) := by
  intro s
  constructor
  · intro b s' h; cases h
  · intro e' s' h'
    injection h' with h1 h2
    subst h1 h2
    exact ⟨h, List.suffix_refl _⟩

theorem Safe.bind {m : D α} {f : α → D β} (hm : Safe E m) (hf : ∀ a, Safe E (f a)) : Safe E (m >>= f) := by
  intro s
  rw [M.bind_apply]
  cases h : m s with
  | err e s1 =>
    constructor
    · intro b s' h'; cases h'
    · intro e' s' h'
      injection h' with h1 h2
      subst h1 h2
      exact (hm s).2 _ _ h
  | ok a s1 =>
    have h1 := (hm s).1 _ _ h
    constructor
    · intro b s' h'
      exact ((hf a s1).1 _ _ h').trans h1
    · intro e' s' h'
      have := (hf a s1).2 _ _ h'
      exact ⟨this.1, this.2.trans h1⟩

theorem Safe.orDE {m h : D α} (hm : Safe (.decodeError :: E) m) (hh : Safe E h) : Safe E (orDecodeError m h) := by
  intro s
  unfold orDecodeError M.tryCatch
  cases hms : m s with
  | ok a s1 =>
    simp only []
    constructor
    · intro b s' h'
      injection h' with _ h2
      subst h2
      exact (hm s).1 _ _ hms
    · intro e' s' h'; cases h'
  | err e s1 =>
    simp only []
    have h1 := (hm s).2 _ _ hms
    by_cases he : (e == PyErr.decodeError) = true
    · rw [if_pos he]
      constructor
      · intro b s' h'
        exact ((hh s1).1 _ _ h').trans h1.2
      · intro e' s' h'
        have := (hh s1).2 _ _ h'
        exact ⟨this.1, this.2.trans h1.2⟩
    · rw [if_neg he]
      constructor
      · intro b s' h'; cases h'
      · intro e' s' h'
        injection h' with h3 h4
        subst h3 h4
        refine ⟨?_, h1.2⟩
        rcases List.mem_cons.1 h1.1 with h5 | h5
        · subst h5; exact absurd rfl he
        · exact h5

theorem Safe.lift {x : Py α} (h : ∀ e, x = .error e → e ∈ E) : Safe E (M.lift x : D α) := by
  intro s
  cases x with
  | ok a =>
    constructor
    · intro b s' h'
      have : s = s' := by injection h'
      rw [this]; exact List.suffix_refl _
    · intro e s' h'; cases h'
  | error e =>
    constructor
    · intro b s' h'; cases h'
    · intro e' s' h'
      injection h' with h1 h2
      subst h1 h2
      exact ⟨h _ rfl, List.suffix_refl _⟩

theorem Safe.next (h : .stopIteration ∈ E) : Safe E next := by
  intro s
  unfold Mms.next
  cases hr : s.rem with
  | nil =>
    constructor
    · intro b s' h'; cases h'
    · intro e' s' h'
      injection h' with h1 h2
      subst h1 h2
      exact ⟨h, List.suffix_refl _⟩
  | cons x r =>
    constructor
    · intro b s' h'
      injection h' with h1 h2
      subst h1 h2
      exact List.suffix_cons _ _
    · intro e s' h'; cases h'

theorem Safe.preview (h : .stopIteration ∈ E) : Safe E preview := by
  intro s
  unfold Mms.preview
  cases hr : s.rem[s.k]? with
  | none =>
    constructor
    · intro b s' h'; cases h'
    · intro e' s' h'
      injection h' with h1 h2
      subst h1 h2
      exact ⟨h, List.suffix_refl _⟩
  | some x =>
    constructor
    · intro b s' h'
      injection h' with h1 h2
      subst h1 h2
      exact List.suffix_refl _
    · intro e s' h'; cases h'

theorem Safe.reset : Safe E resetPreview := by
  intro s
  constructor
  · intro b s' h'
    injection h' with h1 h2
    subst h2
    exact List.suffix_refl _
  · intro e s' h'; cases h'

theorem Safe.ite {c : Prop} [Decidable c] {m n : D α} (hm : Safe E m) (hn : Safe E n) : Safe E (if c then m else n) := by
  split
  · exact hm
  · exact hn

theorem Safe.tryCatch_all {m : D α} {p : PyErr → Bool} {e' : PyErr} (hm : Safe E m) (he : e' ∈ F)
    (hp : ∀ e ∈ E, p e = false → e ∈ F) : Safe F (M.tryCatch m p (fun _ => M.throw e')) := by
  intro s
  unfold M.tryCatch
  cases hms : m s with
  | ok a s1 =>
    simp only []
    constructor
    · intro b s' h'
      injection h' with _ h2
      subst h2
      exact (hm s).1 _ _ hms
    · intro e' s' h'; cases h'
  | err e s1 =>
    simp only []
    have h1 := (hm s).2 _ _ hms
    cases hpe : p e with
    | true =>
      rw [if_pos rfl]
      constructor
      · intro b s' h'; cases h'
      · intro e2 s' h'
        injection h' with h3 h4
        subst h3 h4
        exact ⟨he, h1.2⟩
    | false =>
      rw [if_neg (by decide)]
      constructor
      · intro b s' h'; cases h'
      · intro e2 s' h'
        injection h' with h3 h4
        subst h3 h4
        exact ⟨hp _ h1.1 hpe, h1.2⟩

/-- a run over a fresh iterator leaves the outer one alone -/
theorem Safe.onFresh {bytes : List Nat} {m : D α} (hm : ∀ e s', m (It.new bytes) = .err e s' → e ∈ E) :
    Safe E (onFresh bytes m) := by
  intro s
  unfold Mms.onFresh
  cases h : m (It.new bytes) with
  | ok a s1 =>
    constructor
    · intro b s' h'
      injection h' with _ h2
      subst h2
      exact List.suffix_refl _
    · intro e' s' h'; cases h'
  | err e s1 =>
    constructor
    · intro b s' h'; cases h'
    · intro e' s' h'
      injection h' with h3 h4
      subst h3 h4
      exact ⟨hm _ _ h, List.suffix_refl _⟩

/-! ### progress -/

theorem Prog.bind_left {m : D α} {f : α → D β} (hm : Prog m) (hf : ∀ a, Safe E (f a)) : Prog (m >>= f) := by
  intro s b s' h
  rw [M.bind_apply] at h
  cases hms : m s with
  | err e s1 => rw [hms] at h; cases h
  | ok a s1 =>
    rw [hms] at h
    have h1 := hm _ _ _ hms
    have h2 := ((hf a s1).1 _ _ h).length_le
    omega

theorem Prog.bind_right {m : D α} {f : α → D β} (hm : Safe E m) (hf : ∀ a, Prog (f a)) : Prog (m >>= f) := by
  intro s b s' h
  rw [M.bind_apply] at h
  cases hms : m s with
  | err e s1 => rw [hms] at h; cases h
  | ok a s1 =>
    rw [hms] at h
    have h1 := ((hm s).1 _ _ hms).length_le
    have h2 := hf a _ _ _ h
    omega

theorem Prog.orDE {m h : D α} (hs : Safe E m) (hm : Prog m) (hh : Prog h) : Prog (orDecodeError m h) := by
  intro s b s' he
  unfold orDecodeError M.tryCatch at he
  cases hms : m s with
  | ok a s1 =>
    rw [hms] at he
    injection he with _ h2
    subst h2
    exact hm _ _ _ hms
  | err e s1 =>
    rw [hms] at he
    simp only [] at he
    split at he
    · have h1 := ((hs s).2 _ _ hms).2.length_le
      have h2 := hh _ _ _ he
      omega
    · cases he

theorem Prog.next : Prog next := by
  intro s a s' h
  unfold Mms.next at h
  cases hr : s.rem with
  | nil => rw [hr] at h; cases h
  | cons x r =>
    rw [hr] at h
    injection h with _ h2
    subst h2
    simp

theorem Prog.throw {e : PyErr} : Prog (M.throw e : D α) := by
  intro s a s' h; cases h

theorem Prog.ite {c : Prop} [Decidable c] {m n : D α} (hm : Prog m) (hn : Prog n) : Prog (if c then m else n) := by
  split
  · exact hm
  · exact hn

/-! ### restoring -/

theorem Restores.of_safe {m : D α} (h : Safe E m) (hE : .decodeError ∉ E) : Restores m := by
  intro s s' he
  exact absurd ((h s).2 _ _ he).1 hE

/-- the first half cannot raise DecodeError after which it has moved; the second half cannot raise it at all -/
theorem Restores.bind {m : D α} {f : α → D β} (hm : Restores m) (hf : ∀ a, Safe E (f a)) (hE : .decodeError ∉ E) :
    Restores (m >>= f) := by
  intro s s' h
  rw [M.bind_apply] at h
  cases hms : m s with
  | err e s1 =>
    rw [hms] at h
    injection h with h1 h2
    subst h1 h2
    exact hm _ _ hms
  | ok a s1 =>
    rw [hms] at h
    exact absurd ((hf a s1).2 _ _ h).1 hE

theorem Restores.orDE {m h : D α} (hm : Restores m) (hh : Restores h) : Restores (orDecodeError m h) := by
  intro s s' he
  unfold orDecodeError M.tryCatch at he
  cases hms : m s with
  | ok a s1 => rw [hms] at he; cases he
  | err e s1 =>
    rw [hms] at he
    simp only [] at he
    by_cases hd : (e == PyErr.decodeError) = true
    · rw [if_pos hd] at he
      have hd : e = .decodeError := by simpa using hd
      subst hd
      have h1 := hm _ _ hms
      have h2 := hh _ _ he
      rw [h2, h1]
    · rw [if_neg hd] at he
      injection he with h1 h2
      subst h1
      exact absurd rfl hd

/-- the usual shape: look at the next octet, and either reset and fail or go on -/
theorem Restores.preview {p : Nat → Prop} [DecidablePred p] {f : Nat → D α} (hf : ∀ a, Safe E (f a))
    (hE : .decodeError ∉ E) :
    Restores (do
      let byte ← Mms.preview
      if p byte then do
        resetPreview
        M.throw .decodeError
      else f byte) := by
  intro s s' h
  rw [M.bind_apply] at h
  unfold Mms.preview at h
  cases hr : s.rem[s.k]? with
  | none =>
    rw [hr] at h
    injection h with h1 _
    cases h1
  | some b =>
    rw [hr] at h
    simp only [] at h
    by_cases hp : p b
    · rw [if_pos hp, M.bind_apply] at h
      injection h with _ h
      exact h.symm
    · rw [if_neg hp] at h
      exact absurd ((hf b _).2 _ _ h).1 hE

/-! ### the WSP decoders -/

/-- the two errors every decoder may raise -/
abbrev E0 : List PyErr := [.stopIteration, .decodeError]
/-- and those of the content type decoders -/
abbrev E1 : List PyErr := [.stopIteration, .decodeError, .attributeError, .overflowError]
/-- and those of MMS header values before they are turned into RuntimeError -/
abbrev E2 : List PyErr := [.stopIteration, .decodeError, .attributeError, .overflowError, .valueError, .exception]

theorem mem_sub {l l' : List PyErr} (h : (l.all (fun e => l'.contains e)) = true) : ∀ e ∈ l, e ∈ l' := by
  intro e he
  have := List.all_eq_true.1 h e he
  simpa using this

theorem uintVarLoop_safe (l : List Nat) (u : Nat) : ∀ s' ,
    (∀ a, uintVarLoop u l = .ok a s' → s'.rem <:+ l ∧ s'.rem.length < l.length) ∧
    (∀ e, uintVarLoop u l = .err e s' → e = .stopIteration ∧ s'.rem <:+ l) := by
  induction l generalizing u with
  | nil =>
    intro s'
    constructor
    · intro a h; cases h
    · intro e h
      injection h with h1 h2
      subst h1 h2
      exact ⟨rfl, List.suffix_refl _⟩
  | cons b l ih =>
    intro s'
    unfold uintVarLoop
    split
    · have := ih ((u <<< 7) ||| (b &&& 0x7f)) s'
      constructor
      · intro a h
        have := this.1 a h
        exact ⟨this.1.trans (List.suffix_cons _ _), by simp; omega⟩
      · intro e h
        have := this.2 e h
        exact ⟨this.1, this.2.trans (List.suffix_cons _ _)⟩
    · constructor
      · intro a h
        injection h with h1 h2
        subst h2
        exact ⟨List.suffix_cons _ _, by simp⟩
      · intro e h; cases h

theorem uintVar_safe : Safe [.stopIteration] decodeUintVar := by
  intro s
  constructor
  · intro a s' h; exact ((uintVarLoop_safe _ _ s').1 a h).1
  · intro e s' h
    have := (uintVarLoop_safe _ _ s').2 e h
    exact ⟨by rw [this.1]; simp, this.2⟩

theorem uintVar_prog : Prog decodeUintVar := by
  intro s a s' h; exact ((uintVarLoop_safe _ _ s').1 a h).2

theorem textLoop_safe (l : List Nat) (acc : Str) : ∀ s' ,
    (∀ a, textLoop acc l = .ok a s' → s'.rem <:+ l ∧ s'.rem.length < l.length) ∧
    (∀ e, textLoop acc l = .err e s' → e = .stopIteration ∧ s'.rem <:+ l) := by
  induction l generalizing acc with
  | nil =>
    intro s'
    constructor
    · intro a h; cases h
    · intro e h
      injection h with h1 h2
      subst h1 h2
      exact ⟨rfl, List.suffix_refl _⟩
  | cons b l ih =>
    intro s'
    unfold textLoop
    split
    · have := ih (acc ++ [b]) s'
      constructor
      · intro a h
        have := this.1 a h
        exact ⟨this.1.trans (List.suffix_cons _ _), by simp; omega⟩
      · intro e h
        have := this.2 e h
        exact ⟨this.1, this.2.trans (List.suffix_cons _ _)⟩
    · constructor
      · intro a h
        injection h with h1 h2
        subst h2
        exact ⟨List.suffix_cons _ _, by simp⟩
      · intro e h; cases h

theorem textLoop_D : Safe [.stopIteration] (fun s => textLoop [] s.rem : D Str) := by
  intro s
  constructor
  · intro a s' h; exact ((textLoop_safe _ _ s').1 a h).1
  · intro e s' h
    have := (textLoop_safe _ _ s').2 e h
    exact ⟨by rw [this.1]; simp, this.2⟩

theorem textLoop_prog : Prog (fun s => textLoop [] s.rem : D Str) := by
  intro s a s' h; exact ((textLoop_safe _ _ s').1 a h).2

theorem textString_cases (s : It) : decodeTextString s = textLoop [] s.rem ∨
    ∃ r, s.rem = 127 :: r ∧ decodeTextString s = textLoop [] r := by
  unfold decodeTextString
  split
  · rename_i r h; exact .inr ⟨r, h, rfl⟩
  · exact .inl rfl

theorem textString_safe : Safe [.stopIteration] decodeTextString := by
  intro s
  rcases textString_cases s with h | ⟨r, hr, h⟩
  · rw [h]; exact textLoop_D s
  · rw [h, hr]
    constructor
    · intro a s' h; exact ((textLoop_safe _ _ s').1 a h).1.trans (List.suffix_cons _ _)
    · intro e s' h
      have := (textLoop_safe _ _ s').2 e h
      exact ⟨by rw [this.1]; simp, this.2.trans (List.suffix_cons _ _)⟩

theorem textString_prog : Prog decodeTextString := by
  intro s a s' h
  rcases textString_cases s with h1 | ⟨r, hr, h1⟩
  · rw [h1] at h; exact textLoop_prog s a s' h
  · rw [h1] at h
    rw [hr]
    have := ((textLoop_safe _ _ s').1 a h).2
    simp; omega

theorem tokenLoop_safe (l : List Nat) (acc : Str) : ∀ s' ,
    (∀ a, tokenLoop acc l = .ok a s' → s'.rem <:+ l ∧ s'.rem.length < l.length) ∧
    (∀ e, tokenLoop acc l = .err e s' → e = .stopIteration ∧ s'.rem <:+ l) := by
  induction l generalizing acc with
  | nil =>
    intro s'
    constructor
    · intro a h; cases h
    · intro e h
      injection h with h1 h2
      subst h1 h2
      exact ⟨rfl, List.suffix_refl _⟩
  | cons b l ih =>
    intro s'
    unfold tokenLoop
    split
    · have := ih (acc ++ [b]) s'
      constructor
      · intro a h
        have := this.1 a h
        exact ⟨this.1.trans (List.suffix_cons _ _), by simp; omega⟩
      · intro e h
        have := this.2 e h
        exact ⟨this.1, this.2.trans (List.suffix_cons _ _)⟩
    · constructor
      · intro a h
        injection h with h1 h2
        subst h2
        exact ⟨List.suffix_cons _ _, by simp⟩
      · intro e h; cases h

theorem tokenLoop_D : Safe [.stopIteration] (fun s => tokenLoop [] s.rem : D Str) := by
  intro s
  constructor
  · intro a s' h; exact ((tokenLoop_safe _ _ s').1 a h).1
  · intro e s' h
    have := (tokenLoop_safe _ _ s').2 e h
    exact ⟨by rw [this.1]; simp, this.2⟩

theorem tokenLoop_prog : Prog (fun s => tokenLoop [] s.rem : D Str) := by
  intro s a s' h; exact ((tokenLoop_safe _ _ s').1 a h).2

theorem resetThrow : Safe E0 (do resetPreview; M.throw .decodeError : D α) :=
  .bind .reset (fun _ => .throw (by simp))

theorem resetThrow_prog : Prog (do resetPreview; M.throw .decodeError : D α) :=
  .bind_right (E := E0) .reset (fun _ => .throw)

theorem shortInteger_safe : Safe E0 decodeShortInteger :=
  .bind (.preview (by simp)) (fun _ => .ite resetThrow (.bind (.next (by simp)) (fun _ => .pure _)))

theorem shortInteger_prog : Prog decodeShortInteger :=
  .bind_right (E := E0) (.preview (by simp)) (fun _ => .ite resetThrow_prog (.bind_left (E := E0) .next (fun _ => .pure _)))

theorem shortInteger_restores : Restores decodeShortInteger :=
  .preview (E := [.stopIteration]) (fun _ => .bind (.next (by simp)) (fun _ => .pure _)) (by simp)

theorem shortLength_safe : Safe E0 decodeShortLength :=
  .bind (.preview (by simp)) (fun _ => .ite resetThrow (.next (by simp)))

theorem shortLength_prog : Prog decodeShortLength :=
  .bind_right (E := E0) (.preview (by simp)) (fun _ => .ite resetThrow_prog .next)

theorem shortLength_restores : Restores decodeShortLength :=
  .preview (E := [.stopIteration]) (fun _ => .next (by simp)) (by simp)

theorem longIntLoop_safe (acc n : Nat) : Safe [.stopIteration] (longIntLoop acc n) := by
  induction n generalizing acc with
  | zero => exact .pure _
  | succ n ih => exact .bind (.next (by simp)) (fun _ => ih _)

theorem longInteger_safe : Safe E0 decodeLongInteger :=
  .bind shortLength_safe (fun _ => (longIntLoop_safe _ _).mono (mem_sub rfl))

theorem longInteger_prog : Prog decodeLongInteger := shortLength_prog.bind_left (fun _ => longIntLoop_safe _ _)

theorem longInteger_restores : Restores decodeLongInteger :=
  shortLength_restores.bind (fun _ => longIntLoop_safe _ _) (by simp)

theorem quotedString_safe : Safe E0 decodeQuotedString :=
  .bind (.preview (by simp)) (fun _ => .ite resetThrow (.bind (.next (by simp)) (fun _ => textString_safe.mono (mem_sub rfl))))

theorem quotedString_restores : Restores decodeQuotedString :=
  .preview (E := [.stopIteration]) (fun _ => .bind (.next (by simp)) (fun _ => textString_safe)) (by simp)

theorem tokenText_safe : Safe E0 decodeTokenText :=
  .bind (.preview (by simp)) (fun _ => .ite resetThrow (tokenLoop_D.mono (mem_sub rfl)))

theorem tokenText_prog : Prog decodeTokenText :=
  .bind_right (E := E0) (.preview (by simp)) (fun _ => .ite resetThrow_prog tokenLoop_prog)

theorem tokenText_restores : Restores decodeTokenText :=
  .preview (E := [.stopIteration]) (fun _ => tokenLoop_D) (by simp)

theorem extensionMedia_safe : Safe E0 decodeExtensionMedia :=
  .bind (.preview (by simp)) (fun _ => .ite resetThrow (textLoop_D.mono (mem_sub rfl)))

theorem extensionMedia_prog : Prog decodeExtensionMedia :=
  .bind_right (E := E0) (.preview (by simp)) (fun _ => .ite resetThrow_prog textLoop_prog)

theorem extensionMedia_restores : Restores decodeExtensionMedia :=
  .preview (E := [.stopIteration]) (fun _ => textLoop_D) (by simp)

theorem constrainedEncoding_safe : Safe E0 decodeConstrainedEncoding :=
  .orDE ((Safe.bind shortInteger_safe (fun _ => .pure _)).mono (mem_sub rfl))
    (.bind extensionMedia_safe (fun _ => .pure _))

theorem constrainedEncoding_prog : Prog decodeConstrainedEncoding :=
  .orDE (E := E0) (.bind shortInteger_safe (fun _ => .pure _)) (shortInteger_prog.bind_left (E := E0) (fun _ => .pure _))
    (extensionMedia_prog.bind_left (E := E0) (fun _ => .pure _))

theorem constrainedEncoding_restores : Restores decodeConstrainedEncoding :=
  .orDE (shortInteger_restores.bind (E := []) (fun _ => .pure _) (by simp))
    (extensionMedia_restores.bind (E := []) (fun _ => .pure _) (by simp))

theorem valueLength_safe : Safe E0 decodeValueLength :=
  .orDE (shortLength_safe.mono (mem_sub rfl))
    (.bind (.preview (by simp)) (fun _ => .ite (.bind (.next (by simp)) (fun _ => uintVar_safe.mono (mem_sub rfl))) resetThrow))

theorem valueLength_prog : Prog decodeValueLength :=
  .orDE shortLength_safe shortLength_prog
    (.bind_right (E := E0) (.preview (by simp)) (fun _ => .ite (.bind_right (E := E0) (.next (by simp)) (fun _ => uintVar_prog))
      resetThrow_prog))

theorem valueLength_restores : Restores decodeValueLength := by
  refine .orDE shortLength_restores ?_
  have h := Restores.preview (α := Nat) (E := [.stopIteration]) (p := fun b => ¬ b = 31)
    (f := fun _ => do let _ ← next; decodeUintVar) (fun _ => .bind (.next (by simp)) (fun _ => uintVar_safe)) (by simp)
  intro s s' he
  apply h s s'
  rw [← he]
  refine congrFun (congrArg (Mms.preview >>= ·) (funext fun b => ?_)) s
  by_cases hb : b = 31 <;> simp [hb]

theorem integerValue_safe : Safe E0 decodeIntegerValue := .orDE (shortInteger_safe.mono (mem_sub rfl)) longInteger_safe

theorem integerValue_prog : Prog decodeIntegerValue := .orDE shortInteger_safe shortInteger_prog longInteger_prog

theorem integerValue_restores : Restores decodeIntegerValue := .orDE shortInteger_restores longInteger_restores

theorem mediaName_err {n : Nat} : ∀ e, mediaName n = .error e → e ∈ E0 := by
  intro e h
  unfold mediaName at h
  split at h
  · cases h
  · injection h with h; subst h; simp

theorem wellKnownMedia_safe : Safe E0 decodeWellKnownMedia := .bind integerValue_safe (fun _ => .lift mediaName_err)

theorem mediaType_safe : Safe E0 decodeMediaType := .orDE (wellKnownMedia_safe.mono (mem_sub rfl)) extensionMedia_safe

theorem constrainedMedia_safe : Safe E0 decodeConstrainedMedia := by
  refine .bind constrainedEncoding_safe (fun v => ?_)
  cases v with
  | int n => exact .lift mediaName_err
  | str s => exact .pure _
  | _ => exact .throw (by simp)

theorem constrainedMedia_prog : Prog decodeConstrainedMedia := by
  refine constrainedEncoding_prog.bind_left (E := E0) (fun v => ?_)
  cases v with
  | int n => exact .lift mediaName_err
  | str s => exact .pure _
  | _ => exact .throw (by simp)

theorem xrangeCheck_safe (n : Nat) : Safe [.overflowError] (xrangeCheck n) :=
  .ite (.pure _) (.throw (by simp))

theorem nextN_safe (n : Nat) : Safe [.stopIteration] (nextN n) := by
  induction n with
  | zero => exact .pure _
  | succ n ih => exact .bind (.next (by simp)) (fun _ => .bind ih (fun _ => .pure _))

theorem qValue_safe : Safe [.stopIteration, .overflowError] decodeQValue :=
  .bind (uintVar_safe.mono (mem_sub rfl)) (fun _ => .ite (.ite (.throw (by simp)) (.pure _)) (.pure _))

theorem versionValue_safe : Safe [.stopIteration] decodeVersionValue :=
  .orDE ((Safe.bind shortInteger_safe (fun _ => .pure _)).mono (mem_sub rfl)) textString_safe

theorem textValue_safe : Safe [.stopIteration] decodeTextValue :=
  .orDE (tokenText_safe.mono (mem_sub rfl)) (.orDE (quotedString_safe.mono (mem_sub rfl)) (.pure _))

theorem dateValue_safe : Safe [.stopIteration, .decodeError, .valueError] decodeDateValue := by
  refine .bind (longInteger_safe.mono (mem_sub rfl)) (fun n => .lift ?_)
  intro e h
  unfold utcFromTimestamp at h
  split at h
  · cases h
  · injection h with h; subst h; simp

theorem wellKnownCharset_safe : Safe E0 decodeWellKnownCharset := by
  refine .bind (.preview (by simp)) (fun _ => .bind .reset (fun _ => .ite (.bind (.next (by simp)) (fun _ => .pure _)) ?_))
  refine .bind integerValue_safe (fun n => ?_)
  split
  · exact .pure _
  · exact .pure _

theorem wellKnownParameter_err (version : Str) (h : ∃ t, getWellKnownParameters version = .ok t) :
    Safe E0 (decodeWellKnownParameter version) := by
  obtain ⟨t, ht⟩ := h
  refine .bind integerValue_safe (fun n => .bind (.lift ?_) (fun t => ?_))
  · intro e he; rw [ht] at he; cases he
  · split
    · exact .pure _
    · exact .throw (by simp)

theorem wellKnownParameter_prog (version : Str) (h : ∃ t, getWellKnownParameters version = .ok t) :
    Prog (decodeWellKnownParameter version) := by
  obtain ⟨t, ht⟩ := h
  refine integerValue_prog.bind_left (E := E0) (fun n => .bind (.lift ?_) (fun t => ?_))
  · intro e he; rw [ht] at he; cases he
  · split
    · exact .pure _
    · exact .throw (by simp)

/-- the value types of the version 1.2 table -/
def types12 : List PType :=
  [.qValue, .wellKnownCharset, .versionValue, .integerValue, .textString, .fieldName, .shortInteger, .constrainedEncoding]

theorem params12_types : ∀ e ∈ params12, e.2.2 ∈ types12 := by decide +kernel

theorem lookupNum_mem {γ : Type} {t : List (Nat × γ)} {n : Nat} {x : γ} (h : lookupNum t n = some x) : (n, x) ∈ t := by
  induction t with
  | nil => cases h
  | cons a t ih =>
    obtain ⟨k, y⟩ := a
    simp only [lookupNum] at h
    split at h
    · rename_i hk
      injection h with h
      subst h hk
      simp
    · exact List.mem_cons_of_mem _ (ih h)

/-- what `decode_well_known_parameter` can return for version 1.2 -/
theorem wellKnownParameter_type {s s' : It} {name : Str} {ty : PType}
    (h : decodeWellKnownParameter (py! "1.2") s = .ok (name, ty) s') : ty ∈ types12 := by
  unfold decodeWellKnownParameter at h
  rw [M.bind_apply] at h
  cases hi : decodeIntegerValue s with
  | err e s1 => rw [hi] at h; cases h
  | ok n s1 =>
    rw [hi] at h
    simp only [] at h
    rw [params12_eq, M.bind_ok (M.lift_ok _ _)] at h
    cases hl : lookupNum params12 n with
    | none => rw [hl] at h; cases h
    | some e =>
      rw [hl] at h
      injection h with h1 h2
      have := params12_types _ (lookupNum_mem hl)
      rw [h1] at this
      exact this

theorem typed_safe {ty : PType} (h : ty ∈ types12) : Safe E1 (decodeTyped ty) := by
  simp only [types12, List.mem_cons, List.not_mem_nil, or_false] at h
  rcases h with rfl | rfl | rfl | rfl | rfl | rfl | rfl | rfl
  · exact qValue_safe.mono (mem_sub rfl)
  · exact .bind (wellKnownCharset_safe.mono (mem_sub rfl)) (fun _ => .pure _)
  · exact .bind (versionValue_safe.mono (mem_sub rfl)) (fun _ => .pure _)
  · exact .bind (integerValue_safe.mono (mem_sub rfl)) (fun _ => .pure _)
  · exact .bind (textString_safe.mono (mem_sub rfl)) (fun _ => .pure _)
  · exact .throw (by simp)
  · exact .bind (shortInteger_safe.mono (mem_sub rfl)) (fun _ => .pure _)
  · exact constrainedEncoding_safe.mono (mem_sub rfl)

/-- bind where the continuation is only known to be safe for the values the first half can return -/
theorem Safe.bind_of {m : D α} {f : α → D β} (hm : Safe E m) (hf : ∀ s a s', m s = .ok a s' → Safe E (f a)) :
    Safe E (m >>= f) := by
  intro s
  rw [M.bind_apply]
  cases h : m s with
  | err e s1 =>
    constructor
    · intro b s' h'; cases h'
    · intro e' s' h'
      injection h' with h1 h2
      subst h1 h2
      exact (hm s).2 _ _ h
  | ok a s1 =>
    have h1 := (hm s).1 _ _ h
    have hfa := hf _ _ _ h
    constructor
    · intro b s' h'
      exact ((hfa s1).1 _ _ h').trans h1
    · intro e' s' h'
      have := (hfa s1).2 _ _ h'
      exact ⟨this.1, this.2.trans h1⟩

theorem typedParameter_safe : Safe E1 decodeTypedParameter := by
  refine Safe.bind_of ((wellKnownParameter_err _ ⟨_, params12_eq⟩).mono (mem_sub rfl)) ?_
  intro s a s' h
  obtain ⟨name, ty⟩ := a
  exact .bind (typed_safe (wellKnownParameter_type h)) (fun _ => .pure _)

theorem Prog.bind_left_of {m : D α} {f : α → D β} (hm : Prog m) (hf : ∀ s a s', m s = .ok a s' → Safe E (f a)) :
    Prog (m >>= f) := by
  intro s b s' h
  rw [M.bind_apply] at h
  cases hms : m s with
  | err e s1 => rw [hms] at h; cases h
  | ok a s1 =>
    rw [hms] at h
    have h1 := hm _ _ _ hms
    have h2 := ((hf _ _ _ hms s1).1 _ _ h).length_le
    omega

theorem typedParameter_prog : Prog decodeTypedParameter := by
  refine Prog.bind_left_of (E := E1) (wellKnownParameter_prog _ ⟨_, params12_eq⟩) ?_
  intro s a s' h
  obtain ⟨name, ty⟩ := a
  exact .bind (typed_safe (wellKnownParameter_type h)) (fun _ => .pure _)

theorem untypedValue_safe : Safe [.stopIteration] decodeUntypedValue :=
  .orDE (.bind (integerValue_safe.mono (mem_sub rfl)) (fun _ => .pure _)) (.bind textValue_safe (fun _ => .pure _))

theorem untypedParameter_safe : Safe E0 decodeUntypedParameter :=
  .bind tokenText_safe (fun _ => .bind (untypedValue_safe.mono (mem_sub rfl)) (fun _ => .pure _))

theorem untypedParameter_prog : Prog decodeUntypedParameter :=
  tokenText_prog.bind_left (fun _ => .bind untypedValue_safe (fun _ => .pure _))

theorem parameter_safe : Safe E1 decodeParameter :=
  .orDE (typedParameter_safe.mono (mem_sub rfl)) (untypedParameter_safe.mono (mem_sub rfl))

theorem parameter_prog : Prog decodeParameter :=
  .orDE typedParameter_safe typedParameter_prog untypedParameter_prog

theorem paramLoop_safe (fuel : Nat) (d : Dict Val) (s : It) (h : s.rem.length < fuel) :
    ∀ e s', paramLoop fuel d s = .err e s' → e ∈ [PyErr.decodeError, .attributeError, .overflowError] := by
  induction fuel generalizing d s with
  | zero => omega
  | succ fuel ih =>
    intro e s' he
    simp only [paramLoop] at he
    cases hp : decodeParameter s with
    | ok a s1 =>
      obtain ⟨p, v⟩ := a
      rw [hp] at he
      have := parameter_prog _ _ _ hp
      exact ih _ s1 (by omega) e s' he
    | err e1 s1 =>
      rw [hp] at he
      have := ((parameter_safe s).2 _ _ hp).1
      simp only [List.mem_cons, List.not_mem_nil, or_false] at this
      rcases this with rfl | rfl | rfl | rfl
      · cases he
      all_goals
        injection he with h1 _
        subst h1
        simp

theorem generalFormInner_err (bytes : List Nat) : ∀ e s', generalFormInner bytes (It.new bytes) = .err e s' → e ∈ E1 := by
  intro e s' h
  unfold generalFormInner at h
  rw [M.bind_apply] at h
  cases hm : decodeMediaType (It.new bytes) with
  | err e1 s1 =>
    rw [hm] at h
    injection h with h1 _
    subst h1
    exact mem_sub (l := E0) (l' := E1) rfl _ ((mediaType_safe _).2 _ _ hm).1
  | ok a s1 =>
    rw [hm] at h
    simp only [] at h
    rw [M.bind_apply] at h
    have hl := ((mediaType_safe _).1 _ _ hm).length_le
    cases hp : paramLoop (bytes.length + 1) [] s1 with
    | ok d s2 => rw [hp] at h; cases h
    | err e2 s2 =>
      rw [hp] at h
      injection h with h1 _
      subst h1
      have := paramLoop_safe _ _ _ (by simp [It.new] at hl; omega) _ _ hp
      exact mem_sub (l := [PyErr.decodeError, .attributeError, .overflowError]) (l' := E1) rfl _ this

theorem contentGeneralForm_safe : Safe E1 decodeContentGeneralForm :=
  .bind (valueLength_safe.mono (mem_sub rfl)) (fun _ => .bind ((xrangeCheck_safe _).mono (mem_sub rfl))
    (fun _ => .bind ((nextN_safe _).mono (mem_sub rfl)) (fun bytes => .onFresh (generalFormInner_err bytes))))

theorem contentTypeValue_safe : Safe E1 decodeContentTypeValue :=
  .orDE ((Safe.bind constrainedMedia_safe (fun _ => .pure _)).mono (mem_sub rfl)) contentGeneralForm_safe

theorem acceptTail_safe (media : Str) : Safe E1 (acceptTail media) := by
  refine .bind (.preview (by simp)) (fun _ => .ite ?_ (.bind .reset (fun _ => .pure _)))
  refine .bind (.next (by simp)) (fun _ => .bind (qValue_safe.mono (mem_sub rfl)) (fun _ => ?_))
  refine .bind (.orDE (.bind (parameter_safe.mono (mem_sub rfl)) (fun _ => .pure _)) (.pure _)) (fun _ => ?_)
  exact .bind .reset (fun _ => .pure _)

theorem acceptValue_safe : Safe E1 decodeAcceptValue := by
  refine .orDE (constrainedMedia_safe.mono (mem_sub rfl)) (.bind (valueLength_safe.mono (mem_sub rfl)) (fun _ => ?_))
  refine .bind (.orDE (wellKnownMedia_safe.mono (mem_sub rfl)) (extensionMedia_safe.mono (mem_sub rfl))) (fun m => ?_)
  exact acceptTail_safe m

theorem pragmaValue_safe : Safe E1 decodePragmaValue := by
  refine .bind (.preview (by simp)) (fun _ => .ite (.bind (.next (by simp)) (fun _ => .pure _)) ?_)
  exact .bind .reset (fun _ => .bind (valueLength_safe.mono (mem_sub rfl)) (fun _ => parameter_safe))

theorem wapValue_safe (name : Str) : Safe E1 (decodeWapValue name) :=
  .ite (.bind acceptValue_safe (fun _ => .pure _))
    (.ite (.bind pragmaValue_safe (fun _ => .pure _)) (.bind (textString_safe.mono (mem_sub rfl)) (fun _ => .pure _)))

theorem wellKnownHeader_tail (n : Nat) : Safe E1 (do
    let names ← M.lift (getHeaderFieldNames (py! "1.2"))
    match names[n]? with
    | none => M.throw .decodeError
    | some name => do
      let v ← decodeWapValue name
      pure (name, v) : D (Str × HVal)) := by
  refine .bind (.lift ?_) (fun names => ?_)
  · intro e he
    obtain ⟨names, hn, _⟩ := header_versions 2 (by decide) (by decide)
    have : getHeaderFieldNames (py! "1.2") = .ok names := hn
    rw [this] at he
    cases he
  · split
    · exact .throw (by simp)
    · exact .bind (wapValue_safe _) (fun _ => .pure _)

theorem wellKnownHeader_safe : Safe E1 decodeWellKnownHeader :=
  .bind (shortInteger_safe.mono (mem_sub rfl)) (fun n => wellKnownHeader_tail n)

theorem wellKnownHeader_prog : Prog decodeWellKnownHeader := shortInteger_prog.bind_left (fun n => wellKnownHeader_tail n)

theorem applicationHeader_safe : Safe [.stopIteration] decodeApplicationHeader :=
  .bind (.orDE (tokenText_safe.mono (mem_sub rfl)) textString_safe)
    (fun _ => .bind textString_safe (fun _ => .pure _))

theorem applicationHeader_prog : Prog decodeApplicationHeader :=
  Prog.bind_left (E := [.stopIteration]) (.orDE tokenText_safe tokenText_prog textString_prog)
    (fun _ => .bind textString_safe (fun _ => .pure _))

theorem wspHeader_safe : Safe E1 decodeWspHeader :=
  .orDE (wellKnownHeader_safe.mono (mem_sub rfl)) (applicationHeader_safe.mono (mem_sub rfl))

theorem wspHeader_prog : Prog decodeWspHeader :=
  .orDE wellKnownHeader_safe wellKnownHeader_prog applicationHeader_prog

/-! ### the MMS decoders -/

theorem encodedString_safe : Safe [.stopIteration, .exception] decodeEncodedStringValue := by
  refine .orDE (.bind (valueLength_safe.mono (mem_sub rfl)) (fun _ => .bind ?_ (fun _ => textString_safe.mono (mem_sub rfl))))
    (textString_safe.mono (mem_sub rfl))
  refine wellKnownCharset_safe.tryCatch_all (by simp) ?_
  intro e he hp
  simp only [List.mem_cons, List.not_mem_nil, or_false] at he
  rcases he with rfl | rfl
  · simp
  · cases hp

theorem booleanValue_safe : Safe E0 decodeBooleanValue :=
  .bind (.preview (by simp)) (fun _ => .ite resetThrow (.bind (.next (by simp)) (fun _ => .pure _)))

theorem deliveryTime_safe : Safe E0 decodeDeliveryTimeValue :=
  .bind valueLength_safe (fun _ => .bind (.next (by simp)) (fun _ => .bind longInteger_safe
    (fun _ => .ite (.pure _) (.ite (.pure _) (.throw (by simp))))))

theorem fromValue_safe : Safe [.stopIteration, .decodeError, .exception] decodeFromValue :=
  .bind (valueLength_safe.mono (mem_sub rfl)) (fun _ => .bind (.next (by simp))
    (fun _ => .ite (.pure _) (encodedString_safe.mono (mem_sub rfl))))

theorem messageClass_safe : Safe E0 decodeMessageClassValue := by
  refine .bind (.preview (by simp)) (fun b => ?_)
  split
  · exact .bind (.next (by simp)) (fun _ => .pure _)
  · exact .bind .reset (fun _ => tokenText_safe)

theorem messageType_safe : Safe E0 decodeMessageTypeValue := by
  refine .bind (.preview (by simp)) (fun b => ?_)
  split
  · exact .bind (.next (by simp)) (fun _ => .pure _)
  · exact .bind .reset (fun _ => .pure _)

theorem priority_safe : Safe E0 decodePriorityValue := by
  refine .bind (.preview (by simp)) (fun b => ?_)
  split
  · exact .bind (.next (by simp)) (fun _ => .pure _)
  · exact resetThrow

theorem visibility_safe : Safe E0 decodeSenderVisibilityValue :=
  .bind (.preview (by simp)) (fun _ => .ite resetThrow (.bind (.next (by simp)) (fun _ => .pure _)))

theorem responseStatus_safe : Safe E0 decodeResponseStatusValue := by
  refine .bind (.preview (by simp)) (fun b => .bind (.next (by simp)) (fun _ => ?_))
  split
  · exact .pure _
  · exact .pure _

theorem status_safe : Safe E0 decodeStatusValue := by
  refine .bind (.next (by simp)) (fun b => ?_)
  split
  · exact .pure _
  · exact .pure _

theorem expiry_safe : Safe [.stopIteration, .decodeError, .valueError] decodeExpiryValue :=
  .bind (valueLength_safe.mono (mem_sub rfl)) (fun _ => .bind (.next (by simp)) (fun _ =>
    .ite (.bind dateValue_safe (fun _ => .pure _))
      (.ite (.bind (integerValue_safe.mono (mem_sub rfl)) (fun _ => .pure _)) (.throw (by simp)))))

theorem mmsValue_safe (ty : MType) : Safe E2 (decodeMmsValue ty) := by
  cases ty with
  | encodedStringValue => exact .bind (encodedString_safe.mono (mem_sub rfl)) (fun _ => .pure _)
  | uriValue => exact .bind (textString_safe.mono (mem_sub rfl)) (fun _ => .pure _)
  | contentTypeValue => exact .bind (contentTypeValue_safe.mono (mem_sub rfl)) (fun _ => .pure _)
  | dateValue => exact .bind (dateValue_safe.mono (mem_sub rfl)) (fun _ => .pure _)
  | booleanValue => exact .bind (booleanValue_safe.mono (mem_sub rfl)) (fun _ => .pure _)
  | deliveryTimeValue => exact .bind (deliveryTime_safe.mono (mem_sub rfl)) (fun _ => .pure _)
  | expiryValue => exact .bind (expiry_safe.mono (mem_sub rfl)) (fun _ => .pure _)
  | fromValue => exact .bind (fromValue_safe.mono (mem_sub rfl)) (fun _ => .pure _)
  | messageClassValue => exact .bind (messageClass_safe.mono (mem_sub rfl)) (fun _ => .pure _)
  | textString => exact .bind (textString_safe.mono (mem_sub rfl)) (fun _ => .pure _)
  | messageTypeValue => exact .bind (messageType_safe.mono (mem_sub rfl)) (fun _ => .pure _)
  | versionValue => exact .bind (versionValue_safe.mono (mem_sub rfl)) (fun _ => .pure _)
  | longInteger => exact .bind (longInteger_safe.mono (mem_sub rfl)) (fun _ => .pure _)
  | priorityValue => exact .bind (priority_safe.mono (mem_sub rfl)) (fun _ => .pure _)
  | responseStatusValue => exact .bind (responseStatus_safe.mono (mem_sub rfl)) (fun _ => .pure _)
  | senderVisibilityValue => exact .bind (visibility_safe.mono (mem_sub rfl)) (fun _ => .pure _)
  | statusValue => exact .bind (status_safe.mono (mem_sub rfl)) (fun _ => .pure _)

theorem wrapFatal_safe (ty : MType) : Safe [.decodeError, .runtimeError] (wrapFatal (decodeMmsValue ty)) := by
  refine (mmsValue_safe ty).tryCatch_all (by simp) ?_
  intro e he hp
  simp only [List.mem_cons, List.not_mem_nil, or_false] at he
  rcases he with rfl | rfl | rfl | rfl | rfl | rfl <;> first | (cases hp; done) | simp

/-- the errors of `decode_header` -/
abbrev EH : List PyErr := [.stopIteration, .decodeError, .attributeError, .overflowError, .runtimeError]

theorem mmsHeader_lift (p : Nat) : Safe EH (M.lift (decodeShortIntegerFromByte p) : D Nat) := by
  refine .lift ?_
  intro e h
  unfold decodeShortIntegerFromByte at h
  split at h
  · injection h with h; subst h; simp
  · cases h

theorem mmsHeader_safe : Safe EH decodeMmsHeader := by
  refine .bind (.preview (by simp)) (fun p => .bind (mmsHeader_lift p) (fun b => ?_))
  split
  · exact .bind (.next (by simp)) (fun _ => .bind ((wrapFatal_safe _).mono (mem_sub rfl)) (fun _ => .pure _))
  · exact .bind .reset (fun _ => .throw (by simp))

theorem mmsHeader_prog : Prog decodeMmsHeader := by
  refine .bind_right (E := EH) (.preview (by simp)) (fun p => .bind_right (mmsHeader_lift p) (fun b => ?_))
  split
  · exact Prog.next.bind_left (fun _ => .bind (wrapFatal_safe _) (fun _ => .pure _))
  · exact resetThrow_prog

theorem header_safe : Safe EH decodeHeader := .orDE (mmsHeader_safe.mono (mem_sub rfl)) (wspHeader_safe.mono (mem_sub rfl))

theorem header_prog : Prog decodeHeader := .orDE mmsHeader_safe mmsHeader_prog wspHeader_prog

/-- the errors of the header loops: StopIteration ends them -/
abbrev EL : List PyErr := [.decodeError, .attributeError, .overflowError, .runtimeError]

theorem headerLoop_safe (fuel : Nat) (d : Dict HVal) (s : It) (h : s.rem.length < fuel) :
    (∀ a s', headerLoop fuel d s = .ok a s' → s'.rem <:+ s.rem) ∧
    (∀ e s', headerLoop fuel d s = .err e s' → e ∈ EL ∧ s'.rem <:+ s.rem) := by
  induction fuel generalizing d s with
  | zero => omega
  | succ fuel ih =>
    simp only [headerLoop]
    cases hp : decodeHeader s with
    | ok a s1 =>
      obtain ⟨n, v⟩ := a
      have h1 := header_prog _ _ _ hp
      have h2 := (header_safe s).1 _ _ hp
      simp only []
      split
      · constructor
        · intro a s' he
          injection he with _ he
          subst he
          exact h2
        · intro e s' he; cases he
      · have := ih (d.set n v) s1 (by omega)
        exact ⟨fun a s' he => (this.1 a s' he).trans h2, fun e s' he => ⟨(this.2 e s' he).1, (this.2 e s' he).2.trans h2⟩⟩
    | err e1 s1 =>
      have h1 := (header_safe s).2 _ _ hp
      obtain ⟨h1, h3⟩ := h1
      simp only [List.mem_cons, List.not_mem_nil, or_false] at h1
      rcases h1 with rfl | rfl | rfl | rfl | rfl
      · constructor
        · intro a s' he
          injection he with _ h2
          subst h2
          exact h3
        · intro e s' he; cases he
      all_goals
        constructor
        · intro a s' he; cases he
        · intro e s' he
          injection he with h1 h2
          subst h1 h2
          exact ⟨by simp, h3⟩

theorem partHeaderLoop_safe (fuel : Nat) (d : Dict HVal) (s : It) (h : s.rem.length < fuel) :
    ∀ e s', partHeaderLoop fuel d s = .err e s' → e ∈ EL := by
  induction fuel generalizing d s with
  | zero => omega
  | succ fuel ih =>
    intro e s' he
    simp only [partHeaderLoop] at he
    cases hp : decodeHeader s with
    | ok a s1 =>
      obtain ⟨p, v⟩ := a
      rw [hp] at he
      have := header_prog _ _ _ hp
      exact ih _ s1 (by omega) e s' he
    | err e1 s1 =>
      rw [hp] at he
      have := ((header_safe s).2 _ _ hp).1
      simp only [List.mem_cons, List.not_mem_nil, or_false] at this
      rcases this with rfl | rfl | rfl | rfl | rfl
      · cases he
      all_goals
        injection he with h1 _
        subst h1
        simp

theorem partHeaders_err (bytes : List Nat) : ∀ e s', partHeaders bytes (It.new bytes) = .err e s' → e ∈ EH := by
  intro e s' h
  unfold partHeaders at h
  rw [M.bind_apply] at h
  cases hm : decodeContentTypeValue (It.new bytes) with
  | err e1 s1 =>
    rw [hm] at h
    injection h with h1 _
    subst h1
    exact mem_sub (l := E1) (l' := EH) rfl _ ((contentTypeValue_safe _).2 _ _ hm).1
  | ok a s1 =>
    obtain ⟨m, p⟩ := a
    rw [hm] at h
    simp only [] at h
    rw [M.bind_apply] at h
    have hl := ((contentTypeValue_safe _).1 _ _ hm).length_le
    cases hp : partHeaderLoop (bytes.length + 1) [(py! "Content-Type", .ct m p)] s1 with
    | ok d s2 => rw [hp] at h; cases h
    | err e2 s2 =>
      rw [hp] at h
      injection h with h1 _
      subst h1
      have := partHeaderLoop_safe _ _ _ (by simp [It.new] at hl; omega) _ _ hp
      exact mem_sub (l := EL) (l' := EH) rfl _ this

theorem part_safe : Safe EH decodePart := by
  refine .bind (uintVar_safe.mono (mem_sub rfl)) (fun _ => .bind (uintVar_safe.mono (mem_sub rfl)) (fun _ =>
    .bind ((xrangeCheck_safe _).mono (mem_sub rfl)) (fun _ => .bind ((nextN_safe _).mono (mem_sub rfl)) (fun bytes => ?_))))
  refine .bind (.onFresh (partHeaders_err bytes)) (fun a => ?_)
  exact .bind ((xrangeCheck_safe _).mono (mem_sub rfl)) (fun _ => .bind ((nextN_safe _).mono (mem_sub rfl)) (fun _ => .pure _))

theorem part_prog : Prog decodePart := by
  refine uintVar_prog.bind_left (E := EH) (fun _ => .bind (uintVar_safe.mono (mem_sub rfl)) (fun _ =>
    .bind ((xrangeCheck_safe _).mono (mem_sub rfl)) (fun _ => .bind ((nextN_safe _).mono (mem_sub rfl)) (fun bytes => ?_))))
  refine .bind (.onFresh (partHeaders_err bytes)) (fun a => ?_)
  exact .bind ((xrangeCheck_safe _).mono (mem_sub rfl)) (fun _ => .bind ((nextN_safe _).mono (mem_sub rfl)) (fun _ => .pure _))

theorem partLoop_safe (n : Nat) (acc : List DataPart) : Safe EH (partLoop n acc) := by
  induction n generalizing acc with
  | zero => exact .pure _
  | succ n ih => exact .bind part_safe (fun _ => ih _)

theorem messageBody_safe : Safe EH decodeMessageBody := by
  intro s
  unfold decodeMessageBody
  have hu := uintVar_safe s
  cases h : decodeUintVar s with
  | err e s1 =>
    have h1 := hu.2 _ _ h
    have he : e = .stopIteration := by simpa using h1.1
    subst he
    constructor
    · intro a s' ha
      injection ha with _ ha
      subst ha
      exact h1.2
    · intro e s' ha; cases ha
  | ok n s1 =>
    have h1 := hu.1 _ _ h
    have h2 : Safe EH (do xrangeCheck n; partLoop n [] : D (List DataPart)) :=
      .bind ((xrangeCheck_safe _).mono (mem_sub rfl)) (fun _ => partLoop_safe _ _)
    exact ⟨fun a s' ha => ((h2 s1).1 a s' ha).trans h1, fun e s' ha => ⟨((h2 s1).2 e s' ha).1, ((h2 s1).2 e s' ha).2.trans h1⟩⟩

theorem messageHeader_safe : Safe EL decodeMessageHeader := fun s => headerLoop_safe _ _ s (by omega)

theorem decodeData_err (data : List Nat) (e : PyErr) (h : decodeData data = .error e) : e ∈ EH := by
  unfold decodeData at h
  have hs : Safe EH (do
      let hdrs ← decodeMessageHeader
      let parts ← decodeMessageBody
      pure { Msg.new with headers := hdrs, dataParts := parts } : D Msg) :=
    .bind (messageHeader_safe.mono (mem_sub rfl)) (fun _ => .bind messageBody_safe (fun _ => .pure _))
  split at h
  · cases h
  · rename_i e' s' he
    injection h with h
    subst h
    exact ((hs _).2 _ _ he).1

end Verif.Mms

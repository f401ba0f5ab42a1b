import Verif.Spec.Weight
import Verif.Proofs.Safe2
import Verif.Proofs.Mms2
/-!
# What the decoders return weighs at most 80 times the octets they consume

`Wt c w m`: a successful call of `m` returns something whose weight `w` is at most 80 for each octet consumed, and `c` more.
-/
set_option autoImplicit false

namespace Verif.Mms.Weight
open Verif Verif.Mms
open Verif.Spec.Weight (digits)

def Octets (s : It) : Prop := ∀ x ∈ s.rem, x < 256

def Wt {α : Type} (c : Nat) (w : α → Nat) (m : D α) : Prop := ∀ s : It, Octets s →
  (∀ a s', m s = .ok a s' → s'.rem <:+ s.rem ∧ w a + 80 * s'.rem.length ≤ 80 * s.rem.length + c) ∧
  (∀ e s', m s = .err e s' → s'.rem <:+ s.rem)

variable {α β : Type} {c c' : Nat} {w w' : α → Nat}

theorem Octets.suffix {s s' : It} (h : Octets s) (hs : s'.rem <:+ s.rem) : Octets s' := fun x hx => h x (hs.mem hx)

theorem Wt.mono {m : D α} (h : Wt c w m) (hw : ∀ a, w' a + c ≤ w a + c') : Wt c' w' m := by
  intro s hs
  refine ⟨fun a s' he => ?_, (h s hs).2⟩
  have ⟨h1, h2⟩ := (h s hs).1 a s' he
  have := hw a
  exact ⟨h1, by omega⟩

theorem Wt.bind {w2 : β → Nat} {m : D α} {f : α → D β} (hm : Wt c w m) (hf : ∀ a, Wt (c' + w a) w2 (f a)) :
    Wt (c + c') w2 (m >>= f) := by
  intro s hs
  rw [M.bind_apply]
  cases he : m s with
  | err e s1 =>
    refine ⟨fun a s' h => by (cases h), fun e' s' h => ?_⟩
    injection h with _ h
    subst h
    exact (hm s hs).2 _ _ he
  | ok a s1 =>
    obtain ⟨h1, h2⟩ := (hm s hs).1 a s1 he
    obtain ⟨g1, g2⟩ := hf a s1 (hs.suffix h1)
    refine ⟨fun b s' h => ?_, fun e s' h => (g2 e s' h).trans h1⟩
    obtain ⟨k1, k2⟩ := g1 b s' h
    exact ⟨k1.trans h1, by omega⟩

/-- the result of the first step pays for that of the second -/
theorem Wt.then0 {w2 : β → Nat} {m : D α} {f : α → D β} (hm : Wt 0 w m) (hf : ∀ a, Wt (w a) w2 (f a)) : Wt 0 w2 (m >>= f) := by
  have := Wt.bind (c := 0) (c' := 0) hm (fun a => by rw [Nat.zero_add]; exact hf a)
  simpa using this

/-- what the first step returns is not needed -/
theorem Wt.seq {w2 : β → Nat} {m : D α} {f : α → D β} (hm : Wt 0 w m) (hf : ∀ a, Wt c w2 (f a)) : Wt c w2 (m >>= f) := by
  have := Wt.bind (c := 0) (c' := c) hm (fun a => (hf a).mono (w' := w2) (c' := c + w a) (fun b => by omega))
  simpa using this

theorem Wt.pure {a : α} (h : w a ≤ c) : Wt c w (Pure.pure a : D α) := by
  intro s _
  refine ⟨fun b s' h' => ?_, fun e s' h' => by (cases h')⟩
  injection h' with h1 h2
  subst h1 h2
  exact ⟨List.suffix_refl _, by omega⟩

theorem Wt.throw {e : PyErr} : Wt c w (M.throw e : D α) := by
  intro s _
  refine ⟨fun b s' h => by (simp at h), fun e s' h => ?_⟩
  injection h with _ h
  subst h
  exact List.suffix_refl _

theorem Wt.lift {x : Py α} (h : ∀ a, x = .ok a → w a ≤ c) : Wt c w (M.lift x : D α) := by
  cases x with
  | ok a => exact Wt.pure (h a rfl)
  | error e => exact Wt.throw

theorem Wt.ite {p : Prop} [Decidable p] {m n : D α} (hm : Wt c w m) (hn : Wt c w n) : Wt c w (if p then m else n) := by
  split
  · exact hm
  · exact hn

theorem Wt.tryCatch {m : D α} {p : PyErr → Bool} {h : PyErr → D α} (hm : Wt c w m) (hh : ∀ e, Wt c w (h e)) :
    Wt c w (M.tryCatch m p h) := by
  intro s hs
  unfold M.tryCatch
  cases he : m s with
  | ok a s1 =>
    refine ⟨fun b s' h' => ?_, fun e s' h' => by (simp at h')⟩
    injection h' with h1 h2
    subst h1 h2
    exact (hm s hs).1 _ _ he
  | err e s1 =>
    have h1 := (hm s hs).2 _ _ he
    simp only []
    split
    · obtain ⟨g1, g2⟩ := hh e s1 (hs.suffix h1)
      refine ⟨fun b s' h' => ?_, fun e s' h' => (g2 e s' h').trans h1⟩
      obtain ⟨k1, k2⟩ := g1 b s' h'
      exact ⟨k1.trans h1, by have := h1.length_le; omega⟩
    · refine ⟨fun b s' h' => by (cases h'), fun e s' h' => ?_⟩
      injection h' with _ h'
      subst h'
      exact h1

theorem Wt.orDE {m h : D α} (hm : Wt c w m) (hh : Wt c w h) : Wt c w (orDecodeError m h) := .tryCatch hm (fun _ => hh)

theorem preview_wt : Wt 0 (fun _ => 0) preview := by
  intro s _
  unfold preview
  cases s.rem[s.k]? with
  | none =>
    refine ⟨fun b s' h => by (cases h), fun e s' h => ?_⟩
    injection h with _ h
    subst h
    exact List.suffix_refl _
  | some x =>
    refine ⟨fun b s' h => ?_, fun e s' h => by (cases h)⟩
    injection h with _ h
    subst h
    exact ⟨List.suffix_refl _, by simp⟩

theorem reset_wt : Wt 0 (fun _ => 0) resetPreview := by
  intro s _
  refine ⟨fun b s' h => ?_, fun e s' h => by (cases h)⟩
  injection h with _ h
  subst h
  exact ⟨List.suffix_refl _, by simp⟩

theorem next_wt : Wt 0 (fun _ => 80) next := by
  intro s _
  unfold next
  cases hr : s.rem with
  | nil =>
    refine ⟨fun b s' h => by (cases h), fun e s' h => ?_⟩
    injection h with _ h
    subst h
    exact List.suffix_refl _
  | cons x r =>
    refine ⟨fun b s' h => ?_, fun e s' h => by (cases h)⟩
    injection h with _ h
    subst h
    exact ⟨List.suffix_cons _ _, by simp; omega⟩

theorem resetThrow_wt {e : PyErr} : Wt c w (do resetPreview; M.throw e : D α) := .seq reset_wt (fun _ => .throw)

/-! ### numbers -/

/-- at least 80, and the number of digits -/
def num (n : Nat) : Nat := max 80 (digits n)

theorem digits_small {n k : Nat} (hk : 0 < k) (h : n < 10 ^ k) : digits n ≤ k := by
  unfold digits
  have : Nat.log 10 (n : Int).natAbs < k := Nat.log_lt_of_lt_pow' (by omega) (by simpa using h)
  omega

theorem num_small {n : Nat} (h : n < 10 ^ 80) : num n = 80 := by
  have := digits_small (k := 80) (by omega) h
  unfold num
  omega

theorem natStr_short (k : Nat) : ∀ n, n < 10 ^ (k + 1) → (natStr n).length ≤ k + 1 := by
  induction k with
  | zero =>
    intro n h
    rw [natStr, if_pos (by simpa using h)]
    simp
  | succ k ih =>
    intro n h
    rw [natStr]
    split
    · simp
    · have h2 : n / 10 < 10 ^ (k + 1) := by
        rw [Nat.div_lt_iff_lt_mul (by omega)]
        rw [Nat.pow_succ] at h
        exact h
      have := ih _ h2
      simp
      omega

theorem natStr_length (n : Nat) : (natStr n).length = digits n := by
  have h1 : n < 10 ^ (Nat.log 10 n + 1) := Nat.lt_pow_succ_log_self (by omega) n
  have key : ∀ n, (natStr n).length = Nat.log 10 n + 1 := by
    intro n
    induction n using Nat.strongRecOn with
    | _ n ih =>
      rw [natStr]
      split
      · rw [Nat.log_of_lt (by omega)]; rfl
      · rename_i h
        rw [List.length_append, ih (n / 10) (by omega), Nat.log_div_base]
        have : 0 < Nat.log 10 n := Nat.log_pos (by omega) (by omega)
        simp
        omega
  rw [key]
  rfl

theorem shortInteger_wt : Wt 0 num decodeShortInteger :=
  .seq preview_wt fun _ => .ite resetThrow_wt (.then0 next_wt fun b => .pure (by
    rw [num_small]
    exact Nat.lt_of_le_of_lt Nat.and_le_right (by decide)))

theorem uintVar_wt : Wt 0 (fun _ => 80) decodeUintVar := by
  intro s _
  refine ⟨fun a s' h => ?_, fun e s' h => ((uintVar_safe s).2 _ _ h).2⟩
  have := uintVar_prog _ _ _ h
  exact ⟨(uintVar_safe s).1 _ _ h, by show 80 + _ ≤ _; omega⟩

theorem longIntLoop_value (n : Nat) : ∀ (acc : Nat) (s : It), Octets s → (∀ a s', longIntLoop acc n s = .ok a s' →
      s'.rem <:+ s.rem ∧ s'.rem.length + n = s.rem.length ∧ a < (acc + 1) * 256 ^ n) ∧
    ∀ e s', longIntLoop acc n s = .err e s' → s'.rem <:+ s.rem := by
  induction n with
  | zero =>
    intro acc s _
    refine ⟨fun a s' h => ?_, fun e s' h => by (cases h)⟩
    injection h with h1 h2
    subst h1 h2
    exact ⟨List.suffix_refl _, rfl, by simp⟩
  | succ n ih =>
    intro acc s hs
    simp only [longIntLoop]
    rw [M.bind_apply]
    unfold next
    cases hr : s.rem with
    | nil =>
      refine ⟨fun a s' h => by (cases h), fun e s' h => ?_⟩
      injection h with _ h
      subst h
      exact List.suffix_refl _
    | cons x r =>
      have hx : x < 256 := hs x (by rw [hr]; exact List.mem_cons_self)
      have hr' : Octets ⟨r, 0⟩ := fun y hy => hs y (by rw [hr]; exact List.mem_cons_of_mem _ hy)
      obtain ⟨g1, g2⟩ := ih ((acc <<< 8) ||| x) ⟨r, 0⟩ hr'
      refine ⟨fun a s' h => ?_, fun e s' h => (g2 e s' h).trans (List.suffix_cons _ _)⟩
      obtain ⟨k1, k2, k3⟩ := g1 a s' h
      refine ⟨k1.trans (List.suffix_cons _ _), by simp only [List.length_cons] at *; omega, Nat.lt_of_lt_of_le k3 ?_⟩
      have e : (acc <<< 8) ||| x = acc * 256 + x := by
        rw [← Nat.shiftLeft_add_eq_or_of_lt (by simpa using hx), Nat.shiftLeft_eq]
      rw [e, Nat.pow_succ, Nat.mul_comm (256 ^ n) 256, ← Nat.mul_assoc]
      exact Nat.mul_le_mul_right _ (by omega)

theorem longIntLoop_wt (n : Nat) : Wt 80 num (longIntLoop 0 n) := by
  intro s hs
  obtain ⟨g1, g2⟩ := longIntLoop_value n 0 s hs
  refine ⟨fun a s' h => ?_, g2⟩
  obtain ⟨k1, k2, k3⟩ := g1 a s' h
  refine ⟨k1, ?_⟩
  have hd : digits a ≤ 3 * n + 1 := by
    refine digits_small (by omega) (Nat.lt_of_lt_of_le k3 ?_)
    have h1 : 256 ^ n ≤ 1000 ^ n := Nat.pow_le_pow_left (by omega) n
    have h2 : 1000 ^ n = 10 ^ (3 * n) := by rw [Nat.pow_mul]
    have h3 : 10 ^ (3 * n) ≤ 10 ^ (3 * n + 1) := Nat.pow_le_pow_right (by omega) (by omega)
    omega
  unfold num
  omega

theorem shortLength_wt : Wt 0 (fun _ => 80) decodeShortLength :=
  .seq preview_wt fun _ => .ite resetThrow_wt next_wt

theorem longInteger_wt : Wt 0 num decodeLongInteger := .then0 shortLength_wt fun _ => longIntLoop_wt _

theorem integerValue_wt : Wt 0 num decodeIntegerValue := .orDE shortInteger_wt longInteger_wt

/-! ### strings -/

theorem textLoop_value (l : List Nat) (acc : Str) : (∀ a s', textLoop acc l = .ok a s' →
      s'.rem <:+ l ∧ a.length + 1 + s'.rem.length = acc.length + l.length) ∧
    ∀ e s', textLoop acc l = .err e s' → s'.rem <:+ l := by
  induction l generalizing acc with
  | nil =>
    refine ⟨fun a s' h => by (cases h), fun e s' h => ?_⟩
    injection h with _ h
    subst h
    exact List.suffix_refl _
  | cons b l ih =>
    unfold textLoop
    split
    · obtain ⟨g1, g2⟩ := ih (acc ++ [b])
      refine ⟨fun a s' h => ?_, fun e s' h => (g2 e s' h).trans (List.suffix_cons _ _)⟩
      obtain ⟨k1, k2⟩ := g1 a s' h
      exact ⟨k1.trans (List.suffix_cons _ _), by simp at *; omega⟩
    · refine ⟨fun a s' h => ?_, fun e s' h => by (cases h)⟩
      injection h with h1 h2
      subst h1 h2
      exact ⟨List.suffix_cons _ _, by simp; omega⟩

theorem tokenLoop_value (l : List Nat) (acc : Str) : (∀ a s', tokenLoop acc l = .ok a s' →
      s'.rem <:+ l ∧ a.length + 1 + s'.rem.length = acc.length + l.length) ∧
    ∀ e s', tokenLoop acc l = .err e s' → s'.rem <:+ l := by
  induction l generalizing acc with
  | nil =>
    refine ⟨fun a s' h => by (cases h), fun e s' h => ?_⟩
    injection h with _ h
    subst h
    exact List.suffix_refl _
  | cons b l ih =>
    unfold tokenLoop
    split
    · obtain ⟨g1, g2⟩ := ih (acc ++ [b])
      refine ⟨fun a s' h => ?_, fun e s' h => (g2 e s' h).trans (List.suffix_cons _ _)⟩
      obtain ⟨k1, k2⟩ := g1 a s' h
      exact ⟨k1.trans (List.suffix_cons _ _), by simp at *; omega⟩
    · refine ⟨fun a s' h => ?_, fun e s' h => by (cases h)⟩
      injection h with h1 h2
      subst h1 h2
      exact ⟨List.suffix_cons _ _, by simp; omega⟩

/-- the length of a string, and 80 for its end -/
def text (s : Str) : Nat := s.length + 80

theorem textLoop_wt : Wt 0 text (fun s => textLoop [] s.rem : D Str) := by
  intro s _
  obtain ⟨g1, g2⟩ := textLoop_value s.rem []
  refine ⟨fun a s' h => ?_, g2⟩
  obtain ⟨k1, k2⟩ := g1 a s' h
  refine ⟨k1, ?_⟩
  unfold text
  simp only [List.length_nil] at k2
  omega

theorem tokenLoop_wt : Wt 0 text (fun s => tokenLoop [] s.rem : D Str) := by
  intro s _
  obtain ⟨g1, g2⟩ := tokenLoop_value s.rem []
  refine ⟨fun a s' h => ?_, g2⟩
  obtain ⟨k1, k2⟩ := g1 a s' h
  refine ⟨k1, ?_⟩
  unfold text
  simp only [List.length_nil] at k2
  omega

theorem textString_wt : Wt 0 text decodeTextString := by
  intro s hs
  unfold decodeTextString
  split
  · rename_i rest hr
    have hr' : Octets ⟨rest, 0⟩ := fun y hy => hs y (by rw [hr]; exact List.mem_cons_of_mem _ hy)
    obtain ⟨g1, g2⟩ := textLoop_wt ⟨rest, 0⟩ hr'
    refine ⟨fun a s' h => ?_, fun e s' h => ?_⟩
    · obtain ⟨k1, k2⟩ := g1 a s' h
      rw [hr]
      exact ⟨k1.trans (List.suffix_cons _ _), by simp at *; omega⟩
    · rw [hr]
      exact (g2 e s' h).trans (List.suffix_cons _ _)
  · exact textLoop_wt s hs

theorem quotedString_wt : Wt 0 text decodeQuotedString :=
  .seq preview_wt fun _ => .ite resetThrow_wt (.seq next_wt fun _ => textString_wt)

theorem tokenText_wt : Wt 0 text decodeTokenText := .seq preview_wt fun _ => .ite resetThrow_wt tokenLoop_wt

theorem extensionMedia_wt : Wt 0 text decodeExtensionMedia := .seq preview_wt fun _ => .ite resetThrow_wt textLoop_wt

theorem len_text (s : Str) : s.length + 0 ≤ text s + 0 := by unfold text; omega

/-! ### parameters -/

/-- what a value weighs, when at least one octet was read for it -/
def val (v : Val) : Nat := max 80 (Spec.Weight.val v)

theorem int_val (n : Nat) : val (.int n) = num n := rfl

theorem str_val (s : Str) : val (.str s) ≤ text s := by
  show max 80 s.length ≤ text s
  unfold text
  omega

theorem constrainedEncoding_wt : Wt 0 val decodeConstrainedEncoding :=
  .orDE (.then0 shortInteger_wt fun n => .pure (Nat.le_of_eq (int_val n)))
    (.then0 extensionMedia_wt fun s => .pure (str_val s))

theorem valueLength_wt : Wt 0 (fun _ => 80) decodeValueLength :=
  .orDE shortLength_wt (.seq preview_wt fun _ => .ite (.seq next_wt fun _ => uintVar_wt) resetThrow_wt)

theorem mediaName_le : ∀ (n : Nat) (a : Str), mediaName n = .ok a → a.length ≤ 80 := by
  intro n a h
  unfold mediaName at h
  have key : ∀ s ∈ wellKnownContentTypes, s.length ≤ 80 := by decide +kernel
  split at h
  · rename_i s hs
    injection h with h
    subst h
    exact key _ (List.mem_of_getElem? hs)
  · cases h

/-- the length of a string for which at least one octet was read -/
def len (s : Str) : Nat := max 80 s.length

theorem len_le_text (s : Str) : len s ≤ text s := by unfold len text; omega

theorem len_small {s : Str} (h : s.length ≤ 80) : len s = 80 := by unfold len; omega

theorem wellKnownMedia_wt : Wt 0 len decodeWellKnownMedia :=
  .then0 integerValue_wt fun n => .lift fun a h => by
    rw [len_small (mediaName_le _ _ h)]
    unfold num
    omega

theorem extMedia_wt : Wt 0 len decodeExtensionMedia := extensionMedia_wt.mono fun s => by have := len_le_text s; omega

theorem mediaType_wt : Wt 0 len decodeMediaType := .orDE wellKnownMedia_wt extMedia_wt

theorem constrainedMedia_wt : Wt 0 len decodeConstrainedMedia := by
  refine .then0 constrainedEncoding_wt fun v => ?_
  cases v with
  | int n =>
    refine .lift fun a h => ?_
    rw [len_small (mediaName_le _ _ h)]
    unfold val
    omega
  | str s => exact .pure (by unfold len val; exact Nat.le_refl _)
  | _ => exact .throw

theorem qValue_wt : Wt 0 val decodeQValue :=
  .then0 uintVar_wt fun _ => .ite (.ite .throw (.pure (Nat.le_refl 80))) (.pure (Nat.le_refl 80))

theorem nat_two {n : Nat} (h : n < 1000) : (natStr n).length ≤ 3 := natStr_short 2 n (by omega)

theorem versionValue_wt : Wt 0 len decodeVersionValue :=
  .orDE (.then0 shortInteger_wt fun b => .pure (by
      have h1 : (natStr ((b &&& 0x70) >>> 4)).length ≤ 3 := nat_two (by
        have : b &&& 0x70 ≤ 0x70 := Nat.and_le_right
        rw [Nat.shiftRight_eq_div_pow]
        omega)
      have h2 : (natStr (b &&& 0x0f)).length ≤ 3 := nat_two (by
        have : b &&& 0x0f ≤ 0x0f := Nat.and_le_right
        omega)
      rw [len_small]
      · unfold num; omega
      · unfold versionStr
        simp only [List.length_append, List.length_singleton]
        omega))
    (textString_wt.mono fun s => by have := len_le_text s; omega)

theorem textValue_wt : Wt 0 List.length decodeTextValue :=
  .orDE (tokenText_wt.mono len_text) (.orDE (quotedString_wt.mono len_text) (.pure (Nat.zero_le _)))

theorem dateValue_wt : Wt 0 (fun _ => 80) decodeDateValue :=
  .then0 longInteger_wt fun n => .lift fun _ _ => by unfold num; omega

theorem charsets_le : ∀ e ∈ wellKnownCharsets, e.2.length ≤ 80 := by decide +kernel

theorem charset_wt : Wt 0 len decodeWellKnownCharset := by
  refine .seq preview_wt fun _ => .seq reset_wt fun _ => .ite (.then0 next_wt fun _ => .pure (by decide)) ?_
  refine .then0 integerValue_wt fun n => ?_
  cases h : lookupNum wellKnownCharsets n with
  | some s => exact .pure (by rw [len_small (charsets_le _ (lookupNum_mem h))]; unfold num; omega)
  | none => exact .pure (by
      unfold len num
      rw [natStr_length])

/-- a value -/
theorem of_len {m : D Str} (h : Wt 0 len m) : Wt 0 Spec.Weight.val (do let s ← m; pure (.str s)) :=
  .then0 h fun s => .pure (by show s.length ≤ len s; unfold len; omega)

theorem of_text {m : D Str} (h : Wt 0 text m) : Wt 0 Spec.Weight.val (do let s ← m; pure (.str s)) :=
  .then0 h fun s => .pure (by show s.length ≤ text s; unfold text; omega)

theorem of_num {m : D Nat} (h : Wt 0 num m) : Wt 0 Spec.Weight.val (do let n ← m; pure (.int n)) :=
  .then0 h fun n => .pure (by show digits n ≤ num n; unfold num; omega)

theorem of_val {m : D Val} (h : Wt 0 val m) : Wt 0 Spec.Weight.val m := h.mono fun v => by unfold val; omega

theorem typed_wt (ty : PType) : Wt 0 Spec.Weight.val (decodeTyped ty) := by
  cases ty with
  | qValue => exact of_val qValue_wt
  | wellKnownCharset => exact of_len charset_wt
  | versionValue => exact of_len versionValue_wt
  | integerValue => exact of_num integerValue_wt
  | textString => exact of_text textString_wt
  | fieldName => exact .throw
  | shortInteger => exact of_num shortInteger_wt
  | constrainedEncoding => exact of_val constrainedEncoding_wt
  | deltaSecondsValue => exact of_num integerValue_wt
  | noValue => exact .seq next_wt fun _ => .throw
  | textValue => exact .then0 textValue_wt fun s => .pure (Nat.le_refl _)
  | dateValue => exact .then0 dateValue_wt fun d => .pure (show 1 ≤ 80 by decide)

theorem params12_le : ∀ e ∈ params12, e.2.1.length ≤ 80 := by decide +kernel

theorem wellKnownParameter_wt : Wt 0 (fun x => len x.1) (decodeWellKnownParameter (py! "1.2")) := by
  unfold decodeWellKnownParameter
  rw [params12_eq]
  refine .then0 integerValue_wt fun n => ?_
  show Wt (num n) _ (match lookupNum params12 n with | some e => pure e | none => M.throw .decodeError)
  cases h : lookupNum params12 n with
  | some e => exact .pure (by rw [len_small (params12_le _ (lookupNum_mem h))]; unfold num; omega)
  | none => exact .throw

/-- a name and a value -/
def pair (x : Str × Val) : Nat := x.1.length + Spec.Weight.val x.2

theorem typedParameter_wt : Wt 0 pair decodeTypedParameter := by
  refine .then0 wellKnownParameter_wt fun x => ?_
  have h := Wt.bind (c := 0) (c' := len x.1) (w2 := pair) (typed_wt x.2) (f := fun v => pure (x.1, v)) fun v => .pure (by
    unfold pair len
    simp only []
    omega)
  rw [Nat.zero_add] at h
  exact h

theorem untypedValue_wt : Wt 0 Spec.Weight.val decodeUntypedValue :=
  .orDE (of_num integerValue_wt) (.then0 textValue_wt fun s => .pure (Nat.le_refl _))

theorem untypedParameter_wt : Wt 0 pair decodeUntypedParameter := by
  refine .then0 tokenText_wt fun t => ?_
  have h := Wt.bind (c := 0) (c' := text t) (w2 := pair) untypedValue_wt (f := fun v => pure (t, v)) fun v => .pure (by
    unfold pair text
    simp only []
    omega)
  rw [Nat.zero_add] at h
  exact h

theorem parameter_wt : Wt 0 pair decodeParameter := .orDE typedParameter_wt untypedParameter_wt

theorem set_params (d : Dict Val) (k : Str) (v : Val) : Spec.Weight.params (d.set k v) ≤ Spec.Weight.params d + (k.length + Spec.Weight.val v) := by
  unfold Spec.Weight.params
  induction d with
  | nil => simp [Dict.set]
  | cons e d ih =>
    obtain ⟨k', v'⟩ := e
    simp only [Dict.set]
    split
    · simp
      omega
    · simp only [List.map_cons, List.sum_cons]
      omega

theorem set_headers (d : Dict HVal) (k : Str) (v : HVal) :
    Spec.Weight.headers (d.set k v) ≤ Spec.Weight.headers d + (k.length + Spec.Weight.value v) := by
  unfold Spec.Weight.headers
  induction d with
  | nil => simp [Dict.set]
  | cons e d ih =>
    obtain ⟨k', v'⟩ := e
    simp only [Dict.set]
    split
    · simp
      omega
    · simp only [List.map_cons, List.sum_cons]
      omega

theorem paramLoop_wt (fuel : Nat) : ∀ d : Dict Val, Wt (Spec.Weight.params d) Spec.Weight.params (paramLoop fuel d) := by
  induction fuel with
  | zero => exact fun d => .throw
  | succ n ih =>
    intro d s hs
    obtain ⟨g1, g2⟩ := parameter_wt s hs
    unfold paramLoop
    cases he : decodeParameter s with
    | ok a s1 =>
      obtain ⟨p, v⟩ := a
      obtain ⟨h1, h2⟩ := g1 _ _ he
      obtain ⟨k1, k2⟩ := ih (d.set p v) s1 (hs.suffix h1)
      refine ⟨fun a s' h => ?_, fun e s' h => (k2 e s' h).trans h1⟩
      obtain ⟨l1, l2⟩ := k1 a s' h
      have := set_params d p v
      unfold pair at h2
      exact ⟨l1.trans h1, by simp only [] at h2; omega⟩
    | err e s1 =>
      have h1 := g2 _ _ he
      have := h1.length_le
      cases e <;> first
        | (refine ⟨fun a s' h => ?_, fun e s' h => by (cases h)⟩
           injection h with ha hs'
           subst ha hs'
           exact ⟨h1, by omega⟩)
        | (refine ⟨fun a s' h => by (cases h), fun e s' h => ?_⟩
           injection h with _ hs'
           subst hs'
           exact h1)

theorem nextN_wt (n : Nat) : ∀ s : It, Octets s → (∀ a s', nextN n s = .ok a s' → s.rem = a ++ s'.rem) ∧
    ∀ e s', nextN n s = .err e s' → s'.rem <:+ s.rem :=
  fun s _ => ⟨fun a s' h => (nextN_count _ _ _ _ h).2.symm, fun e s' h => ((nextN_safe n s).2 _ _ h).2⟩

/-- octets that are read and then decoded by `m` on their own -/
theorem fresh_wt {w2 : α → Nat} {n : Nat} {m : List Nat → D α} (h : ∀ l, Wt 0 w2 (m l)) :
    Wt 0 w2 (do let bytes ← nextN n; onFresh bytes (m bytes)) := by
  intro s hs
  rw [M.bind_apply]
  obtain ⟨g1, g2⟩ := nextN_wt n s hs
  cases he : nextN n s with
  | err e s1 =>
    refine ⟨fun a s' h => by (cases h), fun e' s' h => ?_⟩
    injection h with _ h
    subst h
    exact g2 _ _ he
  | ok l s1 =>
    have e := g1 _ _ he
    have hl : Octets (It.new l) := fun x hx => hs x (by rw [e]; exact List.mem_append_left _ hx)
    have hsuf : s1.rem <:+ s.rem := ⟨l, e.symm⟩
    simp only [onFresh]
    cases hm : m l (It.new l) with
    | ok a s2 =>
      refine ⟨fun b s' h => ?_, fun e' s' h => by (cases h)⟩
      injection h with h1 h2
      subst h1 h2
      have := ((h l _ hl).1 _ _ hm).2
      have e' := congrArg List.length e
      rw [List.length_append] at e'
      simp only [It.new] at this
      exact ⟨hsuf, by omega⟩
    | err e' s2 =>
      refine ⟨fun b s' h => by (cases h), fun e'' s' h => ?_⟩
      injection h with _ h2
      subst h2
      exact hsuf

theorem xrange_wt (n : Nat) : Wt 0 (fun _ => 0) (xrangeCheck n) := .ite (.pure (Nat.le_refl _)) .throw

/-- a media type and its parameters -/
def ct (x : Str × Dict Val) : Nat := x.1.length + Spec.Weight.params x.2

theorem generalForm_wt : Wt 0 ct decodeContentGeneralForm := by
  refine .seq valueLength_wt fun n => .seq (xrange_wt n) fun _ => fresh_wt fun l => ?_
  refine .then0 (w := len) mediaType_wt fun m => ?_
  have h := Wt.bind (c := 0) (c' := len m) (w2 := ct) (paramLoop_wt (l.length + 1) []) (f := fun p => pure (m, p)) fun p => .pure (by
    unfold ct len
    simp only []
    omega)
  rw [Nat.zero_add] at h
  exact h

theorem contentType_wt : Wt 0 ct decodeContentTypeValue :=
  .orDE (.then0 constrainedMedia_wt fun m => .pure (by unfold ct len; simp [Spec.Weight.params])) generalForm_wt

/-! ### headers -/

theorem acceptTail_wt (m : Str) : Wt (len m) len (acceptTail m) :=
  .seq preview_wt fun _ => .ite
    (.seq next_wt fun _ => .seq qValue_wt fun _ => .seq (w := fun _ => 0)
      (.orDE (.then0 parameter_wt fun _ => .pure (Nat.zero_le _)) (.pure (Nat.le_refl _))) fun _ => .seq reset_wt fun _ => .pure (Nat.le_refl _))
    (.seq reset_wt fun _ => .pure (Nat.le_refl _))

theorem acceptValue_wt : Wt 0 len decodeAcceptValue :=
  .orDE constrainedMedia_wt (.seq valueLength_wt fun _ => .then0 (.orDE wellKnownMedia_wt extMedia_wt) fun m => acceptTail_wt m)

theorem pragmaValue_wt : Wt 0 pair decodePragmaValue :=
  .seq preview_wt fun _ => .ite (.then0 next_wt fun _ => .pure (by decide)) (.seq reset_wt fun _ => .seq valueLength_wt fun _ => parameter_wt)

theorem wapValue_wt (name : Str) : Wt 0 Spec.Weight.value (decodeWapValue name) :=
  .ite (.then0 acceptValue_wt fun s => .pure (by show s.length ≤ len s; unfold len; omega))
    (.ite (.then0 pragmaValue_wt fun x => .pure (Nat.le_refl _))
      (.then0 textString_wt fun s => .pure (by show s.length ≤ text s; unfold text; omega)))

/-- a name and the value of a header -/
def entry (x : Str × HVal) : Nat := x.1.length + Spec.Weight.value x.2

/-- a name that is paid for, and a value -/
theorem entry_wt {n : Str} {k : Nat} {m : D HVal} (hm : Wt c Spec.Weight.value m) (hk : n.length + c ≤ k) :
    Wt k entry (do let v ← m; pure (n, v)) := by
  have h := Wt.bind (c := c) (c' := n.length) (w2 := entry) hm (f := fun v => pure (n, v)) fun v => .pure (by
    unfold entry
    simp only []
    omega)
  exact h.mono fun _ => by omega

theorem names12 (x : List Str) (h : getHeaderFieldNames (py! "1.2") = .ok x) : ∀ n ∈ x, n.length ≤ 60 := by
  have key : (match getHeaderFieldNames (py! "1.2") with | .ok l => l.all (fun n => decide (n.length ≤ 60)) | .error _ => false) = true := by
    decide +kernel
  rw [h] at key
  simpa using key

theorem Wt.liftBind {w2 : β → Nat} {x : Py α} {f : α → D β} (h : ∀ a, x = .ok a → Wt c w2 (f a)) : Wt c w2 (M.lift x >>= f) := by
  cases x with
  | error e => exact Wt.throw (α := β) (e := e)
  | ok a => exact h a rfl

theorem wellKnownHeader_wt : Wt 0 entry decodeWellKnownHeader := by
  refine .then0 shortInteger_wt fun n => .liftBind fun names hn => ?_
  cases hx : names[n]? with
  | none => exact .throw
  | some name =>
    have h1 := names12 _ hn name (List.mem_of_getElem? hx)
    exact entry_wt (c := 0) (n := name) (k := num n) (wapValue_wt name) (by unfold num; omega)

theorem applicationHeader_wt : Wt 0 entry decodeApplicationHeader := by
  refine .then0 (.orDE tokenText_wt textString_wt) fun n => ?_
  have h := Wt.bind (c := 0) (c' := text n) (w2 := entry) textString_wt (f := fun v => pure (n, .v (.str v))) fun v => .pure (by
    show n.length + v.length ≤ _
    unfold text
    omega)
  rw [Nat.zero_add] at h
  exact h

theorem wspHeader_wt : Wt 0 entry decodeWspHeader := .orDE wellKnownHeader_wt applicationHeader_wt

/-! ### MMS headers -/

theorem encodedString_wt : Wt 0 text decodeEncodedStringValue :=
  .orDE (.seq valueLength_wt fun _ => .seq (.tryCatch charset_wt fun _ => .throw) fun _ => textString_wt) textString_wt

theorem boolean_wt : Wt 0 (fun _ => 80) decodeBooleanValue :=
  .seq preview_wt fun _ => .ite resetThrow_wt (.then0 next_wt fun _ => .pure (Nat.le_refl _))

theorem deliveryTime_wt : Wt 0 (fun x => x.1.length + digits x.2) decodeDeliveryTimeValue := by
  refine .then0 valueLength_wt fun _ => .seq next_wt fun t => ?_
  have h := Wt.bind (c := 0) (c' := 80) (w2 := fun x : Str × Nat => x.1.length + digits x.2) longInteger_wt
    (f := fun value => if t = 128 then pure (py! "absolute", value) else if t = 129 then pure (py! "relative", value) else M.throw .decodeError)
    fun n => .ite (.pure (by unfold num; simp only []; rw [show (py! "absolute").length = 8 from rfl]; omega))
      (.ite (.pure (by unfold num; simp only []; rw [show (py! "relative").length = 8 from rfl]; omega)) .throw)
  exact h

theorem fromValue_wt : Wt 0 len decodeFromValue :=
  .seq valueLength_wt fun _ => .then0 next_wt fun _ => .ite (.pure (by decide))
    (encodedString_wt.mono fun s => by have := len_le_text s; omega)

theorem small_table {t : List (Nat × Str)} (ht : ∀ e ∈ t, e.2.length ≤ 80) {n : Nat} {s : Str} (h : lookupNum t n = some s) : s.length ≤ 80 :=
  ht _ (lookupNum_mem h)

theorem messageClass_wt : Wt 0 len decodeMessageClassValue := by
  refine .seq preview_wt fun b => ?_
  cases h : lookupNum classIdentifiers b with
  | some s => exact .then0 next_wt fun _ => .pure (by rw [len_small (small_table (by decide +kernel) h)])
  | none => exact .seq reset_wt fun _ => tokenText_wt.mono fun s => by have := len_le_text s; omega

/-- a type that is not known is read without an octet -/
theorem messageType_wt : Wt 20 List.length decodeMessageTypeValue := by
  refine .seq preview_wt fun b => ?_
  cases h : lookupNum messageTypes b with
  | some s =>
    have := small_table (t := messageTypes) (by decide +kernel) h
    exact (Wt.then0 next_wt fun _ => .pure (w := List.length) this).mono fun _ => by omega
  | none => exact .seq reset_wt fun _ => .pure (by decide)

theorem priority_wt : Wt 0 len decodePriorityValue := by
  refine .seq preview_wt fun b => ?_
  cases h : lookupNum priorities b with
  | some s => exact .then0 next_wt fun _ => .pure (by rw [len_small (small_table (by decide +kernel) h)])
  | none => exact resetThrow_wt

theorem visibility_wt : Wt 0 len decodeSenderVisibilityValue :=
  .seq preview_wt fun _ => .ite resetThrow_wt (.then0 next_wt fun _ => .pure (by split <;> decide))

theorem responseStatus_wt : Wt 0 Spec.Weight.val decodeResponseStatusValue := by
  refine .seq preview_wt fun b => .then0 next_wt fun _ => ?_
  cases h : lookupNum responseStatusValues b with
  | some s => exact .pure (small_table (t := responseStatusValues) (by decide +kernel) h)
  | none => exact .pure (digits_small (n := 0x81) (k := 80) (by decide) (by decide))

theorem status_wt : Wt 0 Spec.Weight.val decodeStatusValue := by
  refine .then0 next_wt fun b => ?_
  cases h : lookupNum statusValues b with
  | some s => exact .pure (small_table (t := statusValues) (by decide +kernel) h)
  | none => exact .pure (digits_small (n := 0x84) (k := 80) (by decide) (by decide))

theorem expiry_wt : Wt 0 Spec.Weight.val decodeExpiryValue :=
  .seq valueLength_wt fun _ => .seq next_wt fun _ => .ite (.then0 dateValue_wt fun d => .pure (show 1 ≤ 80 by decide))
    (.ite (of_num integerValue_wt) .throw)

theorem hstr_len {m : D Str} (h : Wt 0 len m) : Wt 20 Spec.Weight.value (do let s ← m; pure (.v (.str s))) :=
  .mono (w := Spec.Weight.value) (c := 0) (.then0 h fun s => .pure (by show s.length ≤ len s; unfold len; omega)) fun _ => by omega

theorem hstr_text {m : D Str} (h : Wt 0 text m) : Wt 20 Spec.Weight.value (do let s ← m; pure (.v (.str s))) :=
  .mono (w := Spec.Weight.value) (c := 0) (.then0 h fun s => .pure (by show s.length ≤ text s; unfold text; omega)) fun _ => by omega

theorem hval {m : D Val} (h : Wt 0 Spec.Weight.val m) : Wt 20 Spec.Weight.value (do let v ← m; pure (.v v)) :=
  .mono (w := Spec.Weight.value) (c := 0) (.then0 h fun v => .pure (Nat.le_refl _)) fun _ => by omega

theorem mmsValue_wt (ty : MType) : Wt 20 Spec.Weight.value (decodeMmsValue ty) := by
  cases ty with
  | encodedStringValue => exact hstr_text encodedString_wt
  | uriValue => exact hstr_text textString_wt
  | contentTypeValue => exact .mono (w := Spec.Weight.value) (c := 0) (.then0 contentType_wt fun x => .pure (Nat.le_refl _)) fun _ => by omega
  | dateValue => exact .mono (w := Spec.Weight.value) (c := 0) (.then0 dateValue_wt fun x => .pure (show 1 ≤ 80 by decide)) fun _ => by omega
  | booleanValue => exact .mono (w := Spec.Weight.value) (c := 0) (.then0 boolean_wt fun x => .pure (show 1 ≤ 80 by decide)) fun _ => by omega
  | deliveryTimeValue => exact .mono (w := Spec.Weight.value) (c := 0) (.then0 deliveryTime_wt fun x => .pure (Nat.le_refl _)) fun _ => by omega
  | expiryValue => exact hval expiry_wt
  | fromValue => exact hstr_len fromValue_wt
  | messageClassValue => exact hstr_len messageClass_wt
  | textString => exact hstr_text textString_wt
  | messageTypeValue =>
    have h := Wt.bind (c := 20) (c' := 0) (w2 := Spec.Weight.value) messageType_wt (f := fun s => pure (.v (.str s))) fun s => .pure (by
      show s.length ≤ _
      omega)
    exact h
  | versionValue => exact hstr_len versionValue_wt
  | longInteger => exact .mono (w := Spec.Weight.value) (c := 0) (.then0 longInteger_wt fun n => .pure (by show digits n ≤ num n; unfold num; omega)) fun _ => by omega
  | priorityValue => exact hstr_len priority_wt
  | responseStatusValue => exact hval responseStatus_wt
  | senderVisibilityValue => exact hstr_len visibility_wt
  | statusValue => exact hval status_wt

theorem fieldNames_le : ∀ e ∈ mmsFieldNames, e.2.1.length ≤ 60 := by decide +kernel

theorem mmsHeader_wt : Wt 0 entry decodeMmsHeader := by
  refine .seq preview_wt fun p => .seq (w := fun _ => 0) (.lift fun _ _ => Nat.le_refl _) fun b => ?_
  cases h : lookupNum mmsFieldNames b with
  | none => exact resetThrow_wt
  | some x =>
    obtain ⟨name, ty⟩ := x
    have := fieldNames_le _ (lookupNum_mem h)
    exact .then0 next_wt fun _ => entry_wt (c := 20) (.tryCatch (mmsValue_wt ty) fun _ => .throw) (by simp only [] at this; omega)

theorem header_wt : Wt 0 entry decodeHeader := .orDE mmsHeader_wt wspHeader_wt

/-! ### messages -/

theorem headerLoop_wt (fuel : Nat) : ∀ d : Dict HVal, Wt (Spec.Weight.headers d) Spec.Weight.headers (headerLoop fuel d) := by
  induction fuel with
  | zero => exact fun d => .throw
  | succ n ih =>
    intro d s hs
    obtain ⟨g1, g2⟩ := header_wt s hs
    unfold headerLoop
    cases he : decodeHeader s with
    | ok a s1 =>
      obtain ⟨p, v⟩ := a
      obtain ⟨h1, h2⟩ := g1 _ _ he
      obtain ⟨k1, k2⟩ := ih (d.set p v) s1 (hs.suffix h1)
      have := set_headers d p v
      unfold entry at h2
      simp only [] at h2 ⊢
      split
      · refine ⟨fun a s' h => ?_, fun e s' h => by (cases h)⟩
        injection h with ha hs'
        subst ha hs'
        exact ⟨h1, by omega⟩
      · refine ⟨fun a s' h => ?_, fun e s' h => (k2 e s' h).trans h1⟩
        obtain ⟨l1, l2⟩ := k1 a s' h
        exact ⟨l1.trans h1, by omega⟩
    | err e s1 =>
      have h1 := g2 _ _ he
      have := h1.length_le
      cases e <;> first
        | (refine ⟨fun a s' h => ?_, fun e s' h => by (cases h)⟩
           injection h with ha hs'
           subst ha hs'
           exact ⟨h1, by omega⟩)
        | (refine ⟨fun a s' h => by (cases h), fun e s' h => ?_⟩
           injection h with _ hs'
           subst hs'
           exact h1)

theorem partHeaderLoop_wt (fuel : Nat) : ∀ d : Dict HVal, Wt (Spec.Weight.headers d) Spec.Weight.headers (partHeaderLoop fuel d) := by
  induction fuel with
  | zero => exact fun d => .throw
  | succ n ih =>
    intro d s hs
    obtain ⟨g1, g2⟩ := header_wt s hs
    unfold partHeaderLoop
    cases he : decodeHeader s with
    | ok a s1 =>
      obtain ⟨p, v⟩ := a
      obtain ⟨h1, h2⟩ := g1 _ _ he
      obtain ⟨k1, k2⟩ := ih (d.set p v) s1 (hs.suffix h1)
      have := set_headers d p v
      unfold entry at h2
      refine ⟨fun a s' h => ?_, fun e s' h => (k2 e s' h).trans h1⟩
      obtain ⟨l1, l2⟩ := k1 a s' h
      exact ⟨l1.trans h1, by simp only [] at h2; omega⟩
    | err e s1 =>
      have h1 := g2 _ _ he
      have := h1.length_le
      cases e <;> first
        | (refine ⟨fun a s' h => ?_, fun e s' h => by (cases h)⟩
           injection h with ha hs'
           subst ha hs'
           exact ⟨h1, by omega⟩)
        | (refine ⟨fun a s' h => by (cases h), fun e s' h => ?_⟩
           injection h with _ hs'
           subst hs'
           exact h1)

/-- the headers of a part; the name "Content-Type" of the first, which is not in the octets, is left out -/
theorem partHeaders_wt (l : List Nat) : Wt 12 (fun x => Spec.Weight.headers x.2.2) (partHeaders l) := by
  have h := Wt.bind (c := 0) (c' := 12) (w2 := fun x : Str × Dict Val × Dict HVal => Spec.Weight.headers x.2.2) contentType_wt
    (f := fun x => do
      let hdrs ← partHeaderLoop (l.length + 1) [(py! "Content-Type", .ct x.1 x.2)]
      pure (x.1, x.2, hdrs)) fun x => by
    have h2 := Wt.bind (c := Spec.Weight.headers [(py! "Content-Type", .ct x.1 x.2)]) (c' := 0)
      (w2 := fun x : Str × Dict Val × Dict HVal => Spec.Weight.headers x.2.2) (partHeaderLoop_wt (l.length + 1) _)
      (f := fun hdrs => pure (x.1, x.2, hdrs)) fun d => .pure (by simp only []; omega)
    refine h2.mono fun y => ?_
    have : Spec.Weight.headers [(py! "Content-Type", .ct x.1 x.2)] = 12 + ct x := rfl
    omega
  exact h

/-- a part: its headers, and 80 for each octet of the data -/
def part (p : DataPart) : Nat := Spec.Weight.headers p.headers + 80 * (p.data.getD []).length

theorem decodePart_wt : Wt 0 part decodePart := by
  intro s hs
  refine ⟨fun p s' h => ?_, fun e s' h => ((part_safe s).2 _ _ h).2⟩
  refine ⟨(part_safe s).1 _ _ h, ?_⟩
  unfold decodePart at h
  obtain ⟨hl, s1, h1, h⟩ := bind_ok_invM h
  obtain ⟨dl, s2, h2, h⟩ := bind_ok_invM h
  obtain ⟨_, s3, h3, h⟩ := bind_ok_invM h
  obtain ⟨ct, s4, h4, h⟩ := bind_ok_invM h
  obtain ⟨⟨m, ps, hd⟩, s5, h5, h⟩ := bind_ok_invM h
  obtain ⟨_, s6, h6, h⟩ := bind_ok_invM h
  obtain ⟨d, s7, h7, h⟩ := bind_ok_invM h
  injection h with hp hs'
  subst hp hs'
  have a1 := uintVar_prog _ _ _ h1
  have a2 := uintVar_prog _ _ _ h2
  have b1 : s1.rem <:+ s.rem := (uintVar_safe s).1 _ _ h1
  have b2 : s2.rem <:+ s1.rem := (uintVar_safe s1).1 _ _ h2
  have a3 := (xrangeCheck_state h3).1
  have a4 := (nextN_count _ _ _ _ h4).2
  have a5 := onFresh_state h5
  have a6 := (xrangeCheck_state h6).1
  have a7 := (nextN_count _ _ _ _ h7).2
  subst a3 a5 a6
  have o3 : Octets s3 := (hs.suffix b1).suffix b2
  have hin : Spec.Weight.headers hd ≤ 80 * ct.length + 12 := by
    unfold onFresh at h5
    split at h5
    · rename_i a s' hm
      injection h5 with h5
      subst h5
      have ho : Octets (It.new ct) := fun x hx => o3 x (by rw [← a4]; exact List.mem_append_left _ hx)
      have := ((partHeaders_wt ct _ ho).1 _ _ hm).2
      simp only [It.new] at this
      omega
    · cases h5
  have c4 := congrArg List.length a4
  have c7 := congrArg List.length a7
  rw [List.length_append] at c4 c7
  unfold part
  simp only [Option.getD_some]
  omega

/-- all parts -/
def parts (l : List DataPart) : Nat := (l.map part).sum

theorem partLoop_wt (n : Nat) : ∀ acc, Wt (parts acc) parts (partLoop n acc) := by
  induction n with
  | zero => exact fun acc => .pure (Nat.le_refl _)
  | succ n ih =>
    intro acc
    have h := Wt.bind (c := 0) (c' := parts acc) (w2 := parts) decodePart_wt (f := fun p => partLoop n (acc ++ [p])) fun p => by
      refine (ih (acc ++ [p])).mono fun l => ?_
      have : parts (acc ++ [p]) = parts acc + part p := by simp [parts]
      omega
    rw [Nat.zero_add] at h
    exact h

theorem body_wt : Wt 0 parts decodeMessageBody := by
  intro s hs
  obtain ⟨g1, g2⟩ := uintVar_wt s hs
  unfold decodeMessageBody
  cases he : decodeUintVar s with
  | ok n s1 =>
    obtain ⟨h1, h2⟩ := g1 _ _ he
    have h : Wt 0 parts (do xrangeCheck n; partLoop n []) := .seq (xrange_wt n) fun _ => partLoop_wt n []
    obtain ⟨k1, k2⟩ := h s1 (hs.suffix h1)
    refine ⟨fun a s' h => ?_, fun e s' h => (k2 e s' h).trans h1⟩
    obtain ⟨l1, l2⟩ := k1 a s' h
    exact ⟨l1.trans h1, by omega⟩
  | err e s1 =>
    have h1 := g2 _ _ he
    have := h1.length_le
    cases e <;> first
      | (refine ⟨fun a s' h => ?_, fun e s' h => by (cases h)⟩
         injection h with ha hs'
         subst ha hs'
         exact ⟨h1, by rw [show parts [] = 0 from rfl]; omega⟩)
      | (refine ⟨fun a s' h => by (cases h), fun e s' h => ?_⟩
         injection h with _ hs'
         subst hs'
         exact h1)

theorem decodeData_wt {data : List Nat} (hb : ∀ x ∈ data, x < 256) {m : Msg} (h : decodeData data = .ok m) :
    Spec.Weight.headers m.headers + parts m.dataParts ≤ 80 * data.length + Spec.Weight.headers Msg.new.headers := by
  obtain ⟨hdrs, ps, s1, s2, h1, h2, rfl⟩ := decodeData_inv h
  have ho : Octets (It.new data) := hb
  obtain ⟨k1, k2⟩ := (headerLoop_wt (data.length + 1) Msg.new.headers _ ho).1 _ _ h1
  obtain ⟨l1, l2⟩ := (body_wt s1 (ho.suffix k1)).1 _ _ h2
  simp only [It.new] at k2 ⊢
  omega

end Verif.Mms.Weight

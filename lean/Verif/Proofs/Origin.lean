import Verif.Proofs.Safe2
/-!
# Where an exception of the MMS decoder comes from: inputs on which it cannot be raised
-/
set_option autoImplicit false

namespace Verif.Mms

/-- on input with `P`, `m` does not raise `e` -/
def Clean (P : List Nat → Prop) (e : PyErr) {α : Type} (m : D α) : Prop := ∀ s : It, P s.rem →
  (∀ a s', m s = .ok a s' → s'.rem <:+ s.rem) ∧ (∀ e' s', m s = .err e' s' → e' ≠ e ∧ s'.rem <:+ s.rem)

/-- what `P` has to exclude for `e` not to be raised -/
structure Quiet (P : List Nat → Prop) (e : PyErr) : Prop where
  hered : ∀ l l', l <:+: l' → P l' → P l
  one : e = .attributeError ∨ e = .overflowError ∨ e = .runtimeError
  field : e = .attributeError → ∀ s s' : It, P s.rem → decodeIntegerValue s ≠ .ok 7 s'
  small : e = .overflowError → ∀ (s s' : It) (n : Nat), P s.rem → decodeUintVar s = .ok n s' → n < 2 ^ 63
  oct : ∀ l, P l → ∀ b ∈ l, b < 256
  mms : e = .runtimeError → ∀ l, P l → ∀ b ∈ l, b < 129 ∨ 152 < b

namespace Clean
variable {α β : Type} {P : List Nat → Prop} {e : PyErr}

theorem of_safe {E : List PyErr} {m : D α} (h : Safe E m) (he : e ∉ E) : Clean P e m := by
  intro s _
  refine ⟨(h s).1, fun e' s' h' => ⟨?_, ((h s).2 _ _ h').2⟩⟩
  rintro rfl
  exact he ((h s).2 _ _ h').1

theorem ne (q : Quiet P e) : e ∉ E0 := by rcases q.one with h | h | h <;> subst h <;> decide

theorem of0 (q : Quiet P e) {m : D α} (h : Safe E0 m) : Clean P e m := of_safe h (ne q)

theorem of1 (q : Quiet P e) {m : D α} (h : Safe [.stopIteration] m) : Clean P e m :=
  of0 q (h.mono (mem_sub rfl))

theorem pure (a : α) : Clean P e (Pure.pure a : D α) := of_safe (E := []) (.pure a) (by simp)

theorem bind_of (q : Quiet P e) {m : D α} {f : α → D β} (hm : Clean P e m)
    (hf : ∀ s a s', P s.rem → m s = .ok a s' → Clean P e (f a)) : Clean P e (m >>= f) := by
  intro s hp
  rw [M.bind_apply]
  cases h : m s with
  | err e1 s1 =>
    refine ⟨(fun b s' h' => nomatch h'), fun e' s' h' => ?_⟩
    injection h' with h1 h2
    subst h1 h2
    exact (hm s hp).2 _ _ h
  | ok a s1 =>
    have h1 := (hm s hp).1 _ _ h
    have h2 := hf _ _ _ hp h s1 (q.hered _ _ h1.isInfix hp)
    exact ⟨fun b s' h' => (h2.1 _ _ h').trans h1, fun e' s' h' => ⟨(h2.2 _ _ h').1, (h2.2 _ _ h').2.trans h1⟩⟩

theorem bind (q : Quiet P e) {m : D α} {f : α → D β} (hm : Clean P e m) (hf : ∀ a, Clean P e (f a)) :
    Clean P e (m >>= f) := bind_of q hm (fun _ a _ _ _ => hf a)

theorem map (q : Quiet P e) {m : D α} {f : α → β} (hm : Clean P e m) : Clean P e (m >>= fun a => Pure.pure (f a)) :=
  bind q hm (fun _ => pure _)

theorem orDE (q : Quiet P e) {m h : D α} (hm : Clean P e m) (hh : Clean P e h) : Clean P e (orDecodeError m h) := by
  intro s hp
  cases hs : m s with
  | ok a s1 =>
    have : orDecodeError m h s = .ok a s1 := by simp [orDecodeError, M.tryCatch, hs]
    rw [this, ← hs]
    exact hm s hp
  | err e1 s1 =>
    have h1 := (hm s hp).2 _ _ hs
    by_cases he : e1 = .decodeError
    · subst he
      have : orDecodeError m h s = h s1 := by simp [orDecodeError, M.tryCatch, hs]
      rw [this]
      have h2 := hh s1 (q.hered _ _ h1.2.isInfix hp)
      exact ⟨fun b s' h' => (h2.1 _ _ h').trans h1.2, fun e' s' h' => ⟨(h2.2 _ _ h').1, (h2.2 _ _ h').2.trans h1.2⟩⟩
    · have : orDecodeError m h s = .err e1 s1 := by simp [orDecodeError, M.tryCatch, hs, he]
      rw [this, ← hs]
      exact hm s hp

theorem ite {c : Prop} [Decidable c] {m n : D α} (hm : Clean P e m) (hn : Clean P e n) :
    Clean P e (if c then m else n) := by
  split <;> assumption

theorem uintVar (q : Quiet P e) : Clean P e decodeUintVar := of1 q uintVar_safe

theorem xrange (n : Nat) (h : e = .overflowError → n < 2 ^ 63) : Clean P e (xrangeCheck n) := by
  by_cases he : e = .overflowError
  · have := h he
    unfold xrangeCheck
    rw [if_pos this]
    exact pure _
  · exact of_safe (xrangeCheck_safe n) (by simpa using he)

theorem uint_small (q : Quiet P e) {s s' : It} {n : Nat} (hp : P s.rem) (h : decodeUintVar s = .ok n s') :
    e = .overflowError → n < 2 ^ 63 := fun he => q.small he s s' n hp h

theorem qValue (q : Quiet P e) : Clean P e decodeQValue := by
  by_cases he : e = .overflowError
  · refine bind_of q (uintVar q) ?_
    intro s n s' hp h
    have hn := uint_small q hp h he
    refine ite ?_ (pure _)
    rw [if_neg]
    · exact pure _
    · have : (2 : Nat) ^ 63 ≤ 2 ^ 1024 - 2 ^ 970 := by decide +kernel
      omega
  · refine of_safe qValue_safe ?_
    rcases q.one with h | h | h <;> subst h <;> simp at he ⊢

theorem params12_field : ∀ x ∈ params12, x.2.2 = .fieldName → x.1 = 7 := by decide +kernel

/-- a Differences parameter has number 7 -/
theorem wellKnown_field {s s' : It} {name : Str} (h : decodeWellKnownParameter (py! "1.2") s = .ok (name, .fieldName) s') :
    ∃ s1, decodeIntegerValue s = .ok 7 s1 := by
  unfold decodeWellKnownParameter at h
  rw [M.bind_apply] at h
  cases hi : decodeIntegerValue s with
  | err e s1 => rw [hi] at h; cases h
  | ok n s1 =>
    rw [hi] at h
    simp only [] at h
    rw [params12_eq, M.bind_ok (M.lift_ok _ _)] at h
    cases hl : lookupNum params12 n with
    | none => rw [hl] at h; cases h
    | some x =>
      rw [hl] at h
      injection h with h1 h2
      have := params12_field _ (lookupNum_mem hl) (by rw [h1])
      simp only at this
      exact ⟨s1, by rw [this]⟩

theorem typed (q : Quiet P e) {ty : PType} (h : ty ∈ types12) (hf : e = .attributeError → ty ≠ .fieldName) :
    Clean P e (decodeTyped ty) := by
  simp only [types12, List.mem_cons, List.not_mem_nil, or_false] at h
  rcases h with rfl | rfl | rfl | rfl | rfl | rfl | rfl | rfl
  · exact qValue q
  · exact map q (of0 q wellKnownCharset_safe)
  · exact map q (of1 q versionValue_safe)
  · exact map q (of0 q integerValue_safe)
  · exact map q (of1 q textString_safe)
  · refine of_safe (E := [.attributeError]) (.throw (by simp)) ?_
    intro he
    exact hf (by simpa using he) rfl
  · exact map q (of0 q shortInteger_safe)
  · exact of0 q constrainedEncoding_safe

theorem typedParameter (q : Quiet P e) : Clean P e decodeTypedParameter := by
  refine bind_of q (of0 q (wellKnownParameter_err _ ⟨_, params12_eq⟩)) ?_
  intro s a s' hp h
  obtain ⟨name, ty⟩ := a
  refine map q (typed q (wellKnownParameter_type h) ?_)
  rintro he rfl
  obtain ⟨s1, h1⟩ := wellKnown_field h
  exact q.field he s s1 hp h1

theorem parameter (q : Quiet P e) : Clean P e decodeParameter :=
  orDE q (typedParameter q) (of0 q untypedParameter_safe)

theorem paramLoop (q : Quiet P e) (fuel : Nat) (d : Dict Val) : Clean P e (Mms.paramLoop fuel d) := by
  induction fuel generalizing d with
  | zero =>
    refine of_safe (E := [.diverge]) (.throw (by simp)) ?_
    rcases q.one with h | h | h <;> subst h <;> decide
  | succ n ih =>
    intro s hp
    have hm := parameter q s hp
    unfold Mms.paramLoop
    cases h : decodeParameter s with
    | ok a s1 =>
      have h1 := hm.1 _ _ h
      have h2 := ih (d.set a.1 a.2) s1 (q.hered _ _ h1.isInfix hp)
      exact ⟨fun b s' h' => (h2.1 _ _ h').trans h1, fun e' s' h' => ⟨(h2.2 _ _ h').1, (h2.2 _ _ h').2.trans h1⟩⟩
    | err e1 s1 =>
      have h1 := hm.2 _ _ h
      by_cases he : e1 = .stopIteration
      · subst he
        refine ⟨fun b s' h' => ?_, fun e' s' h' => nomatch h'⟩
        injection h' with _ h'
        subst h'
        exact h1.2
      · refine ⟨fun b s' h' => ?_, fun e' s' h' => ?_⟩
        · split at h' <;> simp_all
        · split at h'
          · simp_all
          · simp_all
          · rename_i h3 h4
            injection h4 with h5 h6
            injection h' with h7 h8
            subst h5 h6 h7 h8
            exact h1

/-- reading a block of octets with a fresh iterator -/
theorem block (q : Quiet P e) (n : Nat) {f : List Nat → D α} (hf : ∀ l, P l → Clean P e (f l)) :
    Clean P e (Mms.nextN n >>= f) :=
  bind_of q (of1 q (nextN_safe n)) (fun s l s' hp h => hf l (q.hered _ _
    ((nextN_count n s s' l h).2 ▸ (List.prefix_append _ _).isInfix) hp))

theorem onFresh {bytes : List Nat} {m : D α} (hb : P bytes) (hm : Clean P e m) : Clean P e (Mms.onFresh bytes m) := by
  intro s hp
  unfold Mms.onFresh
  have := hm (It.new bytes) hb
  cases h : m (It.new bytes) with
  | ok a s1 =>
    refine ⟨fun b s' h' => ?_, fun e' s' h' => nomatch h'⟩
    injection h' with _ h'
    subst h'
    exact List.suffix_refl _
  | err e1 s1 =>
    refine ⟨(fun b s' h' => nomatch h'), fun e' s' h' => ?_⟩
    injection h' with h1 h2
    subst h1 h2
    exact ⟨(this.2 _ _ h).1, List.suffix_refl _⟩

/-- a value length is short or a uintvar -/
theorem length_small (q : Quiet P e) {s s' : It} {n : Nat} (hp : P s.rem) (h : decodeValueLength s = .ok n s') :
    e = .overflowError → n < 2 ^ 63 := by
  intro he
  unfold decodeValueLength orDecodeError M.tryCatch at h
  cases hs : decodeShortLength s with
  | ok a s1 =>
    rw [hs] at h
    injection h with h1 h2
    subst h1
    unfold decodeShortLength at hs
    obtain ⟨b, s2, hb, hs⟩ := bind_ok_invM hs
    have hsuf := ((Safe.preview (E := E0) (by simp)) s).1 _ _ hb
    split at hs
    · obtain ⟨_, s3, _, hs⟩ := bind_ok_invM hs
      cases hs
    · unfold next at hs
      split at hs
      · cases hs
      · rename_i y r hy
        injection hs with h1 h2
        subst h1
        have : y < 256 := q.oct _ hp y (hsuf.subset (by rw [hy]; simp))
        have h63 : (256 : Nat) ≤ 2 ^ 63 := by decide
        omega
  | err e1 s1 =>
    rw [hs] at h
    have h1 := (shortLength_safe s).2 _ _ hs
    simp only at h
    split at h
    · obtain ⟨b, s2, hb, hs⟩ := bind_ok_invM h
      have hsuf := ((Safe.preview (E := E0) (by simp)) s1).1 _ _ hb
      split at hs
      · obtain ⟨b', s3, hb', hs⟩ := bind_ok_invM hs
        have hsuf' := ((Safe.next (E := E0) (by simp)) s2).1 _ _ hb'
        exact q.small he _ _ _ (q.hered _ _ ((hsuf'.trans hsuf).trans h1.2).isInfix hp) hs
      · obtain ⟨_, s3, _, hs⟩ := bind_ok_invM hs
        cases hs
    · cases h

theorem mediaType (q : Quiet P e) : Clean P e decodeMediaType := of0 q mediaType_safe

theorem generalForm (q : Quiet P e) : Clean P e decodeContentGeneralForm := by
  refine bind_of q (of0 q valueLength_safe) (fun s n s' hp h => ?_)
  refine bind q (xrange n (length_small q hp h)) (fun _ => block q n (fun l hl => onFresh hl ?_))
  exact bind q (mediaType q) (fun _ => map q (paramLoop q _ _))

theorem contentType (q : Quiet P e) : Clean P e decodeContentTypeValue :=
  orDE q (map q (of0 q constrainedMedia_safe)) (generalForm q)

theorem preview (q : Quiet P e) : Clean P e Mms.preview := of1 q (.preview (by simp))
theorem next (q : Quiet P e) : Clean P e Mms.next := of1 q (.next (by simp))
theorem reset : Clean P e Mms.resetPreview := of_safe (E := []) .reset (by simp)

theorem acceptTail (q : Quiet P e) (m : Str) : Clean P e (Mms.acceptTail m) := by
  refine bind q (preview q) (fun b => ite ?_ (bind q reset (fun _ => pure _)))
  exact bind q (next q) (fun _ => bind q (qValue q) (fun _ => bind q (orDE q (map q (parameter q)) (pure _))
    (fun _ => bind q reset (fun _ => pure _))))

theorem accept (q : Quiet P e) : Clean P e decodeAcceptValue :=
  orDE q (of0 q constrainedMedia_safe) (bind q (of0 q valueLength_safe)
    (fun _ => bind q (mediaType q) (fun _ => acceptTail q _)))

theorem pragma (q : Quiet P e) : Clean P e decodePragmaValue :=
  bind q (preview q) (fun _ => ite (bind q (next q) (fun _ => pure _))
    (bind q reset (fun _ => bind q (of0 q valueLength_safe) (fun _ => parameter q))))

theorem wapValue (q : Quiet P e) (n : Str) : Clean P e (decodeWapValue n) :=
  ite (map q (accept q)) (ite (bind q (pragma q) (fun _ => pure _)) (map q (of1 q textString_safe)))

theorem wellKnownHeader (q : Quiet P e) : Clean P e decodeWellKnownHeader := by
  by_cases he : e ∈ E1
  · refine bind q (of0 q shortInteger_safe) (fun n => bind q ?_ (fun names => ?_))
    · have : ∃ t, getHeaderFieldNames (py! "1.2") = .ok t := ⟨_, rfl⟩
      obtain ⟨t, ht⟩ := this
      rw [ht]
      exact pure _
    · split
      · exact of_safe (E := E0) (.throw (by simp)) (ne q)
      · exact map q (wapValue q _)
  · exact of_safe wellKnownHeader_safe he

theorem wspHeader (q : Quiet P e) : Clean P e decodeWspHeader :=
  orDE q (wellKnownHeader q) (of1 q applicationHeader_safe)

theorem fields_range : ∀ x ∈ mmsFieldNames, 1 ≤ x.1 ∧ x.1 ≤ 24 := by decide +kernel

theorem and7f (b : Nat) (h : b < 256) (h8 : b &&& 0x80 ≠ 0) : b &&& 0x7f = b - 128 ∧ 128 ≤ b := by
  have : ∀ b : Fin 256, b.val &&& 0x80 ≠ 0 → b.val &&& 0x7f = b.val - 128 ∧ 128 ≤ b.val := by decide +kernel
  exact this ⟨b, h⟩ h8

theorem mmsHeader (q : Quiet P e) : Clean P e decodeMmsHeader := by
  refine bind_of q (preview q) (fun s p s' hp h => ?_)
  have hmem : p ∈ s.rem := by
    unfold Mms.preview at h
    split at h
    · rename_i x hx
      injection h with h1 h2
      subst h1
      exact List.mem_of_getElem? hx
    · cases h
  refine bind_of q (of0 q (.lift (fun e' h' => ?_))) (fun s1 b s2 _ hb => ?_)
  · unfold decodeShortIntegerFromByte at h'
    split at h'
    · injection h' with h'
      subst h'
      simp
    · cases h'
  have hb : b = p - 128 ∧ 128 ≤ p := by
    unfold decodeShortIntegerFromByte at hb
    split at hb
    · cases hb
    · rename_i h8
      injection hb with h1 h2
      subst h1
      exact and7f p (q.oct _ hp _ hmem) h8
  split
  · rename_i name ty hl
    refine bind q (next q) (fun _ => map q (of_safe (wrapFatal_safe ty) ?_))
    have hr := fields_range _ (lookupNum_mem hl)
    simp only at hr
    rcases q.one with h1 | h1 | h1
    · subst h1; decide
    · subst h1; decide
    · have := q.mms h1 _ hp p hmem
      omega
  · exact bind q reset (fun _ => of_safe (E := E0) (.throw (by simp)) (ne q))

theorem header (q : Quiet P e) : Clean P e decodeHeader := orDE q (mmsHeader q) (wspHeader q)

theorem partHeaderLoop (q : Quiet P e) (fuel : Nat) (d : Dict HVal) : Clean P e (Mms.partHeaderLoop fuel d) := by
  induction fuel generalizing d with
  | zero =>
    refine of_safe (E := [.diverge]) (.throw (by simp)) ?_
    rcases q.one with h | h | h <;> subst h <;> decide
  | succ n ih =>
    intro s hp
    have hm := header q s hp
    unfold Mms.partHeaderLoop
    cases h : decodeHeader s with
    | ok a s1 =>
      have h1 := hm.1 _ _ h
      have h2 := ih (d.set a.1 a.2) s1 (q.hered _ _ h1.isInfix hp)
      exact ⟨fun b s' h' => (h2.1 _ _ h').trans h1, fun e' s' h' => ⟨(h2.2 _ _ h').1, (h2.2 _ _ h').2.trans h1⟩⟩
    | err e1 s1 =>
      have h1 := hm.2 _ _ h
      by_cases he : e1 = .stopIteration
      · subst he
        refine ⟨fun b s' h' => ?_, fun e' s' h' => nomatch h'⟩
        injection h' with _ h'
        subst h'
        exact h1.2
      · refine ⟨fun b s' h' => ?_, fun e' s' h' => ?_⟩
        · split at h' <;> simp_all
        · split at h'
          · simp_all
          · simp_all
          · rename_i h3 h4
            injection h4 with h5 h6
            injection h' with h7 h8
            subst h5 h6 h7 h8
            exact h1

theorem headerLoop (q : Quiet P e) (fuel : Nat) (d : Dict HVal) : Clean P e (Mms.headerLoop fuel d) := by
  induction fuel generalizing d with
  | zero =>
    refine of_safe (E := [.diverge]) (.throw (by simp)) ?_
    rcases q.one with h | h | h <;> subst h <;> decide
  | succ n ih =>
    intro s hp
    have hm := header q s hp
    unfold Mms.headerLoop
    cases h : decodeHeader s with
    | ok a s1 =>
      have h1 := hm.1 _ _ h
      have h2 := ih (d.set a.1 a.2) s1 (q.hered _ _ h1.isInfix hp)
      simp only
      split
      · refine ⟨fun b s' h' => ?_, fun e' s' h' => nomatch h'⟩
        injection h' with _ h'
        subst h'
        exact h1
      · exact ⟨fun b s' h' => (h2.1 _ _ h').trans h1, fun e' s' h' => ⟨(h2.2 _ _ h').1, (h2.2 _ _ h').2.trans h1⟩⟩
    | err e1 s1 =>
      have h1 := hm.2 _ _ h
      by_cases he : e1 = .stopIteration
      · subst he
        refine ⟨fun b s' h' => ?_, fun e' s' h' => nomatch h'⟩
        injection h' with _ h'
        subst h'
        exact h1.2
      · refine ⟨fun b s' h' => ?_, fun e' s' h' => ?_⟩
        · split at h' <;> simp_all
        · split at h'
          · simp_all
          · simp_all
          · rename_i h3 h4
            injection h4 with h5 h6
            injection h' with h7 h8
            subst h5 h6 h7 h8
            exact h1

theorem part (q : Quiet P e) : Clean P e decodePart := by
  refine bind_of q (uintVar q) (fun s hl s' hp h => bind_of q (uintVar q) (fun s1 dl s1' hp1 h1 => ?_))
  refine bind q (xrange hl (uint_small q hp h)) (fun _ => block q hl (fun l hP => ?_))
  refine bind q (onFresh hP (bind q (contentType q) (fun _ => bind q (partHeaderLoop q _ _) (fun _ => pure _)))) (fun _ => ?_)
  exact bind q (xrange dl (uint_small q hp1 h1)) (fun _ => map q (of1 q (nextN_safe _)))

theorem partLoop (q : Quiet P e) (n : Nat) (acc : List DataPart) : Clean P e (Mms.partLoop n acc) := by
  induction n generalizing acc with
  | zero => exact pure _
  | succ n ih => exact bind q (part q) (fun _ => ih _)

theorem body (q : Quiet P e) : Clean P e decodeMessageBody := by
  intro s hp
  unfold decodeMessageBody
  have hu := uintVar_safe s
  cases h : decodeUintVar s with
  | err e s1 =>
    have h1 := hu.2 _ _ h
    have he : e = .stopIteration := by simpa using h1.1
    subst he
    refine ⟨fun a s' ha => ?_, fun e s' ha => nomatch ha⟩
    injection ha with _ ha
    subst ha
    exact h1.2
  | ok n s1 =>
    have h1 := hu.1 _ _ h
    have h2 : Clean P e (do xrangeCheck n; Mms.partLoop n [] : D (List DataPart)) :=
      bind q (xrange n (uint_small q hp h)) (fun _ => partLoop q _ _)
    have h3 := h2 s1 (q.hered _ _ h1.isInfix hp)
    exact ⟨fun a s' ha => (h3.1 a s' ha).trans h1, fun e s' ha => ⟨(h3.2 e s' ha).1, (h3.2 e s' ha).2.trans h1⟩⟩

end Clean

theorem decodeData_clean {P : List Nat → Prop} {e : PyErr} (q : Quiet P e) (data : List Nat) (hp : P data) :
    decodeData data ≠ .error e := by
  intro h
  unfold decodeData at h
  have hs : Clean P e (do
      let hdrs ← decodeMessageHeader
      let parts ← decodeMessageBody
      pure { Msg.new with headers := hdrs, dataParts := parts } : D Msg) :=
    .bind q (fun s hp => Clean.headerLoop q _ _ s hp) (fun _ => .map q (.body q))
  split at h
  · cases h
  · rename_i e' s' he
    injection h with h
    exact ((hs (It.new data) hp).2 _ _ he).1 h

/-! ### the three exceptions -/

theorem longLoop_seven (v n : Nat) (s s' : It) (h : longIntLoop v n s = .ok 7 s') (ho : ∀ b ∈ s.rem, b < 256) :
    (n = 0 ∧ v = 7) ∨ 7 ∈ s.rem := by
  induction n generalizing v s with
  | zero =>
    injection h with h1 h2
    exact .inl ⟨rfl, h1⟩
  | succ n ih =>
    right
    obtain ⟨b, s1, hb, h⟩ := bind_ok_invM h
    unfold next at hb
    split at hb
    · cases hb
    · rename_i x r hr
      injection hb with h1 h2
      subst h1 h2
      rw [hr] at ho ⊢
      have hx := ho x (by simp)
      rcases ih _ _ h (fun b hb => ho b (List.mem_cons_of_mem _ hb)) with ⟨_, h7⟩ | h7
      · rw [← Nat.shiftLeft_add_eq_or_of_lt (by simpa using hx), Nat.shiftLeft_eq] at h7
        have : x = 7 := by omega
        simp [this]
      · exact List.mem_cons_of_mem _ h7

theorem integer_seven {s s' : It} (h : decodeIntegerValue s = .ok 7 s') (ho : ∀ b ∈ s.rem, b < 256) :
    7 ∈ s.rem ∨ 135 ∈ s.rem := by
  unfold decodeIntegerValue orDecodeError M.tryCatch at h
  cases hs : decodeShortInteger s with
  | ok a s1 =>
    rw [hs] at h
    injection h with h1 h2
    subst h1
    unfold decodeShortInteger at hs
    obtain ⟨b, s2, hb, hs⟩ := bind_ok_invM hs
    have hsuf := ((Safe.preview (E := E0) (by simp)) s).1 _ _ hb
    split at hs
    · obtain ⟨_, s3, _, hs⟩ := bind_ok_invM hs
      cases hs
    · obtain ⟨y, s3, hy, hs⟩ := bind_ok_invM hs
      injection hs with h1 h2
      have hm : y ∈ s.rem := by
        unfold next at hy
        split at hy
        · cases hy
        · rename_i x r hr
          injection hy with h3 h4
          subst h3
          exact hsuf.subset (by rw [hr]; simp)
      have hall : ∀ y : Fin 256, y.val &&& 0x7f = 7 → y.val = 7 ∨ y.val = 135 := by decide +kernel
      rcases hall ⟨y, ho y hm⟩ h1 with h3 | h3
      · exact .inl (by rw [← h3]; exact hm)
      · exact .inr (by rw [← h3]; exact hm)
  | err e1 s1 =>
    rw [hs] at h
    have h1 := ((shortInteger_safe s).2 _ _ hs).2
    simp only at h
    split at h
    · obtain ⟨n, s2, hn, h⟩ := bind_ok_invM h
      have h2 := ((shortLength_safe s1).1 _ _ hn).trans h1
      rcases longLoop_seven _ _ _ _ h (fun b hb => ho b (h2.subset hb)) with ⟨_, h7⟩ | h7
      · cases h7
      · exact .inl (h2.subset h7)
    · cases h

theorem uintLoop_run (u : Nat) (l : List Nat) (s' : It) (n : Nat) (h : uintVarLoop u l = .ok n s')
    (ho : ∀ b ∈ l, b < 256) :
    ∃ c x, l = c ++ x :: s'.rem ∧ (∀ b ∈ c, 128 ≤ b) ∧ n < (u + 1) * 128 ^ (c.length + 1) := by
  induction l generalizing u with
  | nil => cases h
  | cons b l ih =>
    have hb := ho b (by simp)
    have hor : (u <<< 7) ||| (b &&& 0x7f) = u * 128 + b % 128 := by
      rw [← Nat.shiftLeft_add_eq_or_of_lt (by
        have : b &&& 0x7f ≤ 0x7f := Nat.and_le_right
        omega), Nat.shiftLeft_eq]
      have := Nat.and_two_pow_sub_one_eq_mod b 7
      simpa using this
    unfold uintVarLoop at h
    split at h
    · rename_i h7
      obtain ⟨c, x, hl, hc, hn⟩ := ih _ h (fun b hb => ho b (List.mem_cons_of_mem _ hb))
      refine ⟨b :: c, x, by rw [hl]; rfl, ?_, ?_⟩
      · intro y hy
        rcases List.mem_cons.1 hy with rfl | hy
        · rw [Nat.shiftRight_eq_div_pow] at h7
          omega
        · exact hc y hy
      · refine Nat.lt_of_lt_of_le hn ?_
        rw [hor, List.length_cons, Nat.pow_succ 128 (c.length + 1), ← Nat.mul_assoc, Nat.mul_right_comm]
        apply Nat.mul_le_mul_right
        omega
    · injection h with h1 h2
      subst h1 h2
      refine ⟨[], b, rfl, by simp, ?_⟩
      rw [hor]
      simp
      omega

/-- a uintvar of 2^63 or more starts with nine octets that have their high bit set -/
theorem uint_run {s s' : It} {n : Nat} (h : decodeUintVar s = .ok n s') (ho : ∀ b ∈ s.rem, b < 256) (hn : 2 ^ 63 ≤ n) :
    ∃ c, c <:+: s.rem ∧ c.length = 9 ∧ ∀ b ∈ c, 128 ≤ b := by
  obtain ⟨c, x, hl, hc, hlt⟩ := uintLoop_run _ _ _ _ h ho
  have hlen : 9 ≤ c.length := by
    by_contra hlen
    have : 128 ^ (c.length + 1) ≤ 128 ^ 9 := Nat.pow_le_pow_right (by omega) (by omega)
    have h9 : (128 : Nat) ^ 9 = 2 ^ 63 := by decide +kernel
    omega
  refine ⟨c.take 9, ?_, by simp [hlen], fun b hb => hc b (List.mem_of_mem_take hb)⟩
  rw [hl]
  exact ((List.take_prefix 9 c).trans (List.prefix_append _ _)).isInfix

end Verif.Mms

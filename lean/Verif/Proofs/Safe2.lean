import Verif.Proofs.Safe
/-!
# Lemmas: the loops do not depend on their fuel, and what a message can contain
-/
set_option autoImplicit false

namespace Verif.Mms

theorem paramLoop_fuel (a b : Nat) (d : Dict Val) (s : It) (ha : s.rem.length < a) (hb : s.rem.length < b) :
    paramLoop a d s = paramLoop b d s := by
  induction a generalizing b d s with
  | zero => omega
  | succ a ih =>
    cases b with
    | zero => omega
    | succ b =>
      simp only [paramLoop]
      cases hp : decodeParameter s with
      | ok x s1 =>
        have := parameter_prog _ _ _ hp
        exact ih _ _ _ (by omega) (by omega)
      | err e s1 => cases e <;> rfl

theorem headerLoop_fuel (a b : Nat) (d : Dict HVal) (s : It) (ha : s.rem.length < a) (hb : s.rem.length < b) :
    headerLoop a d s = headerLoop b d s := by
  induction a generalizing b d s with
  | zero => omega
  | succ a ih =>
    cases b with
    | zero => omega
    | succ b =>
      simp only [headerLoop]
      cases hp : decodeHeader s with
      | ok x s1 =>
        have := header_prog _ _ _ hp
        simp only []
        split
        · rfl
        · exact ih _ _ _ (by omega) (by omega)
      | err e s1 => cases e <;> rfl

theorem partHeaderLoop_fuel (a b : Nat) (d : Dict HVal) (s : It) (ha : s.rem.length < a) (hb : s.rem.length < b) :
    partHeaderLoop a d s = partHeaderLoop b d s := by
  induction a generalizing b d s with
  | zero => omega
  | succ a ih =>
    cases b with
    | zero => omega
    | succ b =>
      simp only [partHeaderLoop]
      cases hp : decodeHeader s with
      | ok x s1 =>
        have := header_prog _ _ _ hp
        exact ih _ _ _ (by omega) (by omega)
      | err e s1 => cases e <;> rfl

theorem nextN_count (n : Nat) (s s' : It) (l : List Nat) (h : nextN n s = .ok l s') :
    l.length = n ∧ l ++ s'.rem = s.rem := by
  induction n generalizing s s' l with
  | zero =>
    injection h with h1 h2
    subst h1 h2
    exact ⟨rfl, rfl⟩
  | succ n ih =>
    simp only [nextN] at h
    rw [M.bind_apply] at h
    unfold next at h
    cases hr : s.rem with
    | nil => rw [hr] at h; cases h
    | cons x r =>
      rw [hr] at h
      simp only [] at h
      rw [M.bind_apply] at h
      cases hn : nextN n ⟨r, 0⟩ with
      | err e s1 => rw [hn] at h; cases h
      | ok l1 s1 =>
        rw [hn] at h
        injection h with h1 h2
        subst h1 h2
        have := ih _ _ _ hn
        exact ⟨by simp [this.1], by rw [List.cons_append, this.2]⟩

theorem bind_ok_invM {α β : Type} {m : D α} {f : α → D β} {s s' : It} {b : β} (h : (m >>= f) s = .ok b s') :
    ∃ a s1, m s = .ok a s1 ∧ f a s1 = .ok b s' := by
  rw [M.bind_apply] at h
  cases hm : m s with
  | err e s1 => rw [hm] at h; cases h
  | ok a s1 => rw [hm] at h; exact ⟨a, s1, rfl, h⟩

theorem onFresh_state {α : Type} {bytes : List Nat} {m : D α} {s s' : It} {a : α} (h : onFresh bytes m s = .ok a s') :
    s' = s := by
  unfold onFresh at h
  split at h
  · injection h with _ h; exact h.symm
  · cases h

theorem xrangeCheck_state {n : Nat} {s s' : It} {a : Unit} (h : xrangeCheck n s = .ok a s') : s' = s ∧ n < 2 ^ 63 := by
  unfold xrangeCheck at h
  split at h
  · rename_i hn
    injection h with _ h; exact ⟨h.symm, hn⟩
  · cases h

/-- a part is read from its own octets: two length fields, headers, data, and nothing else -/
theorem decodePart_size (s s' : It) (p : DataPart) (h : decodePart s = .ok p s') :
    ∃ d, p.data = some d ∧ d.length + 2 + s'.rem.length ≤ s.rem.length ∧ ∀ x ∈ d, x ∈ s.rem := by
  unfold decodePart at h
  obtain ⟨hl, s1, h1, h⟩ := bind_ok_invM h
  obtain ⟨dl, s2, h2, h⟩ := bind_ok_invM h
  obtain ⟨_, s3, h3, h⟩ := bind_ok_invM h
  obtain ⟨ct, s4, h4, h⟩ := bind_ok_invM h
  obtain ⟨⟨m, ps, hd⟩, s5, h5, h⟩ := bind_ok_invM h
  obtain ⟨_, s6, h6, h⟩ := bind_ok_invM h
  obtain ⟨d, s7, h7, h⟩ := bind_ok_invM h
  injection h with hp hs
  subst hp hs
  have a1 := uintVar_prog _ _ _ h1
  have a2 := uintVar_prog _ _ _ h2
  have a3 := (xrangeCheck_state h3).1
  have a4 := nextN_count _ _ _ _ h4
  have a5 := onFresh_state h5
  have a6 := (xrangeCheck_state h6).1
  have a7 := nextN_count _ _ _ _ h7
  subst a3 a5 a6
  refine ⟨d, rfl, ?_, ?_⟩
  · have b4 := congrArg List.length a4.2
    have b7 := congrArg List.length a7.2
    rw [List.length_append] at b4 b7
    omega
  · intro x hx
    have c1 : s1.rem <:+ s.rem := (uintVar_safe _).1 _ _ h1
    have c2 : s3.rem <:+ s1.rem := (uintVar_safe _).1 _ _ h2
    have c3 : s6.rem <:+ s3.rem := ⟨ct, a4.2⟩
    have c4 : x ∈ s6.rem := by rw [← a7.2]; exact List.mem_append_left _ hx
    exact c1.mem (c2.mem (c3.mem c4))

/-- octets held by the parts -/
def partsSize (l : List DataPart) : Nat := (l.map (fun p => (p.data.elim 0 List.length) + 2)).sum

theorem partLoop_size (n : Nat) (acc : List DataPart) (s s' : It) (l : List DataPart) (h : partLoop n acc s = .ok l s') :
    ∃ new, l = acc ++ new ∧ new.length = n ∧ partsSize new + s'.rem.length ≤ s.rem.length ∧
      ∀ p ∈ new, ∃ d, p.data = some d ∧ ∀ x ∈ d, x ∈ s.rem := by
  induction n generalizing acc s with
  | zero =>
    injection h with h1 h2
    subst h1 h2
    exact ⟨[], by simp, rfl, by simp [partsSize], by simp⟩
  | succ n ih =>
    simp only [partLoop] at h
    obtain ⟨p, s1, h1, h⟩ := bind_ok_invM h
    obtain ⟨d, hd, hl, hm⟩ := decodePart_size _ _ _ h1
    obtain ⟨new, e1, e2, e3, e4⟩ := ih _ _ h
    have hsuf : s1.rem <:+ s.rem := (part_safe _).1 _ _ h1
    refine ⟨p :: new, by rw [e1]; simp, by simp [e2], ?_, ?_⟩
    · simp only [partsSize, List.map_cons, List.sum_cons, hd, Option.elim] at e3 ⊢
      omega
    · intro q hq
      rcases List.mem_cons.1 hq with rfl | hq
      · exact ⟨d, hd, hm⟩
      · obtain ⟨d', a, b⟩ := e4 q hq
        exact ⟨d', a, fun x hx => hsuf.mem (b x hx)⟩

theorem messageBody_size (s s' : It) (l : List DataPart) (h : decodeMessageBody s = .ok l s') :
    partsSize l + s'.rem.length ≤ s.rem.length ∧ ∀ p ∈ l, ∃ d, p.data = some d ∧ ∀ x ∈ d, x ∈ s.rem := by
  unfold decodeMessageBody at h
  cases hu : decodeUintVar s with
  | err e s1 =>
    rw [hu] at h
    have h1 := (uintVar_safe s).2 _ _ hu
    have he : e = .stopIteration := by simpa using h1.1
    subst he
    injection h with h2 h3
    subst h2 h3
    exact ⟨by simpa [partsSize] using h1.2.length_le, by simp⟩
  | ok n s1 =>
    rw [hu] at h
    obtain ⟨_, s2, h2, h3⟩ := bind_ok_invM (m := xrangeCheck n) (f := fun _ => partLoop n []) h
    have := (xrangeCheck_state h2).1
    subst this
    obtain ⟨new, e1, e2, e3, e4⟩ := partLoop_size _ _ _ _ _ h3
    simp only [List.nil_append] at e1
    subst e1
    have hsuf : s2.rem <:+ s.rem := (uintVar_safe _).1 _ _ hu
    have := hsuf.length_le
    exact ⟨by omega, fun p hp => by
      obtain ⟨d, a, b⟩ := e4 p hp
      exact ⟨d, a, fun x hx => hsuf.mem (b x hx)⟩⟩

theorem set_length (d : Dict HVal) (k : Str) (v : HVal) : (d.set k v).length ≤ d.length + 1 := by
  induction d with
  | nil => simp [Dict.set]
  | cons a d ih =>
    obtain ⟨k', v'⟩ := a
    simp only [Dict.set]
    split
    · simp
    · simp only [List.length_cons]; omega

theorem headerLoop_count (fuel : Nat) (d : Dict HVal) (s s' : It) (r : Dict HVal) (h : headerLoop fuel d s = .ok r s') :
    r.length + s'.rem.length ≤ d.length + s.rem.length := by
  induction fuel generalizing d s with
  | zero => cases h
  | succ fuel ih =>
    simp only [headerLoop] at h
    cases hp : decodeHeader s with
    | ok x s1 =>
      obtain ⟨n, v⟩ := x
      rw [hp] at h
      have h1 := header_prog _ _ _ hp
      have h2 := set_length d n v
      simp only [] at h
      split at h
      · injection h with h3 h4
        subst h3 h4
        omega
      · have := ih _ _ h
        omega
    | err e s1 =>
      rw [hp] at h
      obtain ⟨h1, h3⟩ := (header_safe s).2 _ _ hp
      have := h3.length_le
      simp only [List.mem_cons, List.not_mem_nil, or_false] at h1
      rcases h1 with rfl | rfl | rfl | rfl | rfl
      · injection h with h4 h5
        subst h4 h5
        omega
      all_goals cases h

theorem decodeData_inv {data : List Nat} {m : Msg} (h : decodeData data = .ok m) :
    ∃ hdrs parts s1 s2, decodeMessageHeader (It.new data) = .ok hdrs s1 ∧ decodeMessageBody s1 = .ok parts s2 ∧
      m = { Msg.new with headers := hdrs, dataParts := parts } := by
  unfold decodeData at h
  split at h
  · rename_i m' s' he
    injection h with h
    subst h
    obtain ⟨hdrs, s1, h1, he⟩ := bind_ok_invM he
    obtain ⟨parts, s2, h2, he⟩ := bind_ok_invM he
    injection he with h3 h4
    exact ⟨hdrs, parts, s1, s2, h1, h2, h3.symm⟩
  · cases h

/-! ### restoring, for the remaining primitives -/

theorem textValue_restores : Restores decodeTextValue := .of_safe textValue_safe (by simp)
theorem versionValue_restores : Restores decodeVersionValue := .of_safe versionValue_safe (by simp)
theorem encodedString_restores : Restores decodeEncodedStringValue := .of_safe encodedString_safe (by simp)
theorem untypedValue_restores : Restores decodeUntypedValue := .of_safe untypedValue_safe (by simp)
theorem untypedParameter_restores : Restores decodeUntypedParameter :=
  tokenText_restores.bind (E := [.stopIteration]) (fun _ => .bind untypedValue_safe (fun _ => .pure _)) (by simp)

theorem compactValue_safe : Safe [.stopIteration] decodeCompactValue :=
  .orDE (.bind (integerValue_safe.mono (mem_sub rfl)) (fun _ => .pure _))
    (.bind (textString_safe.mono (mem_sub rfl)) (fun _ => .pure _))

theorem compactValue_restores : Restores decodeCompactValue := .of_safe compactValue_safe (by simp)

theorem typedValue_restores : Restores decodeTypedValue :=
  .of_safe (E := [.stopIteration]) (.orDE (compactValue_safe.mono (mem_sub rfl)) (.bind textValue_safe (fun _ => .pure _)))
    (by simp)

theorem noValue_restores : Restores decodeNoValue :=
  .of_safe (E := [.stopIteration, .typeError]) (.bind (.next (by simp)) (fun _ => .throw (by simp))) (by simp)

theorem dateValue_restores : Restores decodeDateValue := by
  refine longInteger_restores.bind (E := [.valueError]) (fun n => .lift ?_) (by simp)
  intro e h
  unfold utcFromTimestamp at h
  split at h
  · cases h
  · injection h with h; subst h; simp

theorem Restores.reset_bind {α : Type} {m : D α} (h : Restores m) : Restores (do resetPreview; m) := by
  intro s s' he
  rw [M.bind_apply] at he
  have := h _ _ he
  exact this

/-- looking at an octet and putting it back -/
theorem Restores.peek {α : Type} {f : Nat → D α} (hf : ∀ b, Restores (f b)) : Restores (do let b ← Mms.preview; f b) := by
  intro s s' h
  rw [M.bind_apply] at h
  unfold Mms.preview at h
  cases hr : s.rem[s.k]? with
  | none =>
    rw [hr] at h
    injection h with h1 _
    cases h1
  | some b =>
    rw [hr] at h
    have := hf b _ _ h
    exact this

theorem Restores.ite {α : Type} {c : Prop} [Decidable c] {m n : D α} (hm : Restores m) (hn : Restores n) :
    Restores (if c then m else n) := by
  split
  · exact hm
  · exact hn

theorem resetThrow_restores {α : Type} : Restores (do resetPreview; M.throw .decodeError : D α) := by
  intro s s' h
  injection h with _ h
  exact h.symm

theorem nextPure_restores {α : Type} (a : α) : Restores (do let _ ← next; pure a : D α) :=
  .of_safe (E := [.stopIteration]) (.bind (.next (by simp)) (fun _ => .pure _)) (by simp)

theorem wellKnownCharset_restores : Restores decodeWellKnownCharset := by
  refine .peek (fun b => .reset_bind (.ite (nextPure_restores _) ?_))
  refine integerValue_restores.bind (E := []) (fun n => ?_) (by simp)
  split
  · exact .pure _
  · exact .pure _

theorem booleanValue_restores : Restores decodeBooleanValue :=
  .peek (fun b => .ite resetThrow_restores
    (.of_safe (E := [.stopIteration]) (.bind (.next (by simp)) (fun _ => .pure _)) (by simp)))

theorem visibility_restores : Restores decodeSenderVisibilityValue :=
  .peek (fun b => .ite resetThrow_restores
    (.of_safe (E := [.stopIteration]) (.bind (.next (by simp)) (fun _ => .pure _)) (by simp)))

theorem priority_restores : Restores decodePriorityValue := by
  refine .peek (fun b => ?_)
  split
  · exact nextPure_restores _
  · exact resetThrow_restores

theorem messageClass_restores : Restores decodeMessageClassValue := by
  refine .peek (fun b => ?_)
  split
  · exact nextPure_restores _
  · exact .reset_bind tokenText_restores

theorem messageType_restores : Restores decodeMessageTypeValue := by
  refine .peek (fun b => ?_)
  split
  · exact nextPure_restores _
  · exact .reset_bind (.of_safe (E := []) (.pure _) (by simp))

theorem responseStatus_restores : Restores decodeResponseStatusValue := by
  refine .of_safe (E := [.stopIteration]) (.bind (.preview (by simp)) (fun b => .bind (.next (by simp)) (fun _ => ?_)))
    (by simp)
  split
  · exact .pure _
  · exact .pure _

theorem status_restores : Restores decodeStatusValue := by
  refine .of_safe (E := [.stopIteration]) (.bind (.next (by simp)) (fun b => ?_)) (by simp)
  split
  · exact .pure _
  · exact .pure _

theorem fromValue_restores : Restores decodeFromValue :=
  valueLength_restores.bind (E := [.stopIteration, .exception]) (fun _ => .bind (.next (by simp)) (fun _ =>
    .ite (.pure _) encodedString_safe)) (by simp)

theorem textString_restores : Restores decodeTextString := .of_safe textString_safe (by simp)
theorem uintVar_restores : Restores decodeUintVar := .of_safe uintVar_safe (by simp)
theorem qValue_restores : Restores decodeQValue := .of_safe qValue_safe (by simp)

theorem applicationHeader_restores : Restores decodeApplicationHeader := .of_safe applicationHeader_safe (by simp)

/-- DecodeError from a lookup after an integer: either the integer was not there or its number is not in the table -/
theorem after_integer {α : Type} (f : Nat → D α) (s s' : It) (h : (decodeIntegerValue >>= f) s = .err .decodeError s') :
    s' = ⟨s.rem, 0⟩ ∨ ∃ n s1, decodeIntegerValue s = .ok n s1 ∧ f n s1 = .err .decodeError s' := by
  rw [M.bind_apply] at h
  cases hi : decodeIntegerValue s with
  | err e s1 =>
    rw [hi] at h
    injection h with h1 h2
    subst h1 h2
    exact .inl (integerValue_restores _ _ hi)
  | ok n s1 =>
    rw [hi] at h
    exact .inr ⟨n, s1, rfl, h⟩

end Verif.Mms

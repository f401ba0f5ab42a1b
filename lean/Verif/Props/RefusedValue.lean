import Verif.Props.MmsSafe
/-!
# C59: where the iterator is left when the value of an Accept or Pragma header is refused
-/
set_option autoImplicit false

namespace Verif.Props
open Verif Verif.Mms

theorem orDE_inv {α : Type} {m h : D α} {s s' : It} (e : orDecodeError m h s = .err .decodeError s') :
    ∃ s1, m s = .err .decodeError s1 ∧ h s1 = .err .decodeError s' := by
  cases hm : m s with
  | ok a s1 => rw [orDE_ok hm] at e; cases e
  | err x s1 =>
    by_cases hx : x = .decodeError
    · subst hx
      rw [orDE_err hm] at e
      exact ⟨s1, rfl, e⟩
    · rw [orDE_other hm hx] at e
      injection e with e _
      exact absurd e hx

theorem bind_refused {α β : Type} {m : D α} {f : α → D β} {s s' : It} (e : (m >>= f) s = .err .decodeError s') :
    m s = .err .decodeError s' ∨ ∃ a s1, m s = .ok a s1 ∧ f a s1 = .err .decodeError s' := by
  rw [M.bind_apply] at e
  cases hm : m s with
  | err x s1 =>
    rw [hm] at e
    injection e with e1 e2
    subst e1 e2
    exact .inl rfl
  | ok a s1 =>
    rw [hm] at e
    exact .inr ⟨a, s1, rfl, e⟩

theorem lift_refused {n : Nat} {s s' : It} (h : (M.lift (mediaName n) : D Str) s = .err .decodeError s') :
    s' = s ∧ wellKnownContentTypes.length ≤ n := by
  unfold mediaName at h
  cases hn : wellKnownContentTypes[n]? with
  | some x => rw [hn] at h; cases h
  | none =>
    rw [hn] at h
    injection h with _ h
    exact ⟨h.symm, List.getElem?_eq_none_iff.1 hn⟩

theorem acceptTail_accepts (media : Str) (s s' : It) : acceptTail media s ≠ .err .decodeError s' := by
  have : Safe [.stopIteration, .overflowError, .attributeError] (acceptTail media) := by
    refine .bind (.preview (by simp)) (fun _ => .ite ?_ (.bind .reset (fun _ => .pure _)))
    refine .bind (.next (by simp)) (fun _ => .bind (qValue_safe.mono (mem_sub rfl)) (fun _ => ?_))
    refine .bind (.orDE (.bind (parameter_safe.mono (mem_sub rfl)) (fun _ => .pure _)) (.pure _)) (fun _ => ?_)
    exact .bind .reset (fun _ => .pure _)
  intro h
  have := ((this s).2 _ _ h).1
  simp at this

theorem constrained_refused (s s' : It) (h : decodeConstrainedMedia s = .err .decodeError s') :
    s' = ⟨s.rem, 0⟩ ∨ ∃ n, decodeShortInteger s = .ok n s' ∧ wellKnownContentTypes.length ≤ n := by
  unfold decodeConstrainedMedia at h
  rcases bind_refused h with h | ⟨v, s1, h1, h2⟩
  · exact .inl (constrainedEncoding_restores _ _ h)
  · unfold decodeConstrainedEncoding at h1
    cases hs : decodeShortInteger s with
    | ok n s2 =>
      rw [orDE_ok (a := Val.int n) (s' := s2) (by rw [M.bind_ok hs]; rfl)] at h1
      injection h1 with h1 h3
      subst h1 h3
      obtain ⟨h4, h5⟩ := lift_refused h2
      subst h4
      exact .inr ⟨n, rfl, by simpa using h5⟩
    | err x s2 =>
      exfalso
      have hb : (do let n ← decodeShortInteger; pure (Val.int n) : D Val) s = .err x s2 := M.bind_err hs
      by_cases hx : x = .decodeError
      · subst hx
        rw [orDE_err hb, M.bind_apply] at h1
        cases he : decodeExtensionMedia s2 with
        | err y s3 => rw [he] at h1; cases h1
        | ok t s3 =>
          rw [he] at h1
          injection h1 with h1 h3
          subst h1
          cases h2
      · rw [orDE_other hb hx] at h1
        cases h1

/-- `decode_accept_value`, refused: at most a short number without media type, a value length and another number without
media type have been passed over, and whatever was passed over is gone.  Nothing but these is consumed. -/
theorem C59_accept_partial (data : List Nat) (k : Nat) (s' : It) (h : decodeAcceptValue ⟨data, k⟩ = .err .decodeError s') :
    ∃ s1, (s1 = ⟨data, 0⟩ ∨ ∃ n, decodeShortInteger ⟨data, k⟩ = .ok n s1 ∧ wellKnownContentTypes.length ≤ n) ∧
      (s' = ⟨s1.rem, 0⟩ ∨ ∃ l s2, decodeValueLength s1 = .ok l s2 ∧
        (s' = ⟨s2.rem, 0⟩ ∨ ∃ n s3, decodeIntegerValue s2 = .ok n s3 ∧ wellKnownContentTypes.length ≤ n ∧ s' = ⟨s3.rem, 0⟩)) := by
  obtain ⟨s1, h1, h2⟩ := orDE_inv h
  refine ⟨s1, constrained_refused _ _ h1, ?_⟩
  rcases bind_refused h2 with h3 | ⟨l, s2, h3, h4⟩
  · exact .inl (valueLength_restores _ _ h3)
  · refine .inr ⟨l, s2, h3, ?_⟩
    rcases bind_refused h4 with h5 | ⟨m, s3, h5, h6⟩
    · obtain ⟨s3, h6, h7⟩ := orDE_inv h5
      have h8 := extensionMedia_restores _ _ h7
      rcases C59_media_partial s2.rem s2.k s3 h6 with h9 | ⟨n, h9, h10⟩
      · subst h9
        exact .inl h8
      · exact .inr ⟨n, s3, h9, h10, h8⟩
    · exact absurd h6 (acceptTail_accepts _ _ _)

/-- all three are passed over -/
example : decodeAcceptValue ⟨[0xff, 1, 0xff, 31, 9], 0⟩ = .err .decodeError ⟨[31, 9], 0⟩ := by decide +kernel
example := C59_accept_partial [0xff, 1, 0xff, 31, 9] 0 ⟨[31, 9], 0⟩ (by decide +kernel)

theorem decodeTyped_restores (ty : PType) : Restores (decodeTyped ty) := by
  have pu {α : Type} {m : D α} {f : α → Val} (h : Restores m) : Restores (do let x ← m; pure (f x) : D Val) :=
    h.bind (E := []) (fun _ => .pure _) (by simp)
  cases ty
  · exact qValue_restores
  all_goals first
    | exact pu wellKnownCharset_restores
    | exact pu versionValue_restores
    | exact pu integerValue_restores
    | exact pu textString_restores
    | exact pu shortInteger_restores
    | exact constrainedEncoding_restores
    | exact noValue_restores
    | exact pu textValue_restores
    | exact pu dateValue_restores
    | (intro s s' h; cases h)

theorem parameter_refused (s s' : It) (h : decodeParameter s = .err .decodeError s') :
    s' = ⟨s.rem, 0⟩ ∨ ∃ n s1, decodeIntegerValue s = .ok n s1 ∧ s' = ⟨s1.rem, 0⟩ ∧
      (lookupNum params12 n = none ∨
        ∃ e s2, lookupNum params12 n = some e ∧ decodeTyped e.2 s1 = .err .decodeError s2) := by
  obtain ⟨s1, h1, h2⟩ := orDE_inv h
  have h3 := untypedParameter_restores _ _ h2
  rcases bind_refused h1 with h4 | ⟨⟨t, ty⟩, s2, h4, h5⟩
  · rcases C59_parameter_partial s.rem s.k s1 h4 with h6 | ⟨n, h6, h7⟩
    · subst h6
      exact .inl h3
    · exact .inr ⟨n, s1, h6, h3, .inl h7⟩
  · rcases bind_refused h5 with h6 | ⟨v, s3, _, h6⟩
    · have h7 := decodeTyped_restores _ _ _ h6
      subst h7
      unfold decodeWellKnownParameter at h4
      rw [M.bind_apply] at h4
      cases hi : decodeIntegerValue s with
      | err e s3 => rw [hi] at h4; cases h4
      | ok n s3 =>
        rw [hi, params12_eq] at h4
        dsimp only at h4
        rw [M.bind_ok (M.lift_ok _ _)] at h4
        cases hn : lookupNum params12 n with
        | none => rw [hn] at h4; cases h4
        | some e =>
          rw [hn] at h4
          injection h4 with h8 h9
          subst h8 h9
          exact .inr ⟨n, s3, rfl, h3, .inr ⟨_, _, hn, h6⟩⟩
    · cases h6

/-- `decode_pragma_value`, refused: at most the value length and the number of the parameter have been consumed; the
number only if it has no parameter or the value of its parameter is refused -/
theorem C59_pragma_partial (data : List Nat) (k : Nat) (s' : It) (h : decodePragmaValue ⟨data, k⟩ = .err .decodeError s') :
    s' = ⟨data, 0⟩ ∨ ∃ l s1, decodeValueLength ⟨data, 0⟩ = .ok l s1 ∧
      (s' = ⟨s1.rem, 0⟩ ∨ ∃ n s2, decodeIntegerValue s1 = .ok n s2 ∧ s' = ⟨s2.rem, 0⟩ ∧
        (lookupNum params12 n = none ∨
          ∃ e s3, lookupNum params12 n = some e ∧ decodeTyped e.2 s2 = .err .decodeError s3)) := by
  unfold decodePragmaValue at h
  rcases bind_refused h with h1 | ⟨b, s1, h1, h2⟩
  · have : Safe [.stopIteration] preview := .preview (by simp)
    have := ((this _).2 _ _ h1).1
    simp at this
  · have hr : s1.rem = data := by
      unfold preview at h1
      dsimp only at h1
      split at h1
      · injection h1 with _ h1
        rw [← h1]
      · cases h1
    split at h2
    · have : Safe [.stopIteration] (do
          let _ ← next
          pure (py! "Cache-control", Val.str (py! "No-cache")) : D (Str × Val)) :=
        .bind (.next (by simp)) (fun _ => .pure _)
      have := ((this _).2 _ _ h2).1
      simp at this
    · have h3 : (do let _ ← decodeValueLength; decodeParameter : D (Str × Val)) ⟨data, 0⟩ = .err .decodeError s' := by
        rw [← hr]; exact h2
      rcases bind_refused h3 with h4 | ⟨l, s2, h4, h5⟩
      · exact .inl (valueLength_restores _ _ h4)
      · exact .inr ⟨l, s2, h4, parameter_refused _ _ h5⟩

/-- both are consumed -/
example := C59_pragma_partial [3, 0xff, 31, 9] 0 ⟨[31, 9], 0⟩ (by decide +kernel)
/-- a charset that is neither a number nor `*` -/
example := C59_pragma_partial [3, 0x81, 32, 9] 0 ⟨[32, 9], 0⟩ (by decide +kernel)

end Verif.Props

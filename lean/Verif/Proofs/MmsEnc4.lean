import Verif.Proofs.MmsEnc3
import Verif.Proofs.Safe2
/-!
# Lemmas on content types with parameters
-/
set_option autoImplicit false

namespace Verif.Mms
open Verif.Spec.Wsp Verif.Spec.Mms Verif.Spec.MmsEnc

theorem tokenLoop_two (acc : Str) (b : Nat) (r : List Nat) (hb : b > 31 ∧ b ∉ separators) (s' : It) (a : Str)
    (h : tokenLoop acc (b :: r) = .ok a s') : s'.rem.length + 2 ≤ (b :: r).length := by
  rw [tokenLoop, if_pos hb] at h
  have key : ∀ (l : List Nat) (acc : Str), tokenLoop acc l = .ok a s' → s'.rem.length + 1 ≤ l.length := by
    intro l
    induction l with
    | nil => intro acc h; cases h
    | cons c t ih =>
      intro acc h
      rw [tokenLoop] at h
      split at h
      · have := ih _ h
        simp only [List.length_cons]
        omega
      · injection h with _ h
        subst h
        simp
  have := key _ _ h
  simp only [List.length_cons]
  omega

theorem bind_ok_invE {α β : Type} {x : Py α} {f : α → Py β} {b : β} (h : (x >>= f) = .ok b) : ∃ a, x = .ok a ∧ f a = .ok b := by
  cases x with
  | error e => cases h
  | ok a => exact ⟨a, rfl, h⟩

/-- a token read from its beginning takes at least two octets -/
theorem tokenText_two (l : List Nat) (s' : It) (a : Str) (h : decodeTokenText ⟨l, 0⟩ = .ok a s') : s'.rem.length + 2 ≤ l.length := by
  unfold decodeTokenText at h
  cases l with
  | nil => cases h
  | cons b r =>
    rw [M.bind_ok (preview_zero b r)] at h
    by_cases hb : b ≤ 31 ∨ b ∈ separators
    · rw [if_pos hb] at h
      cases h
    · rw [if_neg hb] at h
      exact tokenLoop_two [] b r ⟨Nat.lt_of_not_le (fun h => hb (.inl h)), fun h => hb (.inr h)⟩ s' a h

theorem charset_prog : Prog decodeWellKnownCharset := by
  refine Prog.bind_right (E := [.stopIteration]) (.preview (by simp)) (fun b => ?_)
  refine Prog.bind_right (E := []) .reset (fun _ => ?_)
  refine .ite (Prog.next.bind_left (E := E0) (fun _ => .pure _)) (integerValue_prog.bind_left (E := E0) (fun n => ?_))
  split
  · exact .pure _
  · exact .pure _

theorem typed_prog {ty : PType} (h : ty ∈ types12) : Prog (decodeTyped ty) := by
  simp only [types12, List.mem_cons, List.not_mem_nil, or_false] at h
  rcases h with rfl | rfl | rfl | rfl | rfl | rfl | rfl | rfl
  · exact uintVar_prog.bind_left (E := E1) (fun q => .ite (.ite (.throw (by simp)) (.pure _)) (.pure _))
  · exact charset_prog.bind_left (E := E0) (fun _ => .pure _)
  · exact Prog.bind_left (E := E0) (.orDE (E := E0) (.bind shortInteger_safe (fun _ => .pure _)) (shortInteger_prog.bind_left (E := E0) (fun _ => .pure _)) textString_prog) (fun _ => .pure _)
  · exact integerValue_prog.bind_left (E := E0) (fun _ => .pure _)
  · exact textString_prog.bind_left (E := E0) (fun _ => .pure _)
  · exact .throw
  · exact shortInteger_prog.bind_left (E := E0) (fun _ => .pure _)
  · exact constrainedEncoding_prog

/-- a parameter takes at least two octets -/
theorem parameter_two (s s' : It) (nv : Str × Val) (h : decodeParameter s = .ok nv s') : s'.rem.length + 2 ≤ s.rem.length := by
  unfold decodeParameter orDecodeError M.tryCatch at h
  cases ht : decodeTypedParameter s with
  | ok a s1 =>
    rw [ht] at h
    injection h with _ h2
    subst h2
    unfold decodeTypedParameter at ht
    obtain ⟨⟨name, ty⟩, s2, h3, h4⟩ := bind_ok_invM ht
    obtain ⟨v, s3, h5, h6⟩ := bind_ok_invM h4
    injection h6 with _ h6
    subst h6
    have e1 := wellKnownParameter_prog _ ⟨_, params12_eq⟩ _ _ _ h3
    have e2 := typed_prog (wellKnownParameter_type h3) _ _ _ h5
    omega
  | err e s1 =>
    rw [ht] at h
    simp only [] at h
    split at h
    · rename_i he
      have hu : ∀ s s', decodeUntypedParameter s = .ok nv s' → ∃ a s2, decodeTokenText s = .ok a s2 ∧ s'.rem.length ≤ s2.rem.length := by
        intro s s' h
        unfold decodeUntypedParameter at h
        obtain ⟨a, s2, h1, h2⟩ := bind_ok_invM h
        refine ⟨a, s2, h1, ?_⟩
        have := (Safe.bind (E := [.stopIteration]) untypedValue_safe (fun v => Safe.pure (a, v)) s2).1 _ _ h2
        exact this.length_le
      obtain ⟨a, s2, h1, h2⟩ := hu _ _ h
      have h3 := tokenText_prog _ _ _ h1
      have h4 := ((typedParameter_safe s).2 _ _ ht).2.length_le
      cases hw : decodeWellKnownParameter (py! "1.2") s with
      | ok q s4 =>
        have e1 := wellKnownParameter_prog _ ⟨_, params12_eq⟩ _ _ _ hw
        obtain ⟨name, ty⟩ := q
        unfold decodeTypedParameter at ht
        rw [M.bind_ok hw] at ht
        have e2 := ((Safe.bind (typed_safe (wellKnownParameter_type hw)) (fun v => Safe.pure (name, v)) s4).2 _ _ ht).2.length_le
        omega
      | err e' s4 =>
        unfold decodeTypedParameter at ht
        rw [M.bind_err hw] at ht
        injection ht with h5 h6
        subst h5 h6
        have he : e' = .decodeError := by simpa using he
        subst he
        unfold decodeWellKnownParameter at hw
        rcases after_integer _ _ _ hw with h7 | ⟨n, s5, h7, h8⟩
        · subst h7
          have := tokenText_two _ _ _ h1
          omega
        · have e1 := integerValue_prog _ _ _ h7
          have e2 : s4.rem.length ≤ s5.rem.length := by
            rw [params12_eq, M.bind_ok (M.lift_ok _ _)] at h8
            cases hl : lookupNum params12 n with
            | some q => rw [hl] at h8; cases h8
            | none =>
              rw [hl] at h8
              injection h8 with _ h8
              subst h8
              exact Nat.le_refl _
          omega
    · cases h

theorem dset_length {α : Type} (d : Dict α) (k : Str) (v : α) : (d.set k v).length ≤ d.length + 1 := by
  induction d with
  | nil => simp [Dict.set]
  | cons a d ih =>
    obtain ⟨k', v'⟩ := a
    simp only [Dict.set]
    split
    · simp
    · simp only [List.length_cons]; omega

theorem paramLoop_count (fuel : Nat) (d : Dict Val) (s s' : It) (r : Dict Val) (h : paramLoop fuel d s = .ok r s') :
    2 * r.length ≤ 2 * d.length + s.rem.length := by
  induction fuel generalizing d s with
  | zero => cases h
  | succ n ih =>
    simp only [paramLoop] at h
    cases hp : decodeParameter s with
    | ok nv s1 =>
      obtain ⟨p, v⟩ := nv
      rw [hp] at h
      have h1 := ih _ _ h
      have h2 := parameter_two _ _ _ hp
      have h3 := dset_length d p v
      omega
    | err e s1 =>
      rw [hp] at h
      cases e <;> first | (injection h with h1 _; subst h1; omega) | cases h

/-- a content type announced with `n` octets has at most `(n - 1) / 2` parameters -/
theorem generalForm_count (n : Nat) (l : List Nat) (s' : It) (m : Str) (d : Dict Val)
    (h : decodeContentTypeValue ⟨valueLength n ++ l, 0⟩ = .ok (m, d) s') : 2 * d.length + 1 ≤ n := by
  have hc : decodeConstrainedMedia ⟨valueLength n ++ l, 0⟩ = .err .decodeError ⟨valueLength n ++ l, 0⟩ := by
    obtain ⟨b, t, he, hb⟩ := valueLength_head n
    rw [he]
    exact constrainedMedia_length hb _
  unfold decodeContentTypeValue at h
  rw [orDE_err (M.bind_err hc)] at h
  unfold decodeContentGeneralForm at h
  rw [M.bind_ok (decodeValueLength_ok _ _)] at h
  obtain ⟨u, s1, h1, h2⟩ := bind_ok_invM h
  obtain ⟨bytes, s2, h3, h4⟩ := bind_ok_invM h2
  have hb := nextN_count _ _ _ _ h3
  unfold onFresh at h4
  cases hg : generalFormInner bytes (It.new bytes) with
  | err e s3 => rw [hg] at h4; cases h4
  | ok a s3 =>
    rw [hg] at h4
    injection h4 with h4 _
    subst h4
    unfold generalFormInner at hg
    obtain ⟨md, s4, h5, h6⟩ := bind_ok_invM hg
    obtain ⟨ps, s5, h7, h8⟩ := bind_ok_invM h6
    injection h8 with h8 _
    injection h8 with _ h8
    subst h8
    have e1 := paramLoop_count _ _ _ _ _ h7
    have e2 : s4.rem.length < bytes.length := by
      have : Prog decodeMediaType := .orDE (E := E0) wellKnownMedia_safe
        (integerValue_prog.bind_left (E := E0) (fun n => .lift (by
          intro e he
          unfold mediaName at he
          split at he
          · cases he
          · injection he with he; subst he; simp))) extensionMedia_prog
      exact this _ _ _ h5
    simp only [List.length_nil] at e1
    omega

end Verif.Mms

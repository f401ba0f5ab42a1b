import Verif.Proofs.Trunc2
import Verif.Proofs.Mms3
/-!
# The header loop and the body on a part of a message
-/
set_option autoImplicit false

namespace Verif.Mms

/-- headers set one after the other -/
abbrev putAll (d : Dict HVal) (hs : List (Str × HVal)) : Dict HVal := hs.foldl (fun d h => d.set h.1 h.2) d

theorem headerLoop_puts (fuel : Nat) (d d' : Dict HVal) (s s' : It) (h : headerLoop fuel d s = .ok d' s') :
    ∃ hs, d' = putAll d hs := by
  induction fuel generalizing d s with
  | zero => cases h
  | succ n ih =>
    unfold headerLoop at h
    split at h
    · rename_i a b s1 he
      split at h
      · injection h with h1 h2
        exact ⟨[(a, b)], h1.symm⟩
      · obtain ⟨hs, rfl⟩ := ih _ _ h
        exact ⟨(a, b) :: hs, rfl⟩
    · injection h with h1 h2
      exact ⟨[], h1.symm⟩
    · cases h

/-- the header loop on a part of the octets: it fails; or it ends for want of octets with at most two of them left, and
the headers of the whole, if they can be read, are these and perhaps more; or it ends where it ends on the whole -/
theorem headerLoop_trunc (f g : Nat) (d : Dict HVal) (pre suf : List Nat) (k : Nat) (hk : k = 0)
    (hf : pre.length < f) (hg : (pre ++ suf).length < g) :
    (∃ e s', headerLoop f d ⟨pre, k⟩ = .err e s') ∨
    (∃ d1 s', headerLoop f d ⟨pre, k⟩ = .ok d1 s' ∧ s'.rem.length ≤ 2 ∧ (∃ hs, d1 = putAll d hs) ∧
      ∀ d2 s2, headerLoop g d ⟨pre ++ suf, k⟩ = .ok d2 s2 → ∃ hs, d2 = putAll d1 hs) ∨
    (∃ d1 r j, headerLoop f d ⟨pre, k⟩ = .ok d1 ⟨r, j⟩ ∧ (∃ hs, d1 = putAll d hs) ∧
      headerLoop g d ⟨pre ++ suf, k⟩ = .ok d1 ⟨r ++ suf, j⟩) := by
  subst hk
  generalize hn : pre.length = n at hf
  induction n using Nat.strong_induction_on generalizing f g d pre with
  | _ n ih =>
  cases f with
  | zero => omega
  | succ f =>
  cases g with
  | zero => omega
  | succ g =>
  have few := Few.header (t := True) ⟨pre, 0⟩ rfl
  rcases Trunc.header (w := True) trivial pre suf 0 with ⟨e, s', h1, he⟩ | ⟨a, r, j, h1, h2⟩ | ⟨e, r, j, h1, h2⟩
  · by_cases hx : e = .stopIteration
    · subst hx
      have e1 : headerLoop (f + 1) d ⟨pre, 0⟩ = .ok d s' := by unfold headerLoop; rw [h1]
      rw [h1] at few
      exact .inr (.inl ⟨d, s', e1, few.2 trivial rfl, ⟨[], rfl⟩, fun d2 s2 h => headerLoop_puts _ _ _ _ _ h⟩)
    · refine .inl ⟨e, s', ?_⟩
      unfold headerLoop
      rw [h1]
      cases e <;> first | rfl | exact absurd rfl hx
  · obtain ⟨x, v⟩ := a
    have hlt := header_prog _ _ _ h1
    simp only at hlt
    rw [h1] at few
    have hj : j = 0 := Nat.le_zero.mp few
    subst hj
    by_cases hx : x = py! "Content-Type"
    · refine .inr (.inr ⟨d.set x v, r, 0, ?_, ⟨[(x, v)], rfl⟩, ?_⟩)
      · unfold headerLoop; rw [h1]; simp only [if_pos hx]
      · unfold headerLoop; rw [h2]; simp only [if_pos hx]
    · have e1 : headerLoop (f + 1) d ⟨pre, 0⟩ = headerLoop f (d.set x v) ⟨r, 0⟩ := by
        conv_lhs => unfold headerLoop
        rw [h1]; simp only [if_neg hx]
      have e2 : headerLoop (g + 1) d ⟨pre ++ suf, 0⟩ = headerLoop g (d.set x v) ⟨r ++ suf, 0⟩ := by
        conv_lhs => unfold headerLoop
        rw [h2]; simp only [if_neg hx]
      rw [e1, e2]
      simp only [List.length_append] at hg
      rcases ih r.length (by omega) f g (d.set x v) r (by rw [List.length_append]; omega) rfl (by omega) with
        h | ⟨d1, s', a1, a2, ⟨hs, a3⟩, a4⟩ | ⟨d1, r', j', a1, ⟨hs, a2⟩, a3⟩
      · exact .inl h
      · exact .inr (.inl ⟨d1, s', a1, a2, ⟨(x, v) :: hs, a3⟩, a4⟩)
      · exact .inr (.inr ⟨d1, r', j', a1, ⟨(x, v) :: hs, a2⟩, a3⟩)
  · by_cases hx : e = .stopIteration
    · subst hx
      have e1 : headerLoop (f + 1) d ⟨pre, 0⟩ = .ok d ⟨r, j⟩ := by unfold headerLoop; rw [h1]
      rw [h1] at few
      exact .inr (.inl ⟨d, _, e1, few.2 trivial rfl, ⟨[], rfl⟩, fun d2 s2 h => headerLoop_puts _ _ _ _ _ h⟩)
    · refine .inl ⟨e, ⟨r, j⟩, ?_⟩
      unfold headerLoop
      rw [h1]
      cases e <;> first | rfl | exact absurd rfl hx

theorem uintVarLoop_less (n : Nat) (l : List Nat) (a : Nat) (s : It) (h : uintVarLoop n l = .ok a s) :
    s.rem.length < l.length := by
  induction l generalizing n with
  | nil => cases h
  | cons b r ih =>
    unfold uintVarLoop at h
    split at h
    · have := ih _ h
      simp only [List.length_cons]
      omega
    · injection h with h1 h2
      subst h2
      simp

/-- with two octets or fewer there are no parts -/
theorem body_short (s : It) (hs : s.rem.length ≤ 2) (ps : List DataPart) (s' : It)
    (h : decodeMessageBody s = .ok ps s') : ps = [] := by
  unfold decodeMessageBody at h
  split at h
  · injection h with h1 h2
    exact h1.symm
  · cases h
  · rename_i n s1 h1
    have l1 := uintVarLoop_less _ _ _ _ h1
    obtain ⟨_, s2, h2, hb⟩ := bind_ok_invM h
    have : s2 = s1 := by
      unfold xrangeCheck at h2
      split at h2
      · injection h2 with a b; exact b.symm
      · cases h2
    subst this
    cases n with
    | zero =>
      injection hb with h1 h2
      exact h1.symm
    | succ n =>
      obtain ⟨p, s3, h3, _⟩ := bind_ok_invM hb
      unfold decodePart at h3
      obtain ⟨hl, s4, h4, h3'⟩ := bind_ok_invM h3
      have l2 := uintVarLoop_less _ _ _ _ h4
      obtain ⟨dl, s5, h5, _⟩ := bind_ok_invM h3'
      have l3 := uintVarLoop_less _ _ _ _ h5
      omega

/-- the body on a part of the octets -/
theorem body_trunc (pre suf : List Nat) (k : Nat) :
    (∃ s', decodeMessageBody ⟨pre, k⟩ = .ok [] s') ∨ (∃ e s', decodeMessageBody ⟨pre, k⟩ = .err e s') ∨
    ∃ ps r j, decodeMessageBody ⟨pre, k⟩ = .ok ps ⟨r, j⟩ ∧ decodeMessageBody ⟨pre ++ suf, k⟩ = .ok ps ⟨r ++ suf, j⟩ := by
  unfold decodeMessageBody
  rcases Few.uintVarLoop_at 0 pre with ⟨n, l, h⟩ | h
  · have h' : decodeUintVar ⟨pre, k⟩ = .ok n ⟨l, 0⟩ := h
    rcases Trunc.uintVar (w := False) pre suf k with ⟨e, s', h1, he⟩ | ⟨a, r, j, h1, h2⟩ | ⟨e, r, j, h1, h2⟩
    · rw [h'] at h1; cases h1
    · rw [h1, h2]
      simp only []
      rcases Trunc.bind (Trunc.xrange a) (fun _ => Trunc.partLoop (w := False) a []) r suf j with
        ⟨e, s', h3, he⟩ | ⟨ps, r', j', h3, h4⟩ | ⟨e, r', j', h3, h4⟩
      · exact .inr (.inl ⟨e, s', h3⟩)
      · exact .inr (.inr ⟨ps, r', j', h3, h4⟩)
      · exact .inr (.inl ⟨e, _, h3⟩)
    · rw [h'] at h1; cases h1
  · have h' : decodeUintVar ⟨pre, k⟩ = .err .stopIteration ⟨[], 0⟩ := h
    rw [h']
    exact .inl ⟨_, rfl⟩

open Verif.Spec.Wsp Verif.Spec.Mms in
/-- a conformant body cut after the number of parts -/
theorem body_cut (ps : List Part) (hp : ∀ p ∈ ps, p.WF) (hl : ps.length < 2 ^ 63) (k : Nat)
    (hk : k < (ps.flatMap Part.enc).length) :
    ∃ s', decodeMessageBody ⟨uintvar ps.length ++ (ps.flatMap Part.enc).take k, 0⟩ = .err .stopIteration s' := by
  have whole := partLoop_ok ps hp [] []
  rw [List.append_nil] at whole
  unfold decodeMessageBody
  rw [decodeUintVar_uintvar]
  simp only []
  rw [M.bind_ok (xrangeCheck_ok hl _)]
  have ht : (ps.flatMap Part.enc).take k ++ (ps.flatMap Part.enc).drop k = ps.flatMap Part.enc := List.take_append_drop _ _
  rcases Trunc.partLoop (w := False) ps.length [] ((ps.flatMap Part.enc).take k) ((ps.flatMap Part.enc).drop k) 0 with
    ⟨e, s', h, he⟩ | ⟨a, r, j, h1, h2⟩ | ⟨e, r, j, h1, h2⟩
  · rcases he with rfl | ⟨hf, _⟩
    · exact ⟨s', h⟩
    · exact hf.elim
  · rw [ht, whole] at h2
    injection h2 with _ h2
    injection h2 with h2
    have := congrArg List.length h2
    simp only [List.length_append, List.length_drop, List.length_nil] at this
    omega
  · rw [ht, whole] at h2
    cases h2

end Verif.Mms

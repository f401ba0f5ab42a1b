import Verif.Props.Truncated
/-!
# C123: which exceptions of `from_data` may go away when more octets arrive
-/
set_option autoImplicit false

namespace Verif.Props
open Verif Verif.Mms

/-- an exception of the header loop that is not due to missing octets is raised on the whole too -/
theorem headerLoop_fails (f g : Nat) (d : Dict HVal) (pre suf : List Nat) (hf : pre.length < f) (hg : (pre ++ suf).length < g)
    (e : PyErr) (s' : It) (h : headerLoop f d ⟨pre, 0⟩ = .err e s') (hr : e ≠ .runtimeError) :
    ∃ s2, headerLoop g d ⟨pre ++ suf, 0⟩ = .err e s2 := by
  generalize hn : pre.length = n at hf
  induction n using Nat.strong_induction_on generalizing f g d pre with
  | _ n ih =>
  cases f with
  | zero => omega
  | succ f =>
  cases g with
  | zero => omega
  | succ g =>
  have few := Few.header (t := True) ⟨pre, 0⟩ rfl
  have stays : ∀ e1 s1, decodeHeader ⟨pre, 0⟩ = .err e1 s1 → e1 = e ∧ e ≠ .stopIteration := by
    intro e1 s1 h1
    unfold headerLoop at h
    rw [h1] at h
    by_cases hx : e1 = .stopIteration
    · subst hx; cases h
    · have : e1 = e := by
        cases e1 <;> first | exact absurd rfl hx | (injection h)
      exact ⟨this, this ▸ hx⟩
  rcases Trunc.header (w := True) trivial pre suf 0 with ⟨e1, s1, h1, he⟩ | ⟨a, r, j, h1, h2⟩ | ⟨e1, r, j, h1, h2⟩
  · obtain ⟨rfl, hx⟩ := stays _ _ h1
    rcases he with he | ⟨-, he⟩
    · exact absurd he hx
    · exact absurd he hr
  · obtain ⟨x, v⟩ := a
    have hlt := header_prog _ _ _ h1
    simp only at hlt
    rw [h1] at few
    have hj : j = 0 := Nat.le_zero.mp few
    subst hj
    by_cases hx : x = py! "Content-Type"
    · unfold headerLoop at h
      rw [h1] at h
      simp only [if_pos hx] at h
      cases h
    · have e1 : headerLoop (f + 1) d ⟨pre, 0⟩ = headerLoop f (d.set x v) ⟨r, 0⟩ := by
        conv_lhs => unfold headerLoop
        rw [h1]; simp only [if_neg hx]
      have e2 : headerLoop (g + 1) d ⟨pre ++ suf, 0⟩ = headerLoop g (d.set x v) ⟨r ++ suf, 0⟩ := by
        conv_lhs => unfold headerLoop
        rw [h2]; simp only [if_neg hx]
      rw [e1] at h
      rw [e2]
      simp only [List.length_append] at hg
      exact ih r.length (by omega) f g (d.set x v) r (by rw [List.length_append]; omega) h rfl (by omega)
  · obtain ⟨rfl, hx⟩ := stays _ _ h1
    refine ⟨⟨r ++ suf, j⟩, ?_⟩
    unfold headerLoop
    rw [h2]
    cases e1 <;> first | rfl | exact absurd rfl hx

theorem uintVar_err (s s' : It) (e : PyErr) (h : decodeUintVar s = .err e s') : e = .stopIteration := by
  rcases Few.uintVarLoop_at 0 s.rem with ⟨n, l, h1⟩ | h1
  · have : decodeUintVar s = .ok n ⟨l, 0⟩ := h1
    rw [h] at this; cases this
  · have : decodeUintVar s = .err .stopIteration ⟨[], 0⟩ := h1
    rw [h] at this; injection this

theorem seven_lt (n x k : Nat) (h : n < 2 ^ k) : (n <<< 7 ||| (x &&& 0x7f)) < 2 ^ (k + 7) := by
  refine Nat.or_lt_two_pow ?_ ?_
  · rw [Nat.shiftLeft_eq, Nat.pow_add]
    exact Nat.mul_lt_mul_of_pos_right h (by decide)
  · exact lt_of_le_of_lt Nat.and_le_right (lt_of_lt_of_le (by decide : 0x7f < 2 ^ 7) (Nat.pow_le_pow_right (by decide) (by omega)))

/-- with two octets or fewer for the body nothing but StopIteration is raised -/
theorem body_short_err (s : It) (hs : s.rem.length ≤ 2) (e : PyErr) (s' : It) (h : decodeMessageBody s = .err e s') :
    e = .stopIteration := by
  unfold decodeMessageBody at h
  split at h
  · cases h
  · rename_i e1 s1 _ h1
    injection h with h2
    subst h2
    exact uintVar_err _ _ _ h1
  · rename_i n s1 h1
    have l1 := uintVarLoop_less _ _ _ _ h1
    have hn : n < 2 ^ 63 := by
      have h1' : uintVarLoop 0 s.rem = .ok n s1 := h1
      match hl : s.rem with
      | [] => rw [hl] at h1'; cases h1'
      | [a] =>
        rw [hl] at h1'
        unfold uintVarLoop at h1'
        split at h1'
        · cases h1'
        · injection h1' with h2
          have := seven_lt 0 a 0 (by decide)
          rw [h2] at this
          omega
      | [a, b] =>
        rw [hl] at h1'
        have h7 := seven_lt 0 a 0 (by decide)
        unfold uintVarLoop at h1'
        split at h1'
        · unfold uintVarLoop at h1'
          split at h1'
          · cases h1'
          · injection h1' with h2
            have := seven_lt _ b _ h7
            rw [h2] at this
            omega
        · injection h1' with h2
          rw [h2] at h7
          omega
      | a :: b :: c :: r => rw [hl] at hs; simp at hs
    rw [M.bind_ok (xrangeCheck_ok hn _)] at h
    cases n with
    | zero => cases h
    | succ n =>
      unfold partLoop at h
      have hp : ∀ a s3, decodePart s1 ≠ .ok a s3 := by
        intro a s3 h3
        unfold decodePart at h3
        obtain ⟨hl, s4, h4, h3'⟩ := bind_ok_invM h3
        have l2 := uintVarLoop_less _ _ _ _ h4
        obtain ⟨dl, s5, h5, _⟩ := bind_ok_invM h3'
        have l3 := uintVarLoop_less _ _ _ _ h5
        omega
      cases h3 : decodePart s1 with
      | ok a s3 => exact absurd h3 (hp a s3)
      | err e3 s3 =>
        rw [M.bind_err h3] at h
        injection h with h4
        subst h4
        unfold decodePart at h3
        cases h4 : decodeUintVar s1 with
        | err e4 s4 =>
          rw [M.bind_err h4] at h3
          injection h3 with h3
          exact h3 ▸ uintVar_err _ _ _ h4
        | ok x s4 =>
          rw [M.bind_ok h4] at h3
          have l2 := uintVarLoop_less _ _ _ _ h4
          cases h5 : decodeUintVar s4 with
          | ok y s5 =>
            have l3 := uintVarLoop_less _ _ _ _ h5
            omega
          | err e5 s5 =>
            rw [M.bind_err h5] at h3
            injection h3 with h3
            exact h3 ▸ uintVar_err _ _ _ h5

theorem body_fails (pre suf : List Nat) (k : Nat) (e : PyErr) (s' : It) (h : decodeMessageBody ⟨pre, k⟩ = .err e s')
    (he : e ≠ .stopIteration) : ∃ s2, decodeMessageBody ⟨pre ++ suf, k⟩ = .err e s2 := by
  unfold decodeMessageBody at h ⊢
  rcases Trunc.uintVar (w := False) pre suf k with ⟨e1, s1, h1, he1⟩ | ⟨a, r, j, h1, h2⟩ | ⟨e1, r, j, h1, h2⟩
  · have := uintVar_err _ _ _ h1
    subst this
    rw [h1] at h
    cases h
  · rw [h1] at h
    rw [h2]
    simp only [] at h ⊢
    rcases Mms.Trunc.bind (Mms.Trunc.xrange a) (fun _ => Mms.Trunc.partLoop (w := False) a []) r suf j with
      ⟨e3, s3, h3, he3⟩ | ⟨ps, r', j', h3, h4⟩ | ⟨e3, r', j', h3, h4⟩
    · rw [h3] at h
      injection h with h5
      subst h5
      rcases he3 with he3 | ⟨hf, -⟩
      · exact absurd he3 he
      · exact hf.elim
    · rw [h3] at h; cases h
    · rw [h3] at h
      injection h with h5
      subst h5
      exact ⟨_, h4⟩
  · have := uintVar_err _ _ _ h1
    subst this
    rw [h1] at h
    cases h

/-- C123: an exception other than StopIteration and RuntimeError is raised whatever octets follow. -/
theorem C123_fails (pre suf : List Nat) (e : PyErr) (h : decodeData pre = .error e) (h1 : e ≠ .stopIteration)
    (h2 : e ≠ .runtimeError) : decodeData (pre ++ suf) = .error e := by
  have key : (∃ s, decodeMessageHeader (It.new (pre ++ suf)) = .err e s) ∨
      ∃ d s s2, decodeMessageHeader (It.new (pre ++ suf)) = .ok d s ∧ decodeMessageBody s = .err e s2 := by
    unfold decodeData at h
    cases hh : decodeMessageHeader (It.new pre) with
    | err e1 s1 =>
      rw [M.bind_err hh] at h
      injection h with h
      subst h
      exact .inl (headerLoop_fails (pre.length + 1) ((pre ++ suf).length + 1) Msg.new.headers pre suf (by omega) (by omega) _ _ hh h2)
    | ok d s =>
      rw [M.bind_ok hh] at h
      have hb : ∃ s2, decodeMessageBody s = .err e s2 := by
        cases hb : decodeMessageBody s with
        | err e1 s1 =>
          rw [M.bind_err hb] at h
          injection h with h
          exact ⟨s1, by rw [h]⟩
        | ok ps s1 =>
          rw [M.bind_ok hb] at h
          cases h
      obtain ⟨s2, hb⟩ := hb
      rcases headerLoop_trunc (pre.length + 1) ((pre ++ suf).length + 1) Msg.new.headers pre suf 0 rfl (by omega) (by omega)
        with ⟨e', s', a1⟩ | ⟨d1, s', a1, a2, _⟩ | ⟨d1, r, j, a1, _, a2⟩
      · have : decodeMessageHeader (It.new pre) = .err e' s' := a1
        rw [hh] at this; cases this
      · have : decodeMessageHeader (It.new pre) = .ok d1 s' := a1
        rw [hh] at this
        injection this with b1 b2
        subst b2
        exact absurd (body_short_err _ a2 _ _ hb) h1
      · have e1 : decodeMessageHeader (It.new pre) = .ok d1 ⟨r, j⟩ := a1
        rw [hh] at e1
        injection e1 with b1 b2
        subst b1 b2
        obtain ⟨s3, h3⟩ := body_fails r suf j e s2 hb h1
        exact .inr ⟨d, _, s3, a2, h3⟩
  unfold decodeData
  rcases key with ⟨s, h⟩ | ⟨d, s, s2, h, h'⟩
  · rw [M.bind_err h]
  · rw [M.bind_ok h, M.bind_err h']

example := C123_fails [0x84, 0xa3, 1, 4, 0, 3, 0x83, 0x87, 0x81] (py! "and more") .attributeError (by decide +kernel) (by decide) (by decide)

/-- C123: of octets with which a message that can be read begins, nothing but StopIteration or RuntimeError is raised. -/
theorem C123_begins (pre suf : List Nat) (m : Msg) (h : decodeData (pre ++ suf) = .ok m) (e : PyErr)
    (he : decodeData pre = .error e) : e = .stopIteration ∨ e = .runtimeError := by
  by_contra hc
  rw [not_or] at hc
  rw [C123_fails pre suf e he hc.1 hc.2] at h
  cases h

/-- the answers that are final: a message with parts, and every exception but these two -/
def Final (a : Py Msg) : Prop :=
  match a with
  | .ok m => m.dataParts ≠ []
  | .error e => e ≠ .stopIteration ∧ e ≠ .runtimeError

/-- C123: octets that arrive piece by piece: once there is a final answer it is the answer from then on. -/
theorem C123_final (pre suf : List Nat) (h : Final (decodeData pre)) : decodeData (pre ++ suf) = decodeData pre := by
  cases hd : decodeData pre with
  | ok m =>
    rw [hd] at h
    exact C73_parts_partial pre suf m hd h
  | error e =>
    rw [hd] at h
    exact C123_fails pre suf e hd h.1 h.2

/-- C123: each of the three other answers may change: a message without parts, StopIteration and RuntimeError may become a
message with parts. -/
theorem C123_others : ∃ data m, decodeData data = .ok m ∧ m.dataParts ≠ [] ∧
    (∃ n m0, decodeData (data.take n) = .ok m0 ∧ m0.dataParts = []) ∧
    (∃ n, decodeData (data.take n) = .error .stopIteration) ∧ ∃ n, decodeData (data.take n) = .error .runtimeError :=
  ⟨[0x84, 0xa3, 1, 1, 2, 0x83, 72, 105], _, rfl, by decide +kernel, ⟨2, _, rfl, rfl⟩, ⟨7, by decide +kernel⟩, ⟨1, by decide +kernel⟩⟩

example : Final (decodeData [0x84, 0xa3, 1, 1, 2, 0x83, 72, 105]) ∧ Final (decodeData [0x84, 0xa3, 1, 4, 0, 3, 0x83, 0x87, 0x81]) := by
  refine ⟨?_, ?_⟩
  · show _ ≠ _
    decide +kernel
  · have : decodeData [0x84, 0xa3, 1, 4, 0, 3, 0x83, 0x87, 0x81] = .error .attributeError := by decide +kernel
    rw [this]
    exact ⟨by decide, by decide⟩

end Verif.Props

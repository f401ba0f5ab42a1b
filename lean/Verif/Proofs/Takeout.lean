import Verif.Proofs.ReadAs
import Verif.Proofs.Trunc3
/-!
# Entries of a body are read from their own octets alone
-/
set_option autoImplicit false

namespace Verif.Mms
open Verif.Spec.Mms Verif.Spec.Wsp

theorem uintVarLoop_local (l : List Nat) (u n : Nat) (s : It) (h : uintVarLoop u l = .ok n s) :
    ∃ c, c ≠ [] ∧ l = c ++ s.rem ∧ s.k = 0 ∧ ∀ r, uintVarLoop u (c ++ r) = .ok n ⟨r, 0⟩ := by
  induction l generalizing u with
  | nil => cases h
  | cons b l ih =>
    unfold uintVarLoop at h
    split at h
    · rename_i hb
      obtain ⟨c, _, h1, h2, h3⟩ := ih _ h
      refine ⟨b :: c, by simp, by rw [h1]; rfl, h2, fun r => ?_⟩
      rw [List.cons_append, uintVarLoop, if_pos hb]
      exact h3 r
    · rename_i hb
      injection h with h1 h2
      subst h2
      refine ⟨[b], by simp, rfl, rfl, fun r => ?_⟩
      rw [List.cons_append, List.nil_append, uintVarLoop, if_neg hb, h1]

theorem nextN_local (n : Nat) (s s' : It) (l : List Nat) (h : nextN n s = .ok l s') :
    s.rem = l ++ s'.rem ∧ (s.k = 0 → s'.k = 0) ∧ ∀ r, nextN n ⟨l ++ r, 0⟩ = .ok l ⟨r, 0⟩ := by
  obtain ⟨h1, h2⟩ := nextN_count _ _ _ _ h
  refine ⟨h2.symm, ?_, ?_⟩
  · intro hk
    have := nextN_ok l s'.rem
    have e : s = ⟨l ++ s'.rem, 0⟩ := by rw [h2, ← hk]
    rw [e, ← h1, this] at h
    injection h with _ h
    rw [← h]
  · intro r
    have := nextN_ok l r
    rw [h1] at this
    exact this

/-- a part is read from its own octets, whatever follows them -/
theorem decodePart_local (s s' : It) (p : DataPart) (h : decodePart s = .ok p s') :
    ∃ c, s.rem = c ++ s'.rem ∧ s'.k = 0 ∧ ∀ r k, decodePart ⟨c ++ r, k⟩ = .ok p ⟨r, 0⟩ := by
  unfold decodePart at h
  obtain ⟨hl, s1, h1, h⟩ := bind_ok_invM h
  obtain ⟨dl, s2, h2, h⟩ := bind_ok_invM h
  obtain ⟨_, s3, h3, h⟩ := bind_ok_invM h
  obtain ⟨ct, s4, h4, h⟩ := bind_ok_invM h
  obtain ⟨⟨m, ps, hd⟩, s5, h5, h⟩ := bind_ok_invM h
  obtain ⟨_, s6, h6, h⟩ := bind_ok_invM h
  obtain ⟨d, s7, h7, h⟩ := bind_ok_invM h
  injection h with hp hs
  subst hp hs
  obtain ⟨c1, _, e1, k1, f1⟩ := uintVarLoop_local _ _ _ _ h1
  obtain ⟨c2, _, e2, k2, f2⟩ := uintVarLoop_local _ _ _ _ h2
  obtain ⟨a3, b3⟩ := xrangeCheck_state h3
  subst a3
  obtain ⟨e4, k4, f4⟩ := nextN_local _ _ _ _ h4
  have a5 := onFresh_state h5
  subst a5
  obtain ⟨a6, b6⟩ := xrangeCheck_state h6
  subst a6
  obtain ⟨e7, k7, f7⟩ := nextN_local _ _ _ _ h7
  refine ⟨c1 ++ (c2 ++ (ct ++ d)), ?_, k7 (k4 k2), ?_⟩
  · rw [e1, e2, e4, e7]; simp
  · intro r k
    have g1 : decodeUintVar ⟨c1 ++ (c2 ++ (ct ++ d)) ++ r, k⟩ = .ok hl ⟨c2 ++ (ct ++ (d ++ r)), 0⟩ := by
      have := f1 (c2 ++ (ct ++ (d ++ r)))
      unfold decodeUintVar
      simpa using this
    have g2 : decodeUintVar ⟨c2 ++ (ct ++ (d ++ r)), 0⟩ = .ok dl ⟨ct ++ (d ++ r), 0⟩ := f2 _
    have g5 : onFresh ct (partHeaders ct) ⟨d ++ r, 0⟩ = .ok (m, ps, hd) ⟨d ++ r, 0⟩ := by
      unfold onFresh at h5 ⊢
      split at h5
      · rename_i x y hx
        injection h5 with h5 _
        rw [h5]
      · cases h5
    unfold decodePart
    rw [M.bind_ok g1, M.bind_ok g2, M.bind_ok (xrangeCheck_ok b3 _), M.bind_ok (f4 _), M.bind_ok g5]
    show (xrangeCheck dl >>= fun _ => nextN dl >>= fun data => pure _ : D DataPart) _ = _
    rw [M.bind_ok (xrangeCheck_ok b6 _), M.bind_ok (f7 r)]
    rfl

/-- `o` is read as the part `p`, whatever follows -/
def ReadAlone (o : List Nat) (p : DataPart) : Prop := ∀ r, decodePart ⟨o ++ r, 0⟩ = .ok p ⟨r, 0⟩

theorem partLoop_local (n : Nat) (acc : List DataPart) (s s' : It) (l : List DataPart) (h : partLoop n acc s = .ok l s') :
    ∃ os ps, List.Forall₂ ReadAlone os ps ∧ ps.length = n ∧ l = acc ++ ps ∧ s.rem = os.flatten ++ s'.rem := by
  induction n generalizing acc s with
  | zero =>
    injection h with h1 h2
    subst h1 h2
    exact ⟨[], [], .nil, rfl, by simp, rfl⟩
  | succ n ih =>
    unfold partLoop at h
    obtain ⟨p, s1, h1, h⟩ := bind_ok_invM h
    obtain ⟨c, e, _, f⟩ := decodePart_local _ _ _ h1
    obtain ⟨os, ps, h2, h3, h4, h5⟩ := ih _ _ h
    exact ⟨c :: os, p :: ps, .cons (fun r => f r 0) h2, by simp [h3], by rw [h4]; simp, by rw [e, h5]; simp⟩

theorem partLoop_chunks {os : List (List Nat)} {ps : List DataPart} (h : List.Forall₂ ReadAlone os ps) (n : Nat)
    (acc : List DataPart) (rest : List Nat) :
    partLoop (os.length + n) acc ⟨os.flatten ++ rest, 0⟩ = partLoop n (acc ++ ps) ⟨rest, 0⟩ := by
  induction h generalizing acc with
  | nil => simp
  | @cons o p os ps h _ ih =>
    rw [List.length_cons, show os.length + 1 + n = (os.length + n) + 1 by omega, List.flatten_cons, List.append_assoc,
      partLoop, M.bind_ok (h _), ih]
    simp

theorem partLoop_acc (n : Nat) (acc : List DataPart) (s : It) :
    partLoop n acc s = (do let l ← partLoop n []; pure (acc ++ l) : D (List DataPart)) s := by
  induction n generalizing acc s with
  | zero => simp [partLoop, M.bind_apply, pure, M.pure]
  | succ n ih =>
    simp only [partLoop, M.bind_apply]
    cases decodePart s with
    | err e s1 => rfl
    | ok p s1 =>
      simp only []
      rw [ih, ih ([] ++ [p])]
      simp only [M.bind_apply]
      cases partLoop n [] s1 with
      | err e s2 => rfl
      | ok l s2 => simp [pure, M.pure]

/-- the body, after its headers -/
theorem decodeData_after (hs : List Hdr) (hw : ∀ h ∈ hs, h.WF) {c : CType} (hc : c.WF) (n : Nat) (hn : n < 2 ^ 63)
    (x : List Nat) : decodeData (hs.flatMap Hdr.enc ++ (0x84 :: c.enc ++ (uintvar n ++ x))) =
      match partLoop n [] ⟨x, 0⟩ with
      | .ok l _ => .ok { Msg.new with
          headers := (setAll hs Msg.new.headers).set (py! "Content-Type") (.ct c.media c.params), dataParts := l }
      | .err e _ => .error e := by
  have hb : decodeMessageBody ⟨uintvar n ++ x, 0⟩ = partLoop n [] ⟨x, 0⟩ := by
    unfold decodeMessageBody
    simp only [decodeUintVar_uintvar]
    rw [M.bind_ok (xrangeCheck_ok hn _)]
  unfold decodeData It.new
  rw [M.bind_ok (messageHeader_ct hs hw hc _), M.bind_apply, hb]
  cases partLoop n [] ⟨x, 0⟩ <;> rfl

theorem body_local {data : List Nat} {m : Msg} (h : decodeData data = .ok m) :
    ∃ front os back, data = front ++ os.flatten ++ back ∧ List.Forall₂ ReadAlone os m.dataParts := by
  obtain ⟨hdrs, parts, s1, s2, h1, h2, rfl⟩ := decodeData_inv h
  have c1 : s1.rem <:+ data := (messageHeader_safe _).1 _ _ h1
  obtain ⟨front, hf⟩ := c1
  unfold decodeMessageBody at h2
  split at h2
  · injection h2 with h2 _
    subst h2
    exact ⟨data, [], [], by simp, .nil⟩
  · cases h2
  · rename_i n s3 h3
    obtain ⟨_, s4, h4, h5⟩ := bind_ok_invM h2
    obtain ⟨a4, _⟩ := xrangeCheck_state h4
    subst a4
    obtain ⟨o, _, h6, _⟩ := uintVarLoop_local _ _ _ _ h3
    obtain ⟨os, ps, h7, h8, h9, h10⟩ := partLoop_local _ _ _ _ _ h5
    rw [List.nil_append] at h9
    subst h9
    refine ⟨front ++ o, os, s2.rem, ?_, h7⟩
    rw [← hf, h6, h10]; simp

/-- which headers are set does not depend on those already set -/
theorem headerLoop_any (fuel : Nat) (s : It) :
    (∃ hr s', ∀ d, headerLoop fuel d s = .ok (putAll d hr) s') ∨ ∃ e s', ∀ d, headerLoop fuel d s = .err e s' := by
  induction fuel generalizing s with
  | zero => exact .inr ⟨_, _, fun _ => rfl⟩
  | succ n ih =>
    cases h : decodeHeader s with
    | err e s' =>
      by_cases he : e = .stopIteration
      · subst he
        exact .inl ⟨[], s', fun d => by simp only [headerLoop, h]; rfl⟩
      · refine .inr ⟨e, s', fun d => ?_⟩
        simp only [headerLoop, h]
    | ok x s' =>
      obtain ⟨a, v⟩ := x
      by_cases ha : a = py! "Content-Type"
      · exact .inl ⟨[(a, v)], s', fun d => by simp only [headerLoop, h]; rw [if_pos ha]; rfl⟩
      · rcases ih s' with ⟨hr, s2, h2⟩ | ⟨e, s2, h2⟩
        · exact .inl ⟨(a, v) :: hr, s2, fun d => by simp only [headerLoop, h]; rw [if_neg ha, h2]; rfl⟩
        · exact .inr ⟨e, s2, fun d => by simp only [headerLoop, h]; rw [if_neg ha, h2]⟩

theorem messageHeader_any (rest : List Nat) :
    (∃ hr s', ∀ hs : List Hdr, (∀ h ∈ hs, h.WF) →
      decodeMessageHeader ⟨hs.flatMap Hdr.enc ++ rest, 0⟩ = .ok (putAll (setAll hs Msg.new.headers) hr) s') ∨
    ∃ e s', ∀ hs : List Hdr, (∀ h ∈ hs, h.WF) → decodeMessageHeader ⟨hs.flatMap Hdr.enc ++ rest, 0⟩ = .err e s' := by
  have key : ∀ hs : List Hdr, (∀ h ∈ hs, h.WF) → decodeMessageHeader ⟨hs.flatMap Hdr.enc ++ rest, 0⟩ =
      headerLoop (rest.length + 1) (setAll hs Msg.new.headers) ⟨rest, 0⟩ := by
    intro hs hw
    have hl := hdrs_length_le hs
    unfold decodeMessageHeader
    have : (hs.flatMap Hdr.enc ++ rest).length + 1 = hs.length + ((hs.flatMap Hdr.enc ++ rest).length - hs.length + 1) := by
      rw [List.length_append]; omega
    simp only [this]
    rw [headerLoop_rest hs hw]
    exact headerLoop_fuel _ _ _ _ (by simp only [List.length_append]; omega) (by simp)
  rcases headerLoop_any (rest.length + 1) ⟨rest, 0⟩ with ⟨hr, s', h⟩ | ⟨e, s', h⟩
  · exact .inl ⟨hr, s', fun hs hw => by rw [key hs hw, h]⟩
  · exact .inr ⟨e, s', fun hs hw => by rw [key hs hw, h]⟩

theorem putAll_get (hr : List (Str × HVal)) (d : Dict HVal) (n : Str) :
    (putAll d hr).get n = (match hr.reverse.lookup n with | some v => some v | none => d.get n) := by
  induction hr using List.reverseRecOn with
  | nil => rfl
  | append_singleton hr x ih =>
    obtain ⟨k, v⟩ := x
    unfold putAll at ih ⊢
    rw [List.foldl_append, List.reverse_append]
    simp only [List.foldl_cons, List.foldl_nil, List.reverse_singleton, List.singleton_append, List.lookup_cons]
    rw [dict_get_set, ih]
    by_cases h : k = n
    · subst h; simp
    · rw [if_neg h]
      have : (n == k) = false := by simpa using fun e => h e.symm
      rw [this]

end Verif.Mms

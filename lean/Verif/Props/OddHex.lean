import Verif.Props.Bin
/-!
# C17: exactly when the hex string of a PDU is made of whole octets
-/
set_option autoImplicit false

namespace Verif.Props
open Verif Verif.Submit Verif.Spec Verif.Spec.Sms Verif.Spec.Submit Verif.Spec.Time

/-- characters written with three or five hexadecimal digits -/
def OddDigits (c : Nat) : Bool := (0x100 ≤ c && c < 0x1000) || (0x10000 ≤ c && c < 0x100000)

theorem hex02_nibbles {c : Nat} (h : c < 0x110000) : ∃ ns : List Nat, hex02 c = ns.map hexDig ∧ (∀ n ∈ ns, n < 16) ∧
    ns.length % 2 = (if OddDigits c = true then 1 else 0) ∧ 2 ≤ ns.length ∧ (ns.length = 2 ↔ c < 256) := by
  unfold hex02 OddDigits
  by_cases h1 : c < 256
  · rw [if_pos h1]
    refine ⟨[c / 16, c % 16], rfl, ?_, ?_, ?_, ?_⟩
    · intro n hn
      simp only [List.mem_cons, List.not_mem_nil, or_false] at hn
      omega
    · rw [if_neg]
      · simp
      · simp only [Bool.or_eq_true, Bool.and_eq_true, decide_eq_true_eq]; omega
    · simp
    · simp [h1]
  rw [if_neg h1]
  by_cases h2 : c < 4096
  · rw [if_pos h2]
    refine ⟨[c / 256, c / 16 % 16, c % 16], rfl, ?_, ?_, ?_, ?_⟩
    · intro n hn
      simp only [List.mem_cons, List.not_mem_nil, or_false] at hn
      omega
    · rw [if_pos]
      · simp
      · simp only [Bool.or_eq_true, Bool.and_eq_true, decide_eq_true_eq]; omega
    · simp
    · simp [h1]
  rw [if_neg h2]
  by_cases h3 : c < 65536
  · rw [if_pos h3]
    refine ⟨[c / 4096, c / 256 % 16, c / 16 % 16, c % 16], rfl, ?_, ?_, ?_, ?_⟩
    · intro n hn
      simp only [List.mem_cons, List.not_mem_nil, or_false] at hn
      omega
    · rw [if_neg]
      · simp
      · simp only [Bool.or_eq_true, Bool.and_eq_true, decide_eq_true_eq]; omega
    · simp
    · simp [h1]
  rw [if_neg h3]
  by_cases h4 : c < 1048576
  · rw [if_pos h4]
    refine ⟨[c / 65536, c / 4096 % 16, c / 256 % 16, c / 16 % 16, c % 16], rfl, ?_, ?_, ?_, ?_⟩
    · intro n hn
      simp only [List.mem_cons, List.not_mem_nil, or_false] at hn
      omega
    · rw [if_pos]
      · simp
      · simp only [Bool.or_eq_true, Bool.and_eq_true, decide_eq_true_eq]; omega
    · simp
    · simp [h1]
  rw [if_neg h4]
  refine ⟨[c / 1048576, c / 65536 % 16, c / 4096 % 16, c / 256 % 16, c / 16 % 16, c % 16], rfl, ?_, ?_, ?_, ?_⟩
  · intro n hn
    simp only [List.mem_cons, List.not_mem_nil, or_false] at hn
    omega
  · rw [if_neg]
    · simp
    · simp only [Bool.or_eq_true, Bool.and_eq_true, decide_eq_true_eq]; omega
  · simp
  · simp [h1]

theorem encodeStr_nibbles : ∀ t : List Nat, (∀ c ∈ t, c < 0x110000) → ∃ ns : List Nat, encodeStr t = ns.map hexDig ∧
    (∀ n ∈ ns, n < 16) ∧ ns.length % 2 = t.countP OddDigits % 2 ∧ 2 * t.length ≤ ns.length ∧
      (ns.length = 2 * t.length ↔ ∀ c ∈ t, c < 256)
  | [], _ => ⟨[], rfl, by simp, rfl, by simp, by simp⟩
  | c :: t, h => by
    obtain ⟨ms, h1, h2, h3, h4, h5⟩ := hex02_nibbles (h c (by simp))
    obtain ⟨ns, k1, k2, k3, k4, k5⟩ := encodeStr_nibbles t (fun c hc => h c (by simp [hc]))
    refine ⟨ms ++ ns, ?_, ?_, ?_, ?_, ?_⟩
    · rw [encodeStr_cons, h1, k1, List.map_append]
    · intro n hn
      exact (List.mem_append.1 hn).elim (h2 n) (k2 n)
    · rw [List.length_append, List.countP_cons]
      omega
    · rw [List.length_append, List.length_cons]
      omega
    · rw [List.length_append, List.length_cons, List.forall_mem_cons, ← h5, ← k5]
      omega

theorem nibbles_octets : ∀ ns : List Nat, (∀ n ∈ ns, n < 16) → ns.length % 2 = 0 →
    ∃ o : List Nat, (∀ x ∈ o, x < 256) ∧ encodeStr o = ns.map hexDig ∧ 2 * o.length = ns.length
  | [], _, _ => ⟨[], by simp, rfl, rfl⟩
  | [_], _, h => by simp at h
  | a :: b :: ns, h, he => by
    obtain ⟨o, h1, h2, h3⟩ := nibbles_octets ns (fun n hn => h n (by simp [hn]))
      (by simp only [List.length_cons] at he; omega)
    have ha := h a (by simp)
    have hb := h b (by simp)
    refine ⟨(16 * a + b) :: o, ?_, ?_, ?_⟩
    · intro x hx
      rcases List.mem_cons.1 hx with rfl | hx
      · omega
      · exact h1 x hx
    · rw [encodeStr_cons, h2, hex02, if_pos (by omega), show (16 * a + b) / 16 = a by omega,
        show (16 * a + b) % 16 = b by omega]
      rfl
    · simp only [List.length_cons]; omega

theorem lengthOk_of_envelope {s : State} {al : Alphabet} {mr n i : Nat} {p : Pdu} {udl : Nat} {ud : List Nat}
    (h : Envelope s al mr n i p udl ud) : LengthOk p := by
  obtain ⟨bytes, sm, rest, sub, h1, h2, h3, _, h5, _⟩ := h
  cases bytes with
  | nil => simp [readSmsc] at h3
  | cons n r =>
    refine ⟨n, r, h1, h2, ?_⟩
    rw [h5]
    cases n with
    | zero => simp only [readSmsc, Option.some.injEq, Prod.mk.injEq] at h3; rw [h3.2]; rfl
    | succ n =>
      cases r with
      | nil => simp [readSmsc] at h3
      | cons toa r =>
        simp only [readSmsc, Nat.add_sub_cancel] at h3
        split at h3
        · cases h3
        · simp only [Option.some.injEq, Prod.mk.injEq] at h3
          rw [← h3.2, List.length_drop, List.length_cons]
          omega

/-- the body of 8-bit data in one part -/
theorem bin_single_body {s s' : State} {ps : List Pdu} (hf : s.fmt = some 4) (hl : s.text.s.length ≤ 140)
    (h : toPdu s = .ok ps s') : bodyP 4 s.text (crOf (afterRef s)) = .ok [encodeStr (s.text.s.length :: s.text.s)] := by
  have he : effFmt s = 4 := by unfold effFmt; rw [hf]
  have hv : (toPdu s).val = .ok ps := by rw [h]; rfl
  rw [toPdu_val] at hv
  unfold toPduP at hv
  obtain ⟨_, _, hv⟩ := bind_ok_inv hv
  obtain ⟨_, _, hv⟩ := bind_ok_inv hv
  obtain ⟨_, _, hv⟩ := bind_ok_inv hv
  obtain ⟨_, _, hv⟩ := bind_ok_inv hv
  obtain ⟨_, _, hv⟩ := bind_ok_inv hv
  obtain ⟨_, _, hv⟩ := bind_ok_inv hv
  obtain ⟨ms, hms, hv⟩ := bind_ok_inv hv
  rw [he] at hms
  unfold bodyP at hms ⊢
  rw [if_neg (by decide), if_pos rfl, if_pos (show s.text.s.length ≤ EIGHTBIT_SIZE from hl)] at hms ⊢
  obtain ⟨m, hm, hms⟩ := bind_ok_inv hms
  have hm' := hm
  unfold pack8 at hm'
  obtain ⟨t, ht, hm'⟩ := bind_ok_inv hm'
  cases ht
  obtain ⟨c, hc, hm'⟩ := bind_ok_inv hm'
  obtain ⟨r, hr, hm'⟩ := bind_ok_inv hm'
  obtain ⟨e1, _⟩ := pyChr_ok hc
  unfold concatStr at hr
  split at hr
  · cases hr
  cases hr
  cases hm'
  rw [hm, e1]
  rfl

/-- ... when it is made of whole octets -/
theorem bin_single_even {s s' : State} {ps : List Pdu} (hr : Ready s) (hf : s.fmt = some 4) (hl : s.text.s.length ≤ 140)
    (hc : ∀ c ∈ s.text.s, c < 0x110000) (h : toPdu s = .ok ps s') (he : s.text.s.countP OddDigits % 2 = 0) :
    ∃ p o, ps = [p] ∧ Envelope s .bin (mrOf s) 1 0 p s.text.s.length o ∧ (∀ x ∈ o, x < 256) ∧
      (o.length = s.text.s.length ↔ ∀ c ∈ s.text.s, c < 256) := by
  have h4 : effFmt s = 4 := by unfold effFmt; rw [hf]
  obtain ⟨ns, h1, h2, h3, _, h5⟩ := encodeStr_nibbles s.text.s hc
  obtain ⟨o, k1, k2, k3⟩ := nibbles_octets ns h2 (by omega)
  have hb : (bodyM (effFmt s) s.text (withDcs (afterRef s))).val = .ok (List.map encodeStr [s.text.s.length :: o]) := by
    rw [bodyM_val, h4, show crOf (withDcs (afterRef s)) = crOf (afterRef s) from rfl, bin_single_body hf hl h]
    simp only [List.map_cons, List.map_nil, encodeStr_cons, h1, k2]
  obtain ⟨ps', e1, e2, e3⟩ := toPdu_envelope (al := .bin) hr (.inr (.inl ⟨h4, rfl⟩)) (Res.val_ok hb) (by
    intro b hb x hx
    rw [List.mem_singleton.1 hb] at hx
    rcases List.mem_cons.1 hx with rfl | hx
    · omega
    · exact k1 x hx)
  rw [h] at e1
  cases e1
  obtain ⟨p, rfl⟩ := List.length_eq_one_iff.1 e2
  refine ⟨p, o, rfl, e3 0 (by simp) (by simp) _ _ rfl, k1, ?_⟩
  rw [← h5]
  omega

/-- ... and when it is not -/
theorem bin_single_odd {s s' : State} {ps : List Pdu} (hr : Ready s) (hf : s.fmt = some 4) (hl : s.text.s.length ≤ 140)
    (hc : ∀ c ∈ s.text.s, c < 0x110000) (h : toPdu s = .ok ps s') (he : s.text.s.countP OddDigits % 2 = 1) :
    ∃ p, ps = [p] ∧ p.pdu.length % 2 = 1 := by
  have h4 : effFmt s = 4 := by unfold effFmt; rw [hf]
  obtain ⟨ns, h1, h2, h3, _, _⟩ := encodeStr_nibbles s.text.s hc
  obtain ⟨sm, a, pid, had, _⟩ := ready_addressed hr
  obtain ⟨vp, v1, v2, _⟩ := validityOk_vp hr.validity
  have hb := bin_single_body hf hl h
  have hv : (toPdu s).val = .ok ps := by rw [h]; rfl
  rw [toPdu_val] at hv
  unfold toPduP at hv
  obtain ⟨smsc, g1, hv⟩ := bind_ok_inv hv
  obtain ⟨sub, g2, hv⟩ := bind_ok_inv hv
  obtain ⟨ph, g3, hv⟩ := bind_ok_inv hv
  obtain ⟨pi, g4, hv⟩ := bind_ok_inv hv
  obtain ⟨d, g5, hv⟩ := bind_ok_inv hv
  obtain ⟨vp', g6, hv⟩ := bind_ok_inv hv
  obtain ⟨ms, g7, hv⟩ := bind_ok_inv hv
  rw [had.smsc] at g1; cases g1
  rw [getSmsSubmitPdu_ok] at g2; cases g2
  rw [had.phone] at g3; cases g3
  rw [had.pidEq, getTppidPdu_ok had.pidLt] at g4; cases g4
  rw [v1] at g6; cases g6
  rw [h4] at g7
  rw [hb] at g7
  cases g7
  obtain ⟨e1, e2⟩ := pyChr_ok g5
  simp only [List.map_cons, List.map_nil, frameP] at hv
  cases hv
  refine ⟨_, rfl, ?_⟩
  have l1 := encodeStr_length had.smscLt
  have l2 := encodeStr_length (l := [submitOctet s.validity s.requestStatus false])
    (fun x hx => by rw [List.mem_singleton.1 hx]; exact submitOctet_lt _ _ _)
  have l3 := encodeStr_length (l := [mrOf s]) (fun x hx => by rw [List.mem_singleton.1 hx]; exact mrOf_lt s)
  have l4 := encodeStr_length had.phoneLt
  have l5 := encodeStr_length (l := [pid]) (fun x hx => by rw [List.mem_singleton.1 hx]; exact had.pidLt)
  have l6 := encodeStr_length (l := [d]) (fun x hx => by rw [List.mem_singleton.1 hx]; omega)
  have l7 := encodeStr_length v2
  have l8 : (encodeStr (s.text.s.length :: s.text.s)).length = 2 + ns.length := by
    rw [show s.text.s.length :: s.text.s = [s.text.s.length] ++ s.text.s from rfl, encodeStr_append, List.length_append,
      encodeStr_length (l := [s.text.s.length]) (fun x hx => by rw [List.mem_singleton.1 hx]; omega), h1, List.length_map]
    simp
  simp only [mkPdu, pyUpper, List.length_map, List.length_append, l1, l2, l3, l4, l5, l6, l7, l8]
  omega

/-- C17, exactly: every PDU is made of whole octets and has the right length, unless the data is 8-bit and an odd number
of its characters is written with an odd number of hexadecimal digits. -/
theorem C17_iff (s s' : State) (ps : List Pdu) (hr : Ready s) (hc : ∀ c ∈ s.text.s, c < 0x110000)
    (h : toPdu s = .ok ps s') : (∀ p ∈ ps, LengthOk p) ↔ (s.fmt = some 4 → s.text.s.countP OddDigits % 2 = 0) := by
  by_cases hf : s.fmt = some 4
  · by_cases hl : s.text.s.length ≤ 140
    · constructor
      · intro hp _
        by_contra ho
        obtain ⟨p, rfl, hlen⟩ := bin_single_odd hr hf hl hc h (by omega)
        obtain ⟨n, rest, h1, _⟩ := hp p (by simp)
        have := hexUpper_even (n :: rest)
        rw [← h1] at this
        omega
      · intro he p hp
        obtain ⟨q, o, rfl, henv, _⟩ := bin_single_even hr hf hl hc h (he hf)
        rw [List.mem_singleton.1 hp]
        exact lengthOk_of_envelope henv
    · obtain ⟨_, ht, _⟩ := toPdu_bin_inv hf (by omega) h
      have hlt : ∀ x ∈ s.text.s, x < 256 := fun x hx => by have := ht x hx; omega
      refine iff_of_true (C17_partial s s' ps hr h fun _ => hlt) fun _ => ?_
      rw [List.countP_eq_zero.2]
      intro x hx
      have := hlt x hx
      simp only [OddDigits, Bool.or_eq_true, Bool.and_eq_true, decide_eq_true_eq]
      omega
  · exact iff_of_true (C17_partial s s' ps hr h fun h4 => absurd h4 hf) fun h4 => absurd h4 hf

/-- C17: and even when the octets are whole, the user data of an 8-bit message in one part is as long as announced exactly
when all characters are octets. -/
theorem C17_announced (s s' : State) (ps : List Pdu) (hr : Ready s) (hf : s.fmt = some 4) (hl : s.text.s.length ≤ 140)
    (hc : ∀ c ∈ s.text.s, c < 0x110000) (h : toPdu s = .ok ps s') :
    (∀ p ∈ ps, ∃ udl ud, UserData p udl ud ∧ ud.length = udl) ↔ ∀ c ∈ s.text.s, c < 256 := by
  constructor
  · intro hp
    rcases Nat.mod_two_eq_zero_or_one (s.text.s.countP OddDigits) with he | he
    · obtain ⟨p, o, rfl, henv, ho, hiff⟩ := bin_single_even hr hf hl hc h he
      obtain ⟨udl, ud, ⟨b, sm, r, sub, a1, a2, a3, a4, a5, a6⟩, hlen⟩ := hp p (by simp)
      obtain ⟨b', sm', r', sub', c1, c2, c3, c4, c5, c6⟩ := userData_of_envelope henv
      have := Deliver.hexUpper_inj a2 c2 (a1.symm.trans c1)
      subst this
      rw [a3] at c3
      cases c3
      rw [a4] at c4
      cases c4
      apply hiff.1
      rw [← c6, a6, hlen, ← a5, c5]
    · obtain ⟨p, rfl, hlen⟩ := bin_single_odd hr hf hl hc h he
      obtain ⟨udl, ud, ⟨b, sm, r, sub, a1, _⟩, _⟩ := hp p (by simp)
      have := hexUpper_even b
      rw [← a1] at this
      omega
  · intro hlt p hp
    obtain ⟨q, o, rfl, henv, ho, hiff⟩ := bin_single_even hr hf hl hc h (by
      rw [List.countP_eq_zero.2]
      intro x hx
      have := hlt x hx
      simp only [OddDigits, Bool.or_eq_true, Bool.and_eq_true, decide_eq_true_eq]
      omega)
    rw [List.mem_singleton.1 hp]
    exact ⟨_, o, userData_of_envelope henv, hiff.2 hlt⟩

/-- two such characters give whole octets, but three of them where two were announced -/
example : ∃ ps s', toPdu (sample ⟨true, [0x100, 0x101]⟩ (some 4)) = .ok ps s' ∧ (∀ p ∈ ps, LengthOk p) ∧
    ¬ ∀ p ∈ ps, ∃ udl ud, UserData p udl ud ∧ ud.length = udl := by
  have hp : (toPdu (sample ⟨true, [0x100, 0x101]⟩ (some 4))).val =
      .ok [⟨py! "07914346466554F631000B914316565811F90015A702100101", 17, 1, 1⟩] := by decide +kernel
  refine ⟨_, _, Res.val_ok hp, ?_, ?_⟩
  · exact (C17_iff _ _ _ (sample_ready _ _) (by decide) (Res.val_ok hp)).2 fun _ => by decide
  · intro hc
    exact absurd ((C17_announced _ _ _ (sample_ready _ _) rfl (by decide) (by decide) (Res.val_ok hp)).1 hc) (by decide)

end Verif.Props

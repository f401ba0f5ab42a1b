import Verif.Proofs.Submit2
import Verif.Spec.Submit
/-!
# `to_pdu` meets the specification
-/
set_option autoImplicit false

namespace Verif.Submit
open Verif Verif.Spec Verif.Spec.Sms Verif.Spec.Gsm Verif.Spec.Submit Verif.Spec.Time

theorem validityOk_vp {v : Validity} (h : ValidityOk v) : ∃ vp : List Nat, vpPdu v = .ok (encodeStr vp) ∧
    (∀ x ∈ vp, x < 256) ∧ vp.length = vpSize (vpfOf v) ∧ ValidityField v (vpfOf v) vp := by
  have hchr : ∀ l : List Nat, (∀ x ∈ l, x < 256) → chrHexAll (l.map (fun x : Nat => (x : Int))) = .ok (encodeStr l) := by
    intro l hl
    induction l with
    | nil => rfl
    | cons x l ih =>
      have hx := hl x (by simp)
      simp only [List.map_cons, chrHexAll, ih (fun y hy => hl y (by simp [hy])), Int.toNat_natCast, pyChr, hx, if_true,
        bind, Except.bind]
      rw [if_neg (by omega)]
      simp [encodeStr]
  cases v with
  | none => exact ⟨[], rfl, by simp, rfl, rfl, rfl⟩
  | relative t =>
    obtain ⟨n, h1, h2, h3, h4⟩ := relativeValidity_floor t h.1 h.2
    refine ⟨[n], ?_, by simpa using h1, rfl, rfl, n, h1, rfl, h3, fun m hm hle => (h4 m hm hle).2⟩
    simp only [vpPdu, h2, bind, Except.bind]
    exact hchr [n] (by simpa using h1)
  | absolute d =>
    obtain ⟨hy, hv, ho⟩ := h
    obtain ⟨_, _, hm, _, hd, hh, hmi, hs⟩ := hv
    have hd' : d.day < 100 := by
      have : monthLength d.year d.month ≤ 31 := by
        unfold monthLength; split
        · split <;> omega
        · split <;> omega
      simp only at hd; omega
    simp only at hm hh hmi hs
    obtain ⟨o, h1, h2, h3, h4⟩ := absoluteValidity_ok d hy (by omega) hd' (by omega) (by omega) (by omega) ho
    refine ⟨o, ?_, h2, h1, rfl, ?_⟩
    · simp only [vpPdu, h3, bind, Except.bind]
      exact hchr o h2
    · rw [h4]
      congr 2
      unfold quartersOf
      cases hoff : d.off with
      | none => rfl
      | some o' =>
        simp only [Option.getD_some]
        split
        · rename_i hneg
          have : o' = -((o'.natAbs : Nat) : Int) := by omega
          conv_rhs => rw [this]
          rw [Int.neg_tdiv]
          rfl
        · rename_i hneg
          have : o' = ((o'.natAbs : Nat) : Int) := by omega
          conv_rhs => rw [this]
          rfl

theorem ready_addressed {s : State} (h : Ready s) : ∃ sm a pid, Addressed s sm a pid ∧ CscaDenotes s.csca sm ∧
    (∃ x, s.number = some x ∧ Denotes x a) := by
  obtain ⟨x, hx1, hx2⟩ := h.number
  obtain ⟨a, ha1, ha2, ha3⟩ := valid_denotes hx2
  obtain ⟨had, hat⟩ := denotes_lt ha1
  have hne : a.digits ≠ [] := by intro h0; rw [h0] at ha2; simp at ha2
  have hsm : ∃ sm, getSmscPdu s.csca = .ok (encodeStr (smscBytes sm)) ∧ (∀ x ∈ smscBytes sm, x < 256) ∧
      (∀ rest, readSmsc (smscBytes sm ++ rest) = some (sm, rest)) ∧ CscaDenotes s.csca sm := by
    have hc := h.csca
    cases hcs : s.csca with
    | none => exact ⟨none, getSmscPdu_none (.inl rfl), by simp [smscBytes], fun _ => rfl, rfl⟩
    | some c =>
      rw [hcs] at hc
      cases c with
      | nil => exact ⟨none, getSmscPdu_none (.inr rfl), by simp [smscBytes], fun _ => rfl, rfl⟩
      | cons c0 cr =>
        have hv : ValidNumber (c0 :: cr) := by
          rcases hc with hc | hc
          · cases hc
          · exact hc
        obtain ⟨b, hb1, hb2, hb3⟩ := valid_denotes hv
        obtain ⟨hbd, hbt⟩ := denotes_lt hb1
        have hbne : b.digits ≠ [] := by intro h0; rw [h0] at hb2; simp at hb2
        refine ⟨some b, getSmscPdu_ok hb1 hbne (by omega), ?_, ?_, b, rfl, hb1⟩
        · apply smscBytes_lt
          intro b' hb'
          cases hb'
          exact ⟨hbd, by omega, by omega⟩
        · intro rest
          apply readSmsc_ok
          intro b' hb'
          cases hb'
          exact hbd
  obtain ⟨sm, hs1, hs2, hs3, hs4⟩ := hsm
  obtain ⟨hp1, hp2⟩ := h.pid
  refine ⟨sm, a, s.pid.toNat, ⟨hs1, hs2, hs3, ?_, ?_, ?_, by omega, by omega⟩, hs4, x, hx1, ha1⟩
  · rw [hx1]; exact getPhonePdu_ok ha1 hne (by omega)
  · exact addrBytes_lt had (by omega) (by omega)
  · exact fun rest => readAddress_ok had rest

theorem dcsOf_spec {s : State} {al : Alphabet} {f : Nat} (hk : ∀ k, s.klass = some k → k ≤ 3)
    (hf : (f = 0 ∧ al = .gsm) ∨ (f = 4 ∧ al = .bin) ∨ (f = 8 ∧ al = .ucs2)) : dcsOf f s.klass = dcsOctet al s.klass := by
  unfold dcsOf dcsOctet
  cases hkl : s.klass with
  | none => rcases hf with ⟨rfl, rfl⟩ | ⟨rfl, rfl⟩ | ⟨rfl, rfl⟩ <;> rfl
  | some k =>
    have := hk k hkl
    have : k = 0 ∨ k = 1 ∨ k = 2 ∨ k = 3 := by omega
    rcases this with rfl | rfl | rfl | rfl <;> rcases hf with ⟨rfl, rfl⟩ | ⟨rfl, rfl⟩ | ⟨rfl, rfl⟩ <;> rfl

/-- the envelope, whatever the user data -/
theorem toPdu_envelope {s s' : State} (hr : Ready s) {al : Alphabet} {bodies : List (List Nat)}
    (hf : (effFmt s = 0 ∧ al = .gsm) ∨ (effFmt s = 4 ∧ al = .bin) ∨ (effFmt s = 8 ∧ al = .ucs2))
    (hb : bodyM (effFmt s) s.text (withDcs (afterRef s)) = .ok (bodies.map encodeStr) s')
    (hd : ∀ b ∈ bodies, ∀ x ∈ b, x < 256) :
    ∃ ps, toPdu s = .ok ps s' ∧ ps.length = bodies.length ∧ ∀ i (h : i < bodies.length) (h' : i < ps.length) udl ud,
      bodies[i] = udl :: ud → Envelope s al (mrOf s) bodies.length i ps[i] udl ud := by
  obtain ⟨sm, a, pid, had, hcs, x, hx1, hx2⟩ := ready_addressed hr
  obtain ⟨vp, hv1, hv2, hv3, hv4⟩ := validityOk_vp hr.validity
  obtain ⟨e1, e2, e3, e4, e5, e6, e7, e8, e9⟩ := afterRef_fields s
  have ef : effFmt (afterRef s) = effFmt s := by unfold effFmt; rw [e1, e4]
  have hf' : effFmt s = 0 ∨ effFmt s = 4 ∨ effFmt s = 8 := by
    rcases hf with h | h | h
    · exact .inl h.1
    · exact .inr (.inl h.1)
    · exact .inr (.inr h.1)
  have hm := getMsgPdu_ok (s := afterRef s) (s' := s') (vp := vp) (bodies := bodies) (by rw [ef]; exact hf')
    (by rw [e2]; exact hv1) (by rw [ef, e1]; exact hb)
  rw [ef, e3] at hm
  have hdcs := dcsOf_lt s.klass hf'
  obtain ⟨ps, hp1, hp2, hp3⟩ := toPdu_ok had hm hdcs hv2 hd
  refine ⟨ps, hp1, hp2, ?_⟩
  intro i hi hi' udl ud hu1
  have hlt := hd bodies[i] (List.getElem_mem _)
  rw [hu1] at hlt
  have hpi := hp3 i hi' hi
  simp only [hu1] at hpi
  refine ⟨_, sm, _, _, congrArg Pdu.pdu hpi, ?_, had.smscRead _, hcs, congrArg Pdu.length hpi,
    congrArg Pdu.cnt hpi, congrArg Pdu.seq hpi,
    readSubmit_tpdu had.phoneRead hv3, rfl, rfl, rfl, rfl, ?_, rfl, ?_, ⟨x, hx1, hx2⟩, had.pidEq.symm, ?_, hv4, rfl, rfl⟩
  · intro y hy
    rcases List.mem_append.1 hy with hy | hy
    · exact had.smscLt y hy
    · simp only [tpdu, List.mem_cons, List.mem_append] at hy
      rcases hy with rfl | rfl | hy | rfl | rfl | hy | hy
      · exact submitOctet_lt _ _ _
      · exact mrOf_lt s
      · exact had.phoneLt y hy
      · exact had.pidLt
      · exact hdcs
      · exact hv2 y hy
      · exact hlt y (List.mem_cons.2 hy)
  · simp
  · intro r hr'
    unfold mrOf; rw [hr']; simp only []; omega
  · exact dcsOf_spec hr.klass hf

theorem toPdu_conforms {s s' : State} (hr : Ready s) {al : Alphabet} {ts : List Str} {bodies : List (List Nat)}
    (hf : (effFmt s = 0 ∧ al = .gsm) ∨ (effFmt s = 4 ∧ al = .bin) ∨ (effFmt s = 8 ∧ al = .ucs2))
    (hb : bodyM (effFmt s) s.text (withDcs (afterRef s)) = .ok (bodies.map encodeStr) s')
    (hd : Delivers al (crOf (afterRef s)) ts bodies) :
    ∃ ps, toPdu s = .ok ps s' ∧ AllConform s al (mrOf s) (crOf (afterRef s)) ts ps := by
  obtain ⟨ps, hp1, hp2, hp3⟩ := toPdu_envelope hr hf hb (delivers_lt hd)
  refine ⟨ps, hp1, by rw [hp2, hd.1], ?_⟩
  intro i hi hi'
  obtain ⟨udl, ud, hu1, hu2, hu3, hu4, hu5⟩ := hd.2 i hi (by omega)
  have := hp3 i (by omega) hi' udl ud hu1
  rw [hd.1] at this
  exact ⟨udl, ud, this, hu4, hu5⟩

theorem toPdu_err {s s' : State} (hr : Ready s) {e : PyErr}
    (hf : effFmt s = 0 ∨ effFmt s = 4 ∨ effFmt s = 8)
    (hb : bodyM (effFmt s) s.text (withDcs (afterRef s)) = .err e s') : toPdu s = .err e s' := by
  obtain ⟨sm, a, pid, had, hcs, x, hx1, hx2⟩ := ready_addressed hr
  obtain ⟨vp, hv1, hv2, hv3, hv4⟩ := validityOk_vp hr.validity
  obtain ⟨e1, e2, e3, e4, e5, e6, e7, e8, e9⟩ := afterRef_fields s
  have ef : effFmt (afterRef s) = effFmt s := by unfold effFmt; rw [e1, e4]
  have hm := getMsgPdu_err (s := afterRef s) (s' := s') (vp := vp) (e := e) (by rw [ef]; exact hf)
    (by rw [e2]; exact hv1) (by rw [ef, e1]; exact hb)
  rw [toPdu_eq had, M.bind_err hm]

theorem crOf_withDcs (s : State) : crOf (withDcs s) = crOf s := rfl

/-- everything about a text sent in the GSM alphabet -/
theorem toPdu_gsm {s : State} (hr : Ready s) (hf : effFmt s = 0) {g : Str} (he : Gsm.encode s.text = .ok g) :
    ∃ ts, GsmCut s.text.s g ts ∧
      (ts.length ≤ 255 → ∃ ps, toPdu s = .ok ps
          (afterBody { withDcs (afterRef s) with textGsm := some g } (decide (160 < g.length))) ∧
        AllConform s .gsm (mrOf s) (crOf (afterRef s)) ts ps) ∧
      (255 < ts.length → toPdu s = .err .valueError
          (afterBody { withDcs (afterRef s) with textGsm := some g } (decide (160 < g.length)))) := by
  obtain ⟨ts, h1, h2, h3⟩ := bodyM_gsm (withDcs (afterRef s)) he
  refine ⟨ts, h1, ?_, ?_⟩
  · intro hle
    obtain ⟨bodies, hb1, hb2⟩ := h2 hle
    exact toPdu_conforms hr (.inl ⟨hf, rfl⟩) (by rw [hf]; exact hb1) hb2
  · intro hgt
    exact toPdu_err hr (.inl hf) (by rw [hf]; exact h3 hgt)

/-- everything about a text sent in UCS2 -/
theorem toPdu_ucs2 {s : State} (hr : Ready s) (hf : effFmt s = 8) (h : ∀ c ∈ s.text.s, c < 65536)
    (hu : s.text.uni = true ∨ (∀ c ∈ s.text.s, c < 128) ∨ s.text.s.length ≤ 70) :
    ∃ ts, UcsCut s.text.s ts ∧
      (ts.length ≤ 255 → ∃ ps, toPdu s = .ok ps (afterBody (withDcs (afterRef s)) (decide (70 < s.text.s.length))) ∧
        AllConform s .ucs2 (mrOf s) (crOf (afterRef s)) ts ps) ∧
      (255 < ts.length → toPdu s = .err .valueError
          (afterBody (withDcs (afterRef s)) (decide (70 < s.text.s.length)))) := by
  obtain ⟨ts, h1, h2, h3⟩ := bodyM_ucs2 (withDcs (afterRef s)) h hu
  refine ⟨ts, h1, ?_, ?_⟩
  · intro hle
    obtain ⟨bodies, hb1, hb2⟩ := h2 hle
    exact toPdu_conforms hr (.inr (.inr ⟨hf, rfl⟩)) (by rw [hf]; exact hb1) hb2
  · intro hgt
    exact toPdu_err hr (.inr (.inr hf)) (by rw [hf]; exact h3 hgt)

/-- 8-bit data in one PDU -/
theorem toPdu_bin {s : State} (hr : Ready s) (hf : effFmt s = 4) (h : ∀ c ∈ s.text.s, c < 256)
    (hl : s.text.s.length ≤ 140) (hu : s.text.uni = false ∨ s.text.s.length < 128) :
    ∃ ps, toPdu s = .ok ps (withDcs (afterRef s)) ∧
      AllConform s .bin (mrOf s) (crOf (afterRef s)) [s.text.s] ps := by
  obtain ⟨bodies, hb1, hb2⟩ := bodyM_bin_single (withDcs (afterRef s)) h hl hu
  exact toPdu_conforms hr (.inr (.inl ⟨hf, rfl⟩)) (by rw [hf]; exact hb1) hb2

end Verif.Submit

import Verif.Proofs.Cut
import Verif.Props.Deliver
/-!
# C74: received SMS that are cut short
-/
set_option autoImplicit false

namespace Verif.Props
open Verif Verif.Spec Verif.Spec.Sms
open Verif.Deliver (smsDeliver State)

/-- the octets of a DELIVER up to the length of the user data -/
def deliverHead (p : DeliverPdu) : List Nat := p.smsc ++ [p.fo] ++ p.oa ++ [p.pid, p.dcs] ++ p.scts ++ [p.udl]

/-- the full property: a DELIVER of which the end is missing is refused -/
def C74_full : Prop := ∀ (p : DeliverPdu) (n : Nat) (strict : Bool) (d : State), p.Ok →
    smsDeliver (hexUpper p.octets) strict = .ok d → (p.ud.length = udOctets (dcsAlphabet p.dcs) p.udl) →
    n < p.octets.length → ∃ e, smsDeliver (hexUpper (p.octets.take n)) strict = .error e

/-- whatever the string: what is shown of a DELIVER of which only the first octets are given is what is shown of the
whole; only the text is shorter, and the user data header is the same unless there is no text -/
theorem C74_shown_partial (p q : Str) (strict : Bool) (d d' : State) (he : p.length % 2 = 0)
    (h : smsDeliver p strict = .ok d) (h' : smsDeliver (p ++ q) strict = .ok d') (hs : d.sr = none) :
    ∃ t t', d.text = some t ∧ d'.text = some t' ∧ CutText t t' ∧ (d.udh = d'.udh ∨ t = []) ∧
      d.number = d'.number ∧ d.csca = d'.csca ∧ d.pid = d'.pid ∧ d.dcs = d'.dcs ∧ d.fmt = d'.fmt ∧ d.date = d'.date ∧
      d.type = d'.type ∧ d'.sr = none := by
  rw [Deliver.smsDeliver_eq] at h h'
  unfold Deliver.setP at h h'
  have e0 : Deliver.trim (State.fresh strict).strict p = p := by unfold Deliver.trim; simp [he]
  obtain ⟨q', e1⟩ : ∃ q', Deliver.trim (State.fresh strict).strict (p ++ q) = p ++ q' := by
    unfold Deliver.trim
    split
    · rename_i hc
      have hq : q ≠ [] := by
        rintro rfl
        simp [he] at hc
      exact ⟨q.dropLast, List.dropLast_append_of_ne_nil hq⟩
    · exact ⟨q, rfl⟩
  rw [e0, if_neg (by omega)] at h
  rw [e1] at h'
  split at h'
  · cases h'
  obtain ⟨o, ho, h⟩ := Deliver.ebind_ok h
  obtain ⟨o', ho', h'⟩ := Deliver.ebind_ok h'
  obtain ⟨y, hy, rfl⟩ := Deliver.toArray_append he ho ho'
  have bo := Deliver.toArray_lt ho
  have by' := Deliver.toArray_lt hy
  obtain ⟨f, hf, h⟩ := Deliver.ebind_ok h
  obtain ⟨g, hg, h'⟩ := Deliver.ebind_ok h'
  cases h
  cases h'
  unfold Deliver.pduP at hf hg
  obtain ⟨⟨c, r⟩, hc, hf⟩ := Deliver.ebind_ok hf
  obtain ⟨⟨mt, r1⟩, hm, hf⟩ := Deliver.ebind_ok hf
  simp only at hm hf
  rw [Deliver.smscP_cut y hc hm] at hg
  simp only [Except.bind] at hg
  rw [Deliver.pop0_append hm] at hg
  simp only at hg
  have br : ∀ x ∈ r, x < 256 := fun x hx => bo x (Deliver.smscP_mem hc x hx)
  have br1 : ∀ x ∈ r1, x < 256 := fun x hx => br x (by rw [Deliver.pop0_ok hm]; exact List.mem_cons_of_mem _ hx)
  by_cases h2 : mt &&& 0x03 = 0x02
  · rw [if_pos h2] at hf
    obtain ⟨k, hk, hf⟩ := Deliver.ebind_ok hf
    cases hf
    unfold Deliver.reportP at hk
    obtain ⟨a, _, hk⟩ := Deliver.ebind_ok hk
    obtain ⟨b, _, hk⟩ := Deliver.ebind_ok hk
    obtain ⟨e, _, hk⟩ := Deliver.ebind_ok hk
    cases hk
    cases hs
  · rw [if_neg h2] at hf hg
    by_cases h3 : mt &&& 0x03 = 0x01
    · rw [if_pos h3] at hf; cases hf
    · rw [if_neg h3] at hf hg
      obtain ⟨k, hk, hf⟩ := Deliver.ebind_ok hf
      cases hf
      unfold Deliver.deliverP at hk hg
      obtain ⟨⟨x, r2⟩, hx, hk⟩ := Deliver.ebind_ok hk
      obtain ⟨k1, hk1, hk⟩ := Deliver.ebind_ok hk
      cases hk
      rw [Deliver.fieldsP_cut y hx] at hg
      simp only [Except.bind] at hg
      cases hk2 : Deliver.udP mt (Deliver.fmtOfDcs x.dcs) (r2 ++ y) with
      | error e => rw [hk2] at hg; cases hg
      | ok k2 =>
        rw [hk2] at hg
        cases hg
        have br2 : ∀ z ∈ r2, z < 256 := fun z hz => br1 z (Deliver.fieldsP_mem hx z hz)
        obtain ⟨t, t', u, u', hcut, hu, _, rfl, rfl⟩ := Deliver.udP_cut (Deliver.fmtOfDcs_cases _) br2 by' hk1 hk2
        refine ⟨t, t', rfl, rfl, hcut, ?_, rfl, rfl, rfl, rfl, rfl, rfl, rfl, rfl⟩
        rcases hu with rfl | rfl
        · exact .inl rfl
        · exact .inr rfl

/-- a DELIVER with a user data header, given without its last octet -/
example : ∃ d d', smsDeliver (hexUpper (sampleDeliver.octets.take 31)) = .ok d ∧
    smsDeliver (hexUpper sampleDeliver.octets) = .ok d' ∧ d.sr = none ∧ d.text ≠ d'.text ∧
    hexUpper sampleDeliver.octets = hexUpper (sampleDeliver.octets.take 31) ++ hexUpper (sampleDeliver.octets.drop 31) :=
  ⟨_, _, rfl, rfl, rfl, by decide +kernel, by decide +kernel⟩

/-- a DELIVER cut anywhere before the end of the user data length is refused.  Missing compared with `C74_full`: cuts
in the user data (`C74_binary`). -/
theorem C74_header_partial (p : DeliverPdu) (h : p.Ok) (n : Nat) (hn : n < (deliverHead p).length) (strict : Bool) :
    ∃ e, smsDeliver (hexUpper (p.octets.take n)) strict = .error e := by
  cases hd : smsDeliver (hexUpper (p.octets.take n)) strict with
  | error e => exact ⟨e, rfl⟩
  | ok d =>
    exfalso
    rw [Deliver.smsDeliver_eq, Deliver.setP_hex (fun x hx => h.octets x (List.mem_of_mem_take hx))] at hd
    obtain ⟨f, hf, _⟩ := Deliver.ebind_ok hd
    obtain ⟨k, toa, a, hoa, hal⟩ := h.oa
    obtain ⟨sm, hsm⟩ := h.smsc
    have hoct : p.octets = p.smsc ++ p.fo :: (k :: toa :: (a ++ p.pid :: p.dcs :: (p.scts ++ p.udl :: p.ud))) := by
      rw [DeliverPdu.octets, hoa]; simp
    have hlen : (deliverHead p).length + p.ud.length = p.octets.length := by simp [deliverHead, DeliverPdu.octets]; omega
    obtain ⟨y, hy⟩ : ∃ y, p.octets = p.octets.take n ++ y := ⟨_, (List.take_append_drop _ _).symm⟩
    have hyl : (p.octets.take n).length = n := by rw [List.length_take]; omega
    -- what was read of the beginning is what would be read of the whole
    unfold Deliver.pduP at hf
    obtain ⟨⟨c, r⟩, hc, hf⟩ := Deliver.ebind_ok hf
    obtain ⟨⟨mt, r1⟩, hm, hf⟩ := Deliver.ebind_ok hf
    simp only at hm hf
    have hw := Deliver.smscP_cut y hc hm
    rw [← hy, hoct, Deliver.smscP_field (Deliver.smscField_of hsm)] at hw
    injection hw with hw
    injection hw with _ hw
    rw [Deliver.pop0_ok hm, List.cons_append] at hw
    injection hw with hw1 hw2
    simp only at hw1 hw2
    subst hw1
    rw [Deliver.and3, h.mti, if_neg (by decide), if_neg (by decide)] at hf
    obtain ⟨k1, hk, hf⟩ := Deliver.ebind_ok hf
    unfold Deliver.deliverP at hk
    obtain ⟨⟨x, r2⟩, hx, hk⟩ := Deliver.ebind_ok hk
    obtain ⟨k2, hk2, hk⟩ := Deliver.ebind_ok hk
    have hx' := Deliver.fieldsP_cut y hx
    rw [← hw2] at hx'
    have hr := Deliver.fieldsP_rest hal h.scts hx'
    unfold Deliver.udP at hk2
    obtain ⟨u, hu, _⟩ := Deliver.ebind_ok hk2
    have e1 := congrArg List.length hr
    have e2 := congrArg List.length (Deliver.pop0_ok hu)
    have e3 := congrArg List.length hy
    simp only [List.length_append, List.length_cons] at e1 e2 e3
    omega

example : 10 < (deliverHead sampleDeliver).length := by decide

/-- a DELIVER in 8-bit coding without header, cut anywhere in the user data: accepted, and shown as the octets that are
there -/
theorem C74_binary (p : DeliverPdu) (h : p.Ok) (hf : p.fo < 64) (hd : p.dcs = 4) (strict : Bool) (d : State)
    (hok : smsDeliver (hexUpper p.octets) strict = .ok d) (n : Nat) :
    smsDeliver (hexUpper (deliverHead p ++ p.ud.take n)) strict =
      .ok { d with pdu := some (hexUpper (deliverHead p ++ p.ud.take n)), text := some (p.ud.take n) } := by
  have hq : ({ p with ud := p.ud.take n } : DeliverPdu).octets = deliverHead p ++ p.ud.take n := rfl
  have hqlt : ∀ y ∈ deliverHead p ++ p.ud.take n, y < 256 := by
    intro y hy
    apply h.octets
    rcases List.mem_append.1 hy with hy | hy
    · exact List.mem_append.2 (.inl hy)
    · exact List.mem_append.2 (.inr (List.mem_of_mem_take hy))
  have hqok : ({ p with ud := p.ud.take n } : DeliverPdu).Ok :=
    ⟨by rw [hq]; exact hqlt, h.smsc, h.mti, h.oa, h.scts⟩
  have h64 : ¬ (p.fo &&& 0x40 ≠ 0) := by
    rw [Deliver.and64 (by omega)]
    omega
  have hud : ∀ u : List Nat, Deliver.udP p.fo (Deliver.fmtOfDcs p.dcs) (p.udl :: u) =
      .ok fun s => { s with text := some u } := by
    intro u
    unfold Deliver.udP
    simp only [pop0, Except.bind]
    rw [if_neg h64, hd]
    rfl
  obtain ⟨k, toa, o, sender, stamp, z, e1, e2, e3, e4, e5, _, _, _, e6⟩ := Deliver.pduP_deliver h
  obtain ⟨k', toa', o', sender', stamp', z', g1, g2, g3, g4, g5, _, _, _, g6⟩ := Deliver.pduP_deliver hqok
  simp only at g1 g4 g6
  rw [e1] at g1
  simp only [List.cons.injEq] at g1
  obtain ⟨rfl, rfl, rfl⟩ := g1
  rw [e3] at g3
  cases g3
  rw [e4] at g4
  obtain ⟨hst, hz⟩ := List.append_inj' g4 rfl
  injection hz with hz
  subst hst hz
  rw [Deliver.smsDeliver_eq, Deliver.setP_hex h.octets, e6, hud] at hok
  rw [Deliver.smsDeliver_eq, Deliver.setP_hex hqlt, ← hq, g6, hud]
  cases hcal : Cal.strptime (swapPairs (encodeStr stamp)) with
  | error e => rw [hcal] at hok; cases hok
  | ok dt =>
    rw [hcal] at hok
    cases hok
    rfl

/-- four octets in 8-bit coding -/
def sampleBinary : DeliverPdu :=
  { smsc := [0], fo := 0x04, oa := [0x04, 0x91, 0x21, 0x43], pid := 0, dcs := 4,
    scts := [0x11, 0x30, 0x13, 0x21, 0x43, 0x65, 0x80], udl := 4, ud := [1, 2, 3, 4] }

theorem sampleBinary_ok : sampleBinary.Ok where
  octets := by decide
  smsc := ⟨none, by decide⟩
  mti := by decide
  oa := ⟨4, 0x91, [0x21, 0x43], rfl, by decide⟩
  scts := by decide

example : sampleBinary.fo < 64 ∧ sampleBinary.dcs = 4 ∧ ∃ d, smsDeliver (hexUpper sampleBinary.octets) = .ok d :=
  ⟨by decide, rfl, _, rfl⟩

/-- the last octet of these is missed by nobody -/
theorem C74_refuted : ¬ C74_full := by
  intro h
  obtain ⟨d, hd⟩ : ∃ d, smsDeliver (hexUpper sampleBinary.octets) = .ok d := ⟨_, rfl⟩
  obtain ⟨e, he⟩ := h sampleBinary 18 true d sampleBinary_ok hd (by decide) (by decide)
  have : ∃ d, smsDeliver (hexUpper (sampleBinary.octets.take 18)) = .ok d := ⟨_, rfl⟩
  obtain ⟨d', hd'⟩ := this
  rw [hd'] at he
  cases he

end Verif.Props

import Verif.Props.Inbox
/-!
# C79: parts that arrive more than once
-/
set_option autoImplicit false

namespace Verif.Props
open Verif Verif.Spec Verif.Spec.Sms Verif.Spec.Time Verif.Spec.Submit Verif.Submit
open Verif.Spec.Inbox
open Verif.Deliver (smsDeliver Data)

/-- `x` is what the receiver gets of the PDU at position `i`, relayed with any service centre, time and flags -/
def Copy (ps : List Pdu) (oa : List Nat) (i : Nat) (x : Data) : Prop :=
  ∃ (h : i < ps.length) (r : Relay) (q : Str) (d : Deliver.State), Relay.Ok r ∧ r.oa = oa ∧ Relays r ps[i].pdu q ∧
    smsDeliver q = .ok d ∧ x = Deliver.data d

/-- `pick` chooses a message from the inbox for each part -/
def Picks (inbox : List Data) (num : List Nat) (ref cnt : Nat) (pick : Nat → Data) : Prop :=
  ∀ i, i < cnt → pick i ∈ inbox ∧ IsPart (some num) ref cnt (i + 1) (pick i)

theorem copy_part {s : State} {al : Alphabet} (hr : Ready s) {ts : List (List Nat)} {mr cr : Nat} {ps : List Pdu}
    (hc : cr < 256) (hn : ts.length < 256) (hb : al = .bin → ts.length = 1) (h : AllConform s al mr cr ts ps)
    (hl : ps.length ≠ 1) {oa : List Nat} {i : Nat} {x : Data} (hx : Copy ps oa i x) : ∃ num, (∃ k toa o, oa = k :: toa :: o ∧
      Deliver.decodeSender toa o = .ok num) ∧ ∃ hi : i < ts.length, x.text = some ts[i] ∧ IsPart (some num) cr ps.length (i + 1) x := by
  obtain ⟨h1, h2⟩ := h
  obtain ⟨hi', r, q, d, r1, r2, r3, r4, rfl⟩ := hx
  have hi : i < ts.length := by omega
  obtain ⟨_, hx⟩ := Deliver.relay_conforms hr.klass (h2 i hi hi') hc hn hi hb r1
  obtain ⟨k, toa, o, sender, st, x1, _, x2, _, _, d', a1, a2, a3, a4, _⟩ := hx q r3
  rw [r4] at a1
  cases a1
  refine ⟨sender, ⟨k, toa, o, r2.symm.trans x1, x2⟩, hi, a2, a4, ?_⟩
  unfold Deliver.data
  rw [a3, Deliver.udhOf]
  have hn : ts.length ≠ 1 := by omega
  simp only [hn, if_false, h1]

/-- C79: parts of a long message may arrive any number of times, relayed at different times by different service centres, in
any order and mixed with any other messages.  Whichever message is chosen for each part, the texts are the same and joined
they are the text that was sent; and there is such a choice exactly if every part arrived at least once.  Missing: other
messages with the same sender, reference and number of parts, with which it is false (`C79_refuted`). -/
theorem C79_twice_partial (s : State) (al : Alphabet) (hr : Ready s) (hu : Uses s al) (ps : List Pdu) (s' : State)
    (h : toPdu s = .ok ps s') (hl : ps.length ≠ 1) : ∃ (ref : Nat) (ts : List (List Nat)), ref < 256 ∧ ts.flatten = s.text.s ∧ ∀ oa : List Nat, ∃ num,
    ∀ others got inbox : List Data, (∀ x ∈ others, ¬ Confusable num ref ps.length x) → (∀ x ∈ got, ∃ i, Copy ps oa i x) →
      inbox.Perm (others ++ got) →
      (∀ pick, Picks inbox num ref ps.length pick → (List.range ps.length).map (fun i => (pick i).text) = ts.map some) ∧
      ((∃ pick, Picks inbox num ref ps.length pick) ↔ ∀ i, i < ps.length → ∃ x ∈ got, Copy ps oa i x) := by
  obtain ⟨ts, mr, cr, h1, h2, h3, h4, h5⟩ := uses_conforms hr hu h
  refine ⟨cr, ts, h2, h1, fun oa => ?_⟩
  have hlen : ps.length = ts.length := h5.1
  obtain ⟨num, hnum⟩ : ∃ num, ∀ k toa o num', oa = k :: toa :: o → Deliver.decodeSender toa o = .ok num' → num' = num := by
    by_cases hx : ∃ k toa o num', oa = k :: toa :: o ∧ Deliver.decodeSender toa o = .ok num'
    · obtain ⟨k, toa, o, num, rfl, e⟩ := hx
      refine ⟨num, fun k' toa' o' num' e1 e2 => ?_⟩
      cases e1
      rw [e] at e2
      cases e2
      rfl
    · exact ⟨[], fun k toa o num' e1 e2 => absurd ⟨k, toa, o, num', e1, e2⟩ hx⟩
  have key : ∀ i x, Copy ps oa i x → ∃ hi : i < ts.length, x.text = some ts[i] ∧ IsPart (some num) cr ps.length (i + 1) x := by
    intro i x hx
    obtain ⟨n', ⟨k, toa, o, e1, e2⟩, hi, hx⟩ := copy_part hr h2 h3 h4 h5 hl hx
    rw [hnum _ _ _ _ e1 e2] at hx
    exact ⟨hi, hx⟩
  refine ⟨num, fun others got inbox ho hg hi => ?_⟩
  have chosen : ∀ i x, x ∈ inbox → IsPart (some num) cr ps.length (i + 1) x → x ∈ got ∧ Copy ps oa i x := by
    intro i x hx hp
    rcases List.mem_append.1 (hi.mem_iff.1 hx) with hx | hx
    · exact absurd ⟨hp.1, i + 1, hp.2⟩ (ho x hx)
    · obtain ⟨j, hj⟩ := hg x hx
      obtain ⟨_, _, hp'⟩ := key j x hj
      have := hp.2.symm.trans hp'.2
      simp only [Option.some.injEq, Prod.mk.injEq, true_and] at this
      obtain rfl : i = j := by omega
      exact ⟨hx, hj⟩
  refine ⟨fun pick hp => ?_, ?_, ?_⟩
  · refine List.ext_getElem (by simp [hlen]) fun i a1 a2 => ?_
    have hi' : i < ps.length := by simpa using a1
    obtain ⟨_, b, _⟩ := key i (pick i) (chosen i _ (hp i hi').1 (hp i hi').2).2
    simpa using b
  · rintro ⟨pick, hp⟩ i hi'
    exact ⟨pick i, chosen i _ (hp i hi').1 (hp i hi').2⟩
  · intro hx
    refine ⟨fun i => if hi' : i < ps.length then (hx i hi').choose else (hx 0 ?_).choose, fun i hi' => ?_⟩
    · exact List.length_pos_of_ne_nil (toPdu_ne_nil hr hu h)
    · simp only [hi', dif_pos]
      obtain ⟨c1, c2⟩ := (hx i hi').choose_spec
      exact ⟨hi.mem_iff.2 (List.mem_append_right _ c1), (key i _ c2).2.2⟩

/-- a message of two parts, each of which came twice -/
example : ∃ (s0 : State) (ps : List Pdu) (s' : State) (ds : List Data), Ready s0 ∧ Uses s0 .gsm ∧ toPdu s0 = .ok ps s' ∧ ps.length = 2 ∧
    (∀ x ∈ ds ++ ds, ∃ i, Copy ps sampleRelay.oa i x) ∧ ∀ i, i < ps.length → ∃ x ∈ ds ++ ds, Copy ps sampleRelay.oa i x := by
  obtain ⟨s, ts, mr, ps, s', _, a2, a3, a4, a5, a6⟩ := long_sample 97 (.inl rfl)
  have l : ts.length = 2 := a6.1.symm.trans a5
  obtain ⟨ds, c⟩ := exists_came a2 (by decide) (by omega) (by intro h; cases h) a6 sampleRelay_ok
  have hc : ∀ i (h : i < ds.length), Copy ps sampleRelay.oa i ds[i] := by
    intro i hi
    have hi' : i < ps.length := c.1 ▸ hi
    obtain ⟨r, q, d, x⟩ := c.2 i hi hi'
    exact ⟨hi', r, q, d, x⟩
  refine ⟨s, ps, s', ds, a2, a3, a4, a5, fun x hx => ?_, fun i hi => ?_⟩
  · obtain ⟨i, hi, rfl⟩ := List.getElem_of_mem ((List.mem_append.1 hx).elim id id)
    exact ⟨i, hc i hi⟩
  · have hi' : i < ds.length := c.1.symm ▸ hi
    exact ⟨ds[i], List.mem_append_left _ (List.getElem_mem hi'), hc i hi'⟩

end Verif.Props

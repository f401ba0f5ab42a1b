import Verif.Props.Relay
import Verif.Props.Settings
/-!
# C19: what the receiver reports about the coding
-/
set_option autoImplicit false

namespace Verif.Props
open Verif Verif.Spec Verif.Spec.Sms Verif.Spec.Time Verif.Spec.Submit Verif.Submit
open Verif.Deliver (smsDeliver)

/-- C19, through the service centre: however a PDU is relayed, the received message reports the coding it was sent with, and
its coding scheme has the class bits of the class, if one was set, and none otherwise. -/
theorem C19_received (s : State) (al : Alphabet) (hr : Ready s) (hu : Uses s al) (ps : List Pdu) (s' : State)
    (h : toPdu s = .ok ps s') (p : Pdu) (hp : p ∈ ps) (r : Relay) (hok : r.Ok) :
    (∃ q, Relays r p.pdu q) ∧ ∀ q, Relays r p.pdu q → ∃ d dcs, smsDeliver q = .ok d ∧ d.fmt = some (fmtCode al) ∧
      d.dcs = some dcs ∧ (s.klass = none → dcs / 16 = 0) ∧ ∀ k, s.klass = some k → dcs / 16 = 1 ∧ dcs % 4 = k := by
  obtain ⟨ts, mr, cr, h1, h2, h3, h4, h6, h7⟩ := uses_conforms hr hu h
  obtain ⟨i, hi', rfl⟩ := List.getElem_of_mem hp
  have hi : i < ts.length := by omega
  obtain ⟨hq, hd⟩ := Deliver.relay_conforms hr.klass (h7 i hi hi') h2 h3 hi h4 hok
  refine ⟨hq, fun q hq' => ?_⟩
  obtain ⟨_, _, _, _, _, _, _, _, _, _, d, a1, _, _, _, _, _, _, a2, a3⟩ := hd q hq'
  refine ⟨d, _, a1, by rw [a3]; cases al <;> rfl, a2, ?_, ?_⟩
  · intro hk
    rw [hk]
    cases al <;> rfl
  · intro k hk
    have := hr.klass k hk
    rw [hk]
    have : k = 0 ∨ k = 1 ∨ k = 2 ∨ k = 3 := by omega
    rcases this with rfl | rfl | rfl | rfl <;> cases al <;> decide

/-- a flash message in UCS2 arrives as such -/
example (ps : List Pdu) (s' : State) (h : toPdu { sample ⟨true, py! "あ叶葉"⟩ none with klass := some 0 } = .ok ps s')
    (p : Pdu) (hp : p ∈ ps) (q : List Nat) (hq : Relays sampleRelay p.pdu q) :
    ∃ d dcs, smsDeliver q = .ok d ∧ d.fmt = some 8 ∧ d.dcs = some dcs ∧ dcs / 16 = 1 ∧ dcs % 4 = 0 := by
  have hr : Ready { sample ⟨true, py! "あ叶葉"⟩ none with klass := some 0 } :=
    { sample_ready ⟨true, py! "あ叶葉"⟩ none with klass := by intro k hk; cases hk; decide }
  obtain ⟨d, dcs, a, b, c, _, e⟩ := (C19_received _ .ucs2 hr sample_ucs2 ps s' h p hp sampleRelay sampleRelay_ok).2 q hq
  exact ⟨d, dcs, a, b, c, (e 0 rfl).1, (e 0 rfl).2⟩

end Verif.Props

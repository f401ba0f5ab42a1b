import Verif.Props.Faithful
import Verif.Props.Relay
/-!
# C92: sending on a short message that was received
-/
set_option autoImplicit false

namespace Verif.Props
open Verif Verif.Submit Verif.Spec Verif.Spec.Sms Verif.Spec.Submit Verif.Spec.Time
open Verif.Deliver (smsDeliver)

theorem spells_supported {t g : List Nat} (h : Gsm.Spells t g) : (∀ c ∈ t, Gsm.Supported c) ∧ g.length ≤ 2 * t.length := by
  obtain ⟨parts, hp, rfl⟩ := h
  induction hp with
  | nil => exact ⟨by simp, by simp⟩
  | cons h1 _ ih =>
    refine ⟨fun c hc => ?_, ?_⟩
    · rcases List.mem_cons.1 hc with rfl | hc
      · exact ⟨_, h1⟩
      · exact ih.1 c hc
    · have := ih.2
      have h2 : ∀ {c : Nat} {s : List Nat}, Gsm.Code c s → s.length ≤ 2 := by
        rintro c s (⟨i, _, _, rfl⟩ | ⟨g, _, rfl⟩) <;> simp
      have := h2 h1
      simp only [List.flatten_cons, List.length_append, List.length_cons]
      omega

theorem ucs2_length (t : List Nat) : (ucs2Octets t).length = 2 * t.length := by
  unfold ucs2Octets
  induction t with
  | nil => rfl
  | cons c t ih => simp only [List.flatMap_cons, List.length_append, ih, List.length_cons, List.length_nil]; omega

/-- the object sends the text of the received message: with the coding of the message, or a text (not 8-bit data) with
the coding left to the library -/
structure Forwards (s : State) (al : Alphabet) (d : Deliver.State) : Prop where
  text : d.text = some s.text.s
  /-- 8-bit data is shown as a `str`, text as `unicode` -/
  uni : s.text.uni = true ↔ al ≠ .bin
  fmt : s.fmt = d.fmt ∨ s.fmt = none ∧ al ≠ .bin

/-- C92: the text of a received message can be sent on in one message, whatever its characters, and arrives as it was
received.  As in C64, coding octets that are read wrong are excluded; the sender may be anyone. -/
theorem C92_forward (p : DeliverPdu) (sm : Option Address) (n : List Nat) (t : Stamp) (els : List Element) (txt : List Nat)
    (strict : Bool) (hc : Conformant p sm n t els txt) (hm : ¬ Misread p.dcs) :
    ∃ d, smsDeliver (hexUpper p.octets) strict = .ok d ∧ ∀ s : State, Ready s → Forwards s (dcsAlphabet p.dcs) d →
      ∃ q s', toPdu s = .ok [q] s' ∧ ∃ ref, Arrive [q] [txt] ref := by
  obtain ⟨d, _, hd, _, hsh⟩ := C64_sender_partial p sm n t els txt strict hc hm
  refine ⟨d, hd, fun s hr hf => ?_⟩
  have htxt : s.text.s = txt := by
    have h1 := hf.text
    rw [show d.text = some txt from hsh.text] at h1
    cases h1; rfl
  have hfmt : d.fmt = some (dcsAlphabet p.dcs).code := hsh.fmt
  obtain ⟨hdr, _, hca⟩ := hc.userData
  have hsz := hc.size
  have huni := hf.uni
  have hff := hf.fmt
  rw [hfmt] at hff
  have key : ∃ al units, Uses s al ∧ Units al s.text.s units ∧ units.length ≤ single al := by
    generalize dcsAlphabet p.dcs = al at hca huni hff
    cases al with
    | gsm =>
      obtain ⟨g, s1, p1, e1⟩ := hca
      refine ⟨.gsm, g, ⟨hff.imp id And.left, by rw [htxt]; exact (spells_supported s1).1, .inl (huni.2 (by decide))⟩,
        by rw [htxt]; exact s1, ?_⟩
      have := p1.1
      show g.length ≤ 160
      omega
    | bin =>
      refine ⟨.bin, txt, ⟨?_, ?_, ?_, .inl ?_⟩, htxt.symm, ?_⟩
      · rcases hff with h | ⟨_, h⟩
        · exact h
        · exact absurd rfl h
      · rw [htxt]
        intro c hc'
        exact hc.octets c (by simp [DeliverPdu.octets, hca.1, hc'])
      · rw [htxt]
        have := congrArg List.length hca.1
        simp only [List.length_append] at this
        omega
      · cases hx : s.text.uni with
        | false => rfl
        | true => exact absurd rfl (huni.1 hx)
      · have := congrArg List.length hca.1
        simp only [List.length_append] at this
        show txt.length ≤ 140
        omega
    | ucs2 =>
      obtain ⟨h1, h2, _⟩ := hca
      have hl : txt.length ≤ 70 := by
        have := congrArg List.length h2
        rw [List.length_append, ucs2_length] at this
        omega
      have hu : s.text.uni = true := huni.2 (by decide)
      by_cases hg : s.fmt = none ∧ GsmText s.text
      · obtain ⟨g, he⟩ : ∃ g, Gsm.encode s.text = .ok g := gsmText_encode hg.2
        have hsp := (encode_iff.1 he).1
        refine ⟨.gsm, g, ⟨.inr hg.1, hg.2⟩, hsp, ?_⟩
        have := (spells_supported hsp).2
        rw [htxt] at this
        show g.length ≤ 160
        omega
      · refine ⟨.ucs2, s.text.s, ⟨?_, by rw [htxt]; exact h1, .inl hu⟩, rfl, by rw [htxt]; exact hl⟩
        rcases hff with h | ⟨h, _⟩
        · exact .inl h
        · exact .inr ⟨h, fun hg' => hg ⟨h, hg'⟩⟩
  obtain ⟨al, units, hu, hun, hle⟩ := key
  have h0 : units.length ≤ 254 * (partSize al - 1) := by
    cases al <;> simp only [single, partSize] at hle ⊢ <;> omega
  obtain ⟨ps, s', hp⟩ := C10_succeeds s al hr hu units hun h0
  have h1 := (C09_count s al hr hu ps s' hp units hun).1.2 hle
  obtain ⟨ts, ref, hfl, ha⟩ := arrive hr hu hp
  have h2 := ha.1
  obtain ⟨q, rfl⟩ := List.length_eq_one_iff.1 h1
  obtain ⟨x, rfl⟩ := List.length_eq_one_iff.1 (h2.trans h1)
  rw [List.flatten_singleton, htxt] at hfl
  subst hfl
  exact ⟨q, s', hp, ref, ha⟩

/-- the received sample is sent on -/
example : ∃ n t els txt d s, Conformant sampleDeliver (some ⟨0x91, [3, 4, 6, 4, 6, 4, 5, 6, 4, 5, 6]⟩) n t els txt ∧
    ¬ Misread sampleDeliver.dcs ∧ PlainSender sampleDeliver.oa n ∧ txt ≠ [] ∧
    smsDeliver (hexUpper sampleDeliver.octets) = .ok d ∧ Ready s ∧ Forwards s (dcsAlphabet sampleDeliver.dcs) d := by
  have hn : readAddress sampleDeliver.oa = some (⟨0x91, [1, 2, 3, 4]⟩, []) := by decide
  refine ⟨py! "+1234", _, _, _, _, sample ⟨true, py! "26"⟩ none,
    { sevenLetters_conformant with sender := .inl ⟨_, _, hn, by decide, rfl, rfl⟩, octets := ?_ },
    by decide, .inl ⟨_, hn, by decide, by decide, by decide⟩, ?_, rfl, sample_ready _ _, ?_, ?_, .inr ⟨rfl, by decide⟩⟩
  · decide
  · decide
  · decide +kernel
  · decide

end Verif.Props

import Verif.Props.Injective
import Verif.Props.Settings
import Verif.Spec.SubmitRefusal
/-!
# C24: exactly when a new text is sent as by a new object
-/
set_option autoImplicit false

namespace Verif.Props

open Verif Verif.Submit
open Verif.Spec Verif.Spec.Sms Verif.Spec.Time Verif.Spec.Submit Verif.Spec.SubmitRefusal

theorem coded_fmt {s : State} {f : Nat} (h : Coded s f) : effFmt s = f := by
  unfold effFmt
  rcases h with h | ⟨h, h2⟩
  · rw [h]
  · rw [h]
    rcases h2 with ⟨hg, rfl⟩ | ⟨hg, rfl⟩
    · have := (gsmText_iff s.text).2 hg
      simp [this]
    · have : Gsm.isGsmText s.text = false := by
        cases h1 : Gsm.isGsmText s.text with
        | false => rfl
        | true => exact absurd ((gsmText_iff _).1 h1) hg
      simp [this]

/-- C24: once `to_pdu` has sent a text in some coding, the object sends every other text (or refuses it) as an object would
for which that coding was asked. -/
theorem C24_coding (s s' : State) (ps : List Pdu) (t : PyStr) (f : Nat) (h : toPdu s = .ok ps s') (hc : Coded s f)
    (hr : s.randId ≠ none) :
    (toPdu { s' with text := t }).val = (toPdu { s with text := t, fmt := some f }).val := by
  have ha := toPdu_after h
  have hf : s'.fmt = some f := by rw [ha.fmt, coded_fmt hc]
  rw [toPdu_val, toPdu_val]
  have hm : mrOf { s' with text := t } = mrOf { s with text := t, fmt := some f } := by
    have e1 : mrOf { s with text := t, fmt := some f } = mrOf s := rfl
    have e2 : mrOf { s' with text := t } = mrOf s' := rfl
    rw [e1, e2]
    have := mrOf_lt s
    conv_lhs => unfold mrOf
    rw [ha.ref]; simp only []; omega
  have hfm : effFmt { s' with text := t } = effFmt { s with text := t, fmt := some f } := by
    unfold effFmt
    simp only [hf]
  have hcr : crOf (afterRef { s' with text := t }) = crOf (afterRef { s with text := t, fmt := some f }) := by
    unfold crOf
    rw [(afterRef_fields _).2.2.2.2.2.2.2.2, (afterRef_fields _).2.2.2.2.2.2.2.2]
    simp only [ha.randId]
    cases hrr : s.randId with
    | none => exact absurd hrr hr
    | some r => rfl
  rw [hm, hfm, hcr]
  simp only [ha.csca, ha.validity, ha.requestStatus, ha.number, ha.pid, ha.klass]

theorem toPdu_ok_val {s s' : State} {ps : List Pdu} (h : toPdu s = .ok ps s') : (toPdu s).val = .ok ps := by
  rw [h]; rfl

/-- what comes out of a chain of steps when the last but one fails -/
theorem toPduP_unicode {csca : Option Str} {v : Validity} {srr : Bool} {mr mr' : Nat} {number : Option Str} {pid : Int}
    {k : Option Nat} {t u : PyStr} {cr cr' : Nat} {ps : List Pdu}
    (h : toPduP csca v srr mr number pid 0 k t cr = .ok ps) (hu : Gsm.encode u = .error .unicodeError) :
    toPduP csca v srr mr' number pid 0 k u cr' = .error .unicodeError := by
  unfold toPduP at h ⊢
  cases h1 : getSmscPdu csca with
  | error e => rw [h1] at h; cases h
  | ok smsc =>
    rw [h1] at h
    simp only [Except.bind] at h ⊢
    cases h2 : getSmsSubmitPdu v srr false with
    | error e => rw [h2] at h; cases h
    | ok submit =>
      rw [h2] at h
      simp only [] at h ⊢
      cases h3 : getPhonePdu number with
      | error e => rw [h3] at h; cases h
      | ok phone =>
        rw [h3] at h
        simp only [] at h ⊢
        cases h4 : getTppidPdu pid with
        | error e => rw [h4] at h; cases h
        | ok pid =>
          rw [h4] at h
          simp only [] at h ⊢
          cases h5 : pyChr (dcsOf 0 k) with
          | error e => rw [h5] at h; cases h
          | ok d =>
            rw [h5] at h
            simp only [] at h ⊢
            cases h6 : vpPdu v with
            | error e => rw [h6] at h; cases h
            | ok vp =>
              simp only [bodyP, if_true, hu, Except.bind]

theorem encode_not_gsm {u : PyStr} (h : ¬ GsmText u) : Gsm.encode u = .error .unicodeError := by
  have hs : ∀ (b : Bool) (l : Str), (∃ g, Gsm.encodeLoop b .strict l = .ok g) ∨ Gsm.encodeLoop b .strict l = .error .unicodeError := by
    intro b l
    induction l with
    | nil => exact .inl ⟨_, rfl⟩
    | cons c cs ih =>
      have hc : (∃ g, Gsm.encodeChar b .strict c = .ok g) ∨ Gsm.encodeChar b .strict c = .error .unicodeError := by
        unfold Gsm.encodeChar
        split
        · exact .inl ⟨_, rfl⟩
        · split
          · exact .inl ⟨_, rfl⟩
          · exact .inr rfl
      rcases hc with ⟨g, hg⟩ | hg
      · rcases ih with ⟨g', hg'⟩ | hg'
        · exact .inl ⟨g ++ g', by rw [Gsm.encodeLoop, hg, hg']; rfl⟩
        · exact .inr (by rw [Gsm.encodeLoop, hg, hg']; rfl)
      · exact .inr (by rw [Gsm.encodeLoop, hg]; rfl)
  rcases hs u.uni u.s with ⟨g, hg⟩ | hg
  · have : Gsm.isGsmText u = true := by
      unfold Gsm.isGsmText Gsm.encode
      rw [hg]
    exact absurd ((gsmText_iff u).1 this) h
  · exact hg

/-- C24: after a GSM text any text with another character is refused with UnicodeError, whatever it is. -/
theorem C24_gsm_first (s s' : State) (ps : List Pdu) (t : PyStr) (h : toPdu s = .ok ps s') (hf : s.fmt = none)
    (hs : GsmText s.text) (ht : ¬ GsmText t) (hr : s.randId ≠ none) :
    (toPdu { s' with text := t }).val = .error .unicodeError := by
  rw [C24_coding s s' ps t 0 h (.inr ⟨hf, .inl ⟨hs, rfl⟩⟩) hr]
  have h0 := toPdu_ok_val h
  rw [toPdu_val, coded_fmt (.inr ⟨hf, .inl ⟨hs, rfl⟩⟩ : Coded s 0)] at h0
  rw [toPdu_val]
  exact toPduP_unicode h0 (encode_not_gsm ht)

theorem supported_bmp {c : Nat} (h : Gsm.Supported c) : c < 65536 := by
  have ha : ∀ x ∈ Gsm.alphabet, x < 65536 := by decide +kernel
  have he : ∀ x ∈ Gsm.extension, x.1 < 65536 := by decide +kernel
  obtain ⟨_, ⟨i, _, hi, _⟩ | ⟨g, hg, _⟩⟩ := h
  · exact ha c (List.mem_of_getElem? hi)
  · exact he _ hg

/-- C24: exactly when a new text is sent as a new object would send it: when both texts call for the same coding (or the
coding was asked for). -/
theorem C24_text_iff (s s' s'' : State) (ps qs : List Pdu) (t : PyStr) (hready : Ready s) (h : toPdu s = .ok ps s')
    (hr : s.randId ≠ none) (hn : toPdu { s with text := t } = .ok qs s'') :
    (toPdu { s' with text := t }).val = .ok qs ↔ s.fmt ≠ none ∨ (GsmText t ↔ GsmText s.text) := by
  constructor
  · intro he
    by_contra hc
    push Not at hc
    obtain ⟨hf, hg⟩ := hc
    by_cases hs : GsmText s.text
    · have ht : ¬ GsmText t := by
        intro ht
        rcases hg with hg | hg
        · exact hg.2 hs
        · exact hg.1 ht
      rw [C24_gsm_first s s' ps t h hf hs ht hr] at he
      cases he
    · have ht : GsmText t := by
        rcases hg with hg | hg
        · exact hg.1
        · exact absurd hg.2 hs
      rw [C24_coding s s' ps t 8 h (.inr ⟨hf, .inr ⟨hs, rfl⟩⟩) hr] at he
      have hr1 : Ready { s with text := t } := ⟨hready.1, hready.2, hready.3, hready.4, hready.5⟩
      have hr2 : Ready { s with text := t, fmt := some 8 } := ⟨hready.1, hready.2, hready.3, hready.4, hready.5⟩
      have hu1 : Uses { s with text := t } .gsm := ⟨.inr hf, ht⟩
      have hu2 : Uses { s with text := t, fmt := some 8 } .ucs2 := by
        refine ⟨.inl rfl, ?_, ?_⟩
        · exact fun c hc => supported_bmp (ht.1 c hc)
        · rcases ht.2 with h2 | h2
          · exact .inl h2
          · exact .inr (.inl h2)
      have := (C90_injective _ _ _ _ hr1 hr2 hu1 hu2 qs _ _ hn (Res.val_ok he)).2.1
      cases this
  · intro hc
    rw [C24_text_partial s s' ps t h hc hr]
    exact toPdu_ok_val hn

/-- a text with a Cyrillic letter first, then a GSM text: both can be sent by new objects, but not one after the other by
one object without a difference -/
example : ∃ s ps s' qs s'', Ready s ∧ toPdu s = .ok ps s' ∧ s.randId ≠ none ∧ s.fmt = none ∧
    toPdu { s with text := ⟨true, py! "hello"⟩ } = .ok qs s'' ∧
    (toPdu { s' with text := ⟨true, py! "hello"⟩ }).val ≠ .ok qs := by
  let s : State := { sample ⟨true, py! "д"⟩ none with randId := some 7 }
  obtain ⟨ps, s', h, _⟩ := ok_of_count (r := toPdu s) (n := 1) (by decide +kernel)
  obtain ⟨qs, s'', h', _⟩ := ok_of_count (r := toPdu { s with text := ⟨true, py! "hello"⟩ }) (n := 1) (by decide +kernel)
  have h0 := sample_ready ⟨true, py! "д"⟩ none
  have hready : Ready s := ⟨h0.1, h0.2, h0.3, h0.4, h0.5⟩
  refine ⟨s, ps, s', qs, s'', hready, h, by simp [s], rfl, h', fun he => ?_⟩
  rcases (C24_text_iff s s' s'' ps qs _ hready h (by simp [s]) h').1 he with hf | hg
  · exact hf rfl
  · have h1 : GsmText ⟨true, py! "hello"⟩ := (gsmText_iff _).1 (by decide +kernel)
    have h2 : Gsm.isGsmText s.text = true := (gsmText_iff _).2 (hg.1 h1)
    exact absurd h2 (by decide +kernel)

/-- "hello" first, and then a text in Cyrillic -/
example : ∃ s ps s', toPdu s = .ok ps s' ∧ (toPdu { s' with text := ⟨true, py! "д"⟩ }).val = .error .unicodeError := by
  let s : State := { sample ⟨true, py! "hello"⟩ none with randId := some 7 }
  obtain ⟨ps, s', h, _⟩ := ok_of_count (r := toPdu s) (n := 1) (by decide +kernel)
  exact ⟨s, ps, s', h, C24_gsm_first s s' ps _ h rfl ((gsmText_iff _).1 (by decide +kernel))
    (fun h => by have := (gsmText_iff _).2 h; revert this; decide +kernel) (by simp [s])⟩

end Verif.Props

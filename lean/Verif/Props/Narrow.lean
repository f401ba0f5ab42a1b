import Verif.Proofs.Narrow
import Verif.Props.Relay
/-!
# C104: characters above U+FFFF, and narrow builds of Python
-/
set_option autoImplicit false

namespace Verif.Props
open Verif Verif.Spec Verif.Spec.Sms Verif.Spec.Time Verif.Spec.Submit Verif.Submit
open Verif.Deliver (smsDeliver)
open Verif.Spec.Utf16 (Whole High)

/-- C104 in full, on the build with one unit per character: texts of up to 1000 Unicode characters arrive. -/
def C104_full : Prop := ∀ (s : State) (chars : List Nat), Ready s → s.fmt = none → s.text = ⟨true, chars⟩ →
  (∀ c ∈ chars, Utf16.Char c) → chars.length ≤ 1000 →
  ∃ ps s' ts ref, toPdu s = .ok ps s' ∧ ts.flatten = chars ∧ Arrive ps ts ref

/-- C104 in full, on narrow builds: they arrive, and each message by itself has whole characters. -/
def C104_full_narrow : Prop := ∀ (s : State) (chars units : List Nat), Ready s → s.fmt = none → s.text = ⟨true, units⟩ →
  Utf16.Spells chars units → chars.length ≤ 1000 →
  ∃ ps s' ts ref, Narrow.toPdu s = .ok ps s' ∧ ts.flatten = units ∧ Arrive ps ts ref ∧ ∀ u ∈ ts, Whole u

/-- C104 is false on wide builds: a face cannot be sent. -/
theorem C104_refuted : ¬ C104_full := by
  intro h
  have hr : Ready (sample ⟨true, [0x1f600]⟩ none) := sample_ready _ _
  obtain ⟨ps, s', ts, ref, h1, _⟩ := h (sample ⟨true, [0x1f600]⟩ none) [0x1f600] hr rfl rfl
    (by simp [Utf16.Char]) (by decide)
  obtain ⟨s'', h2⟩ := C13_too_big (sample ⟨true, [0x1f600]⟩ none) hr
    (.inr ⟨rfl, fun h => by have := (gsmText_iff _).2 h; revert this; decide +kernel⟩) rfl ⟨0x1f600, by simp [sample], by decide⟩
  rw [h1] at h2
  cases h2

theorem arrive_ucs2 {s : State} (hr : Ready s) (hu : Uses s .ucs2) (hl : s.text.s.length ≤ 254 * 66) :
    ∃ ps s' ts ref, toPdu s = .ok ps s' ∧ ps.length ≤ 255 ∧ UcsCut s.text.s ts ∧ Arrive ps ts ref := by
  have he : effFmt s = 8 := by
    unfold effFmt
    rcases hu.1 with h | ⟨h, ht⟩
    · rw [h]
    · rw [h]; simp only; rw [if_neg (fun h => ht ((gsmText_iff _).1 h))]
  obtain ⟨ps, s', hp⟩ := C10_succeeds s .ucs2 hr hu s.text.s rfl hl
  obtain ⟨ts, h1, h2, h3⟩ := toPdu_ucs2 hr he hu.2.1 hu.2.2
  by_cases hle : ts.length ≤ 255
  · obtain ⟨ps', h5, h6, h7⟩ := h2 hle
    refine ⟨ps', _, ts, crOf (afterRef s), h5, by omega, h1, h6.symm, fun i hi hi' r hok => ?_⟩
    obtain ⟨hq, hd⟩ := Deliver.relay_conforms hr.klass (h7 i hi hi') (crOf_lt _) (by omega) hi (fun h => (by cases h)) hok
    refine ⟨hq, fun q hq' => ?_⟩
    obtain ⟨_, _, _, _, _, _, _, _, _, _, d, a1, a2, a3, _⟩ := hd q hq'
    refine ⟨d, a1, a2, ?_⟩
    unfold Deliver.data
    rw [a3, Deliver.udhOf, h6]
    by_cases hn : ts.length = 1
    · simp only [hn, if_true]
    · simp only [hn, if_false]
  · rw [h3 (by omega)] at hp
    cases hp

theorem narrow_ok {s s' : State} {ps : List Pdu} (h : toPdu s = .ok ps s') (hl : ps.length ≤ 255) : Narrow.toPdu s = .ok ps s' := by
  rcases Narrow.toPdu_like s with ⟨h1, _⟩ | ⟨_, h2⟩
  · rw [h1, h]
  · have := h2 _ _ h; omega

/-- C104 on narrow builds: every text of Unicode characters that is not sent in the GSM alphabet (for which see C12) and has
at most 254 * 66 units is sent and arrives: joined, the parts are the units of the text, and of no other text. Missing: that
each part by itself has whole characters, which is false (`C104_refuted_narrow`); and wide builds (`C104_refuted`). -/
theorem C104_partial (s : State) (chars : List Nat) (hr : Ready s) (hf : s.fmt = some 8 ∨ (s.fmt = none ∧ ¬ GsmText s.text))
    (hu : s.text.uni = true) (hc : Utf16.Spells chars s.text.s) (hl : s.text.s.length ≤ 254 * 66) :
    ∃ ps s' ts ref, Narrow.toPdu s = .ok ps s' ∧ ts.flatten = s.text.s ∧ Arrive ps ts ref ∧
      ∀ chars', Utf16.Spells chars' ts.flatten → chars' = chars := by
  obtain ⟨ps, s', ts, ref, h1, h2, h3, h4⟩ := arrive_ucs2 hr ⟨hf, Utf16.spells_lt hc, .inl hu⟩ hl
  refine ⟨ps, s', ts, ref, narrow_ok h1 h2, ucsCut_flatten h3, h4, fun c' h => ?_⟩
  rw [ucsCut_flatten h3] at h
  exact Utf16.spells_unique hc h

theorem whole_parts {chars units : List Nat} {ts : List (List Nat)} (hc : Utf16.Spells chars units) (h27 : 27 ∉ units)
    (h : UcsCut units ts) : (∀ u ∈ ts, Whole u) ↔
      (70 < units.length → ∀ k, 0 < k → 67 * k < units.length → ∀ u, units[67 * k - 1]? = some u → ¬ High u) := by
  rcases h with ⟨hl, rfl⟩ | ⟨hl, hk⟩
  · refine ⟨fun _ h => absurd h (by omega), fun _ u hu => ?_⟩
    rw [List.mem_singleton.1 hu]
    exact ⟨chars, hc⟩
  · have hfull := chunks_full hk h27
    have hflat := chunks_flatten hk
    constructor
    · intro hw _ k h0 hk2 u hu
      refine ((Utf16.whole_cut hc (67 * k) (by omega)).1.1 ?_) (by omega) u hu
      have hpre : ∀ k, 67 * k < units.length → k < ts.length := by
        intro k hk2
        have hcount := chunks_count (by decide) hk h27
        have : ts.length = (units.length + 67 - 1) / 67 := hcount
        omega
      have key : ∀ k, 67 * k < units.length → Whole (units.take (67 * k)) := by
        intro k
        induction k with
        | zero => intro _; exact ⟨[], .nil⟩
        | succ k ih =>
          intro h2
          have hk3 : k < ts.length := hpre k (by omega)
          have h4 := hw _ (List.getElem_mem hk3)
          rw [(hfull k hk3).1] at h4
          have h5 := Utf16.whole_append (ih (by omega)) h4
          rwa [← List.take_add, ← Nat.mul_succ] at h5
      exact key k hk2
    · intro hw u hu
      obtain ⟨i, hi, rfl⟩ := List.mem_iff_getElem.1 hu
      obtain ⟨h1, h2⟩ := hfull i hi
      rw [h1]
      have hd : Whole (units.drop (67 * i)) := by
        obtain ⟨a, b⟩ := Utf16.whole_cut hc (67 * i) (by omega)
        exact b.2 (a.2 fun h0 => hw hl i (by omega) h2)
      by_cases h3 : 67 * i + 67 < units.length
      · obtain ⟨cs, hcs⟩ := hd
        refine (Utf16.whole_cut hcs 67 (by rw [List.length_drop]; omega)).1.2 fun _ u hu => ?_
        rw [List.getElem?_drop] at hu
        refine hw hl (i + 1) (by omega) (by omega) u ?_
        rw [← hu]
        congr 1
      · rw [List.take_of_length_le (by rw [List.length_drop]; omega)]
        exact hd

/-- C104 on narrow builds, for texts without ESC: each message by itself has whole characters exactly if the text fits in one
message or no 67th unit is the first half of a character. -/
theorem C104_whole (s : State) (chars : List Nat) (hr : Ready s) (hf : s.fmt = some 8 ∨ (s.fmt = none ∧ ¬ GsmText s.text))
    (hu : s.text.uni = true) (hc : Utf16.Spells chars s.text.s) (hl : s.text.s.length ≤ 254 * 66) (h27 : 27 ∉ chars) :
    ∃ ps s' ts ref, Narrow.toPdu s = .ok ps s' ∧ ts.flatten = s.text.s ∧ Arrive ps ts ref ∧ ((∀ u ∈ ts, Whole u) ↔
      (70 < s.text.s.length → ∀ k, 0 < k → 67 * k < s.text.s.length → ∀ u, s.text.s[67 * k - 1]? = some u → ¬ High u)) := by
  obtain ⟨ps, s', ts, ref, h1, h2, h3, h4⟩ := arrive_ucs2 hr ⟨hf, Utf16.spells_lt hc, .inl hu⟩ hl
  have h27' : 27 ∉ s.text.s := by
    have : ∀ {cs us : List Nat}, Utf16.Spells cs us → 27 ∉ cs → 27 ∉ us := by
      intro cs us h
      induction h with
      | nil => exact fun h => h
      | one c cs us _ _ ih =>
        intro h hm
        rcases List.mem_cons.1 hm with rfl | hm
        · exact h List.mem_cons_self
        · exact ih (fun hh => h (List.mem_cons_of_mem _ hh)) hm
      | two x cs us hx _ ih =>
        intro h hm
        rcases List.mem_cons.1 hm with hm | hm
        · omega
        · rcases List.mem_cons.1 hm with hm | hm
          · omega
          · exact ih (fun hh => h (List.mem_cons_of_mem _ hh)) hm
    exact this hc h27
  exact ⟨ps, s', ts, ref, narrow_ok h1 h2, ucsCut_flatten h3, h4, whole_parts hc h27' h3⟩

/-- 66 letters, a face, and four letters more -/
def tornText : List Nat := List.replicate 66 1046 ++ 0xD83D :: 0xDE00 :: List.replicate 4 1046

/-- the characters of `tornText` -/
theorem tornText_spells : Utf16.Spells (List.replicate 66 1046 ++ 0x1F600 :: List.replicate 4 1046) tornText := by
  have h1 : ∀ (n : Nat) {cs us : List Nat}, Utf16.Spells cs us → Utf16.Spells (List.replicate n 1046 ++ cs) (List.replicate n 1046 ++ us) := by
    intro n cs us h
    induction n with
    | zero => exact h
    | succ n ih => exact .one _ _ _ (by omega) ih
  have h2 := h1 4 .nil
  rw [List.append_nil] at h2
  exact h1 66 (.two 0xF600 _ _ (by omega) h2)

/-- C104 is false on narrow builds: a face may be torn between two messages. -/
theorem C104_refuted_narrow : ¬ C104_full_narrow := by
  intro h
  have hr : Ready (sample ⟨true, tornText⟩ none) := sample_ready _ _
  obtain ⟨ps, s', ts, ref, h1, _, h2, h3⟩ := h (sample ⟨true, tornText⟩ none) _ tornText hr rfl rfl tornText_spells (by decide)
  obtain ⟨ps', s'', ts', ref', k1, k2, k3, k4⟩ := C104_whole (sample ⟨true, tornText⟩ none) _ hr
    (.inr ⟨rfl, fun h => by have := (gsmText_iff _).2 h; revert this; decide +kernel⟩) rfl tornText_spells (by decide +kernel)
    (by decide +kernel)
  rw [h1] at k1
  cases k1
  have hts : ts' = ts := by
    refine List.ext_getElem (k3.1.trans h2.1.symm) fun i hi hi' => ?_
    obtain ⟨⟨q, hq⟩, a⟩ := k3.2 i hi (by rw [← k3.1]; exact hi) sampleRelay sampleRelay_ok
    obtain ⟨_, b⟩ := h2.2 i hi' (by rw [← k3.1]; exact hi) sampleRelay sampleRelay_ok
    obtain ⟨d, d1, d2, _⟩ := a q hq
    obtain ⟨d', d1', d2', _⟩ := b q hq
    rw [d1] at d1'
    cases d1'
    rw [d2] at d2'
    injection d2'
  subst hts
  exact k4.1 h3 (by decide +kernel) 1 (by decide) (by decide +kernel) 0xD83D (by decide +kernel) (by unfold High; decide)

/-- C104: on a narrow build `to_pdu` never returns more than 255 PDUs, whatever the coding (compare C22); if it would return
at most 255 on a wide build it does the same here, exceptions included, and otherwise it raises ValueError. -/
theorem C104_builds (s : State) :
    (∀ ps s', Narrow.toPdu s = .ok ps s' → ps.length ≤ 255) ∧
    (∀ ps s', toPdu s = .ok ps s' → ps.length ≤ 255 → Narrow.toPdu s = .ok ps s') ∧
    (∀ ps s', toPdu s = .ok ps s' → 255 < ps.length → ∃ s'', Narrow.toPdu s = .err .valueError s'') ∧
    (∀ e s', toPdu s = .err e s' → ∃ e' s'', Narrow.toPdu s = .err e' s'' ∧ (e' = e ∨ e' = .valueError)) := by
  rcases Narrow.toPdu_like s with ⟨h1, h2⟩ | ⟨⟨s1, h1⟩, h2⟩
  · refine ⟨fun ps s' h => h2 ps s' (h1 ▸ h), fun ps s' h _ => by rw [h1, h], fun ps s' h hl => ?_, fun e s' h => ⟨e, s', by rw [h1, h], .inl rfl⟩⟩
    have := h2 _ _ h
    omega
  · refine ⟨fun ps s' h => ?_, fun ps s' h hl => ?_, fun ps s' _ _ => ⟨s1, h1⟩, fun e s' _ => ⟨_, s1, h1, .inr rfl⟩⟩
    · rw [h1] at h; cases h
    · have := h2 _ _ h
      omega

/-- a text of three faces, on a narrow build -/
example : ∃ ps s' ts ref, Narrow.toPdu (sample ⟨true, [0xD83D, 0xDE00, 0xD83D, 0xDE00, 0xD83D, 0xDE00]⟩ none) = .ok ps s' ∧
    ts.flatten = [0xD83D, 0xDE00, 0xD83D, 0xDE00, 0xD83D, 0xDE00] ∧ Arrive ps ts ref := by
  obtain ⟨ps, s', ts, ref, h1, h2, h3, _⟩ := C104_partial (sample ⟨true, [0xD83D, 0xDE00, 0xD83D, 0xDE00, 0xD83D, 0xDE00]⟩ none)
    [0x1F600, 0x1F600, 0x1F600] (sample_ready _ _)
    (.inr ⟨rfl, fun h => by have := (gsmText_iff _).2 h; revert this; decide +kernel⟩) rfl
    (.two 0xF600 _ _ (by omega) (.two 0xF600 _ _ (by omega) (.two 0xF600 _ _ (by omega) .nil))) (by decide)
  exact ⟨ps, s', ts, ref, h1, h2, h3⟩

end Verif.Props

import Verif.Proofs.Submit5
import Verif.Proofs.Bin8
/-!
# C08-C11, C17, C22: the PDUs of `to_pdu`
-/
set_option autoImplicit false

namespace Verif.Props
open Verif Verif.Spec Verif.Spec.Sms Verif.Spec.Submit Verif.Submit

/-- an object as a user makes it: `sms = SmsSubmit('+34616585119', text)`, with a service centre, a class and a relative
validity of one day -/
def sample (t : PyStr) (f : Option Nat) : State :=
  { number := some (py! "+34616585119"), csca := some (py! "+34646456456"), klass := some 1,
    validity := .relative ⟨86400000000⟩, requestStatus := true, ref := none, randId := none, idList := List.range 255,
    pid := 0, text := t, fmt := f, dcs := none, textGsm := none }

theorem sample_ready (t : PyStr) (f : Option Nat) : Ready (sample t f) where
  number := ⟨_, rfl, (validNumber_iff _).1 (by decide +kernel)⟩
  csca := .inr ((validNumber_iff _).1 (by decide +kernel))
  klass := by rintro k ⟨⟩; decide
  pid := ⟨le_refl 0, by exact (by decide : (0 : Int) < 256)⟩
  validity := by refine ⟨?_, ?_⟩ <;> decide

theorem sample_gsm : Uses (sample ⟨true, py! "Hola, qué tal [€]"⟩ none) .gsm :=
  ⟨.inr rfl, (gsmText_iff _).1 (by decide +kernel)⟩

theorem sample_gsm_long : Uses (sample ⟨true, List.replicate 400 0x20AC⟩ none) .gsm :=
  ⟨.inr rfl, (gsmText_iff _).1 (by decide +kernel)⟩

theorem sample_ucs2 : Uses (sample ⟨true, py! "あ叶葉"⟩ none) .ucs2 :=
  ⟨.inr ⟨rfl, fun h => absurd ((gsmText_iff _).2 h) (by decide +kernel)⟩, by decide +kernel, .inl rfl⟩

theorem sample_bin : Uses (sample ⟨false, [0, 200, 255]⟩ (some 4)) .bin :=
  ⟨rfl, by decide, by decide, .inl rfl⟩

/-! ## C10 -/

/-- C10: every PDU conforms: address, type, flags, references, destination, protocol, coding, validity, user data. -/
theorem C10_conformance (s : State) (al : Alphabet) (hr : Ready s) (hu : Uses s al) (ps : List Pdu) (s' : State)
    (h : toPdu s = .ok ps s') : ∃ ts mr cr, Division al s.text.s ts ∧ AllConform s al mr cr ts ps := by
  obtain ⟨ts, s1, h1, _, h3, h4⟩ := toPdu_uses hr hu
  by_cases hl : ts.length ≤ 255
  · obtain ⟨ps', h5, h6⟩ := h3 hl
    rw [h] at h5
    cases h5
    exact ⟨ts, _, _, h1, h6⟩
  · rw [h4 (by omega)] at h; cases h

example : Ready (sample ⟨true, py! "あ叶葉"⟩ none) ∧ Uses (sample ⟨true, py! "あ叶葉"⟩ none) .ucs2 ∧
    ∃ ps s', toPdu (sample ⟨true, py! "あ叶葉"⟩ none) = .ok ps s' := ⟨sample_ready _ _, sample_ucs2, _, _, rfl⟩

/-- C10: `to_pdu` does succeed if the text does not need more than 255 parts. -/
theorem C10_succeeds (s : State) (al : Alphabet) (hr : Ready s) (hu : Uses s al) (units : List Nat)
    (hun : Units al s.text.s units) (hl : units.length ≤ 254 * (partSize al - 1)) :
    ∃ ps s', toPdu s = .ok ps s' := by
  obtain ⟨ts, s1, ⟨_, units', hu', h1⟩, _, h3, h4⟩ := toPdu_uses hr hu
  rw [units_unique hu' hun] at h1
  obtain ⟨ps, h5, _⟩ := h3 (by
    rcases h1 with ⟨_, h1⟩ | ⟨_, _, _, _, h1, _⟩
    · rw [h1]; exact (by decide : 1 ≤ 255)
    · by_contra hc
      have : 255 * (partSize al - 1) ≤ (ts.length - 1) * (partSize al - 1) := Nat.mul_le_mul_right _ (by omega)
      omega)
  exact ⟨ps, s1, h5⟩

example : Ready (sample ⟨true, List.replicate 400 0x20AC⟩ none) ∧ Uses (sample ⟨true, List.replicate 400 0x20AC⟩ none) .gsm ∧
    ∃ ps s', toPdu (sample ⟨true, List.replicate 400 0x20AC⟩ none) = .ok ps s' :=
  ⟨sample_ready _ _, sample_gsm_long, C10_succeeds _ .gsm (sample_ready _ _) sample_gsm_long (List.replicate 400 [27, 0x65]).flatten
    ((encode_iff (t := ⟨true, List.replicate 400 0x20AC⟩)).1 (by decide +kernel)).1 (by decide +kernel)⟩

/-- C10: apart from the user data, every PDU that is returned at all conforms; this includes 8-bit data in several
parts.  `fmt = 4` with characters above 255 is excluded: see `C17_refuted`. -/
theorem C10_envelope (s s' : State) (hr : Ready s) (ps : List Pdu) (h : toPdu s = .ok ps s')
    (hb : s.fmt = some 4 → ∀ x ∈ s.text.s, x < 256) :
    ∃ al mr, ∀ i (hi : i < ps.length), ∃ udl ud, Envelope s al mr ps.length i ps[i] udl ud :=
  ⟨_, _, toPdu_any hr h hb⟩

example : ∃ ps s', toPdu (sample ⟨true, List.replicate 400 0x20AC⟩ none) = .ok ps s' :=
  C10_succeeds _ .gsm (sample_ready _ _) sample_gsm_long (List.replicate 400 [27, 0x65]).flatten
    ((encode_iff (t := ⟨true, List.replicate 400 0x20AC⟩)).1 (by decide +kernel)).1 (by decide +kernel)

/-! ## C08 -/

theorem userData_of_envelope {s : State} {al : Alphabet} {mr n i : Nat} {p : Pdu} {udl : Nat} {ud : List Nat}
    (h : Envelope s al mr n i p udl ud) : UserData p udl ud := by
  obtain ⟨bytes, sm, rest, sub, h1, h2, h3, _, _, _, _, h4, _, _, _, _, _, _, _, _, _, _, _, h5, h6⟩ := h
  exact ⟨bytes, sm, rest, sub, h1, h2, h3, h4, h5, h6⟩

/-- C08: the PDUs carry pieces of the text whose concatenation is the text; if there are several, each piece is not
empty, is well formed on its own (`Units`: for GSM, it is spelled by whole characters) and fits. -/
theorem C08_lossless (s : State) (al : Alphabet) (hr : Ready s) (hu : Uses s al) (ps : List Pdu) (s' : State)
    (h : toPdu s = .ok ps s') : ∃ (ts : List (List Nat)) (cr : Nat), ts.flatten = s.text.s ∧ ts.length = ps.length ∧
      (∀ i (h : i < ts.length) (h' : i < ps.length), ∃ udl ud, UserData ps[i] udl ud ∧
        Carries al (partHeader cr ps.length i) ts[i] udl ud) ∧
      (ps.length ≠ 1 → ∀ u ∈ ts, u ≠ [] ∧ ∃ us, Units al u us ∧ us ≠ [] ∧ us.length ≤ partSize al) := by
  obtain ⟨ts, mr, cr, ⟨h1, units, _, h2⟩, h3, h4⟩ := C10_conformance s al hr hu ps s' h
  refine ⟨ts, cr, h1, h3.symm, ?_, ?_⟩
  · intro i hi hi'
    obtain ⟨udl, ud, e, _, c⟩ := h4 i hi hi'
    rw [← h3] at c
    exact ⟨udl, ud, userData_of_envelope e, c⟩
  · intro hn
    rcases h2 with ⟨_, h2⟩ | ⟨_, _, h2, _⟩
    · rw [h3, h2] at hn; exact absurd rfl hn
    · exact h2

example : Ready (sample ⟨true, List.replicate 400 0x20AC⟩ none) ∧ Uses (sample ⟨true, List.replicate 400 0x20AC⟩ none) .gsm ∧
    ∃ ps s', toPdu (sample ⟨true, List.replicate 400 0x20AC⟩ none) = .ok ps s' :=
  ⟨sample_ready _ _, sample_gsm_long, C10_succeeds _ .gsm (sample_ready _ _) sample_gsm_long (List.replicate 400 [27, 0x65]).flatten
    ((encode_iff (t := ⟨true, List.replicate 400 0x20AC⟩)).1 (by decide +kernel)).1 (by decide +kernel)⟩

/-- C08 for 8-bit data in several parts: the user data, which here has no header (see `C14`), concatenates to the text.
Only ASCII byte strings get that far. -/
theorem C08_lossless_8bit (s : State) (hr : Ready s) (hf : s.fmt = some 4) (hl : 140 < s.text.s.length)
    (ps : List Pdu) (s' : State) (h : toPdu s = .ok ps s') :
    (s.text.uni = false ∧ ∀ c ∈ s.text.s, c < 128) ∧
    ∃ ts : List (List Nat), ts.flatten = s.text.s ∧ ts.length = ps.length ∧
      (∀ u ∈ ts, u ≠ [] ∧ u.length ≤ 134) ∧
      ∀ i (h : i < ts.length) (h' : i < ps.length), UserData ps[i] (ts[i].length + 3) ts[i] := by
  obtain ⟨hu, ht, hn⟩ := toPdu_bin_inv hf hl h
  obtain ⟨parts, h1, h2⟩ := toPdu_bin_ok hr hf hu ht hl
  obtain ⟨ps', s1, h6, h7, h8⟩ := h2 (hn parts h1)
  rw [h] at h6
  cases h6
  exact ⟨⟨hu, ht⟩, parts, chunks_flatten h1, h7.symm, chunks_bound (by omega) h1,
    fun i hi hi' => userData_of_envelope (h8 i hi hi')⟩

/-- C08: and every ASCII byte string of up to 4351 parts is accepted; without escape octets that is up to 4351 * 134
octets, exactly. -/
theorem C08_8bit_accepted (s : State) (hr : Ready s) (hf : s.fmt = some 4) (hl : 140 < s.text.s.length) :
    (s.text.uni = false → (∀ c ∈ s.text.s, c < 128) → s.text.s.length ≤ 4350 * 133 → ∃ ps s', toPdu s = .ok ps s') ∧
    (27 ∉ s.text.s → ((∃ ps s', toPdu s = .ok ps s') ↔
      s.text.uni = false ∧ (∀ c ∈ s.text.s, c < 128) ∧ s.text.s.length ≤ 4351 * 134)) := by
  constructor
  · intro hu ht hn
    obtain ⟨parts, h1, h2⟩ := toPdu_bin_ok hr hf hu ht hl
    have h3 := (chunks_count_le (by omega) h1).2
    have h4 := chunks_two (by omega) h1 (by omega)
    have h5 := h3 (by intro h0; rw [h0] at h4; simp at h4)
    obtain ⟨ps, s1, h6, _⟩ := h2 (by omega)
    exact ⟨ps, s1, h6⟩
  · intro h27
    constructor
    · rintro ⟨ps, s', h⟩
      obtain ⟨hu, ht, hn⟩ := toPdu_bin_inv hf hl h
      obtain ⟨parts, h1, _⟩ := toPdu_bin_ok hr hf hu ht hl
      have := hn parts h1
      rw [chunks_count (by omega) h1 h27] at this
      exact ⟨hu, ht, by omega⟩
    · rintro ⟨hu, ht, hn⟩
      obtain ⟨parts, h1, h2⟩ := toPdu_bin_ok hr hf hu ht hl
      obtain ⟨ps, s1, h6, _⟩ := h2 (by rw [chunks_count (by omega) h1 h27]; omega)
      exact ⟨ps, s1, h6⟩

example : Ready (sample ⟨false, List.replicate 141 97⟩ (some 4)) ∧ 140 < (List.replicate 141 97).length ∧
    ∃ ps s', toPdu (sample ⟨false, List.replicate 141 97⟩ (some 4)) = .ok ps s' :=
  ⟨sample_ready _ _, by decide +kernel, (C08_8bit_accepted _ (sample_ready _ _) rfl (by decide +kernel)).1 rfl (by decide +kernel) (by decide +kernel)⟩

example : ∃ ps s', toPdu (sample ⟨false, List.replicate 141 97⟩ (some 4)) = .ok ps s' :=
  (C08_8bit_accepted _ (sample_ready _ _) rfl (by decide +kernel)).1 rfl (by decide +kernel) (by decide +kernel)

/-! ## C09 -/

/-- C09: one PDU exactly when the text fits in one message; the PDUs are numbered in order; without escapes the number of
parts is minimal, and in general at most one symbol per part is wasted. -/
theorem C09_count (s : State) (al : Alphabet) (hr : Ready s) (hu : Uses s al) (ps : List Pdu) (s' : State)
    (h : toPdu s = .ok ps s') (units : List Nat) (hun : Units al s.text.s units) :
    (ps.length = 1 ↔ units.length ≤ single al) ∧
    (∀ i (h : i < ps.length), ps[i].seq = i + 1 ∧ ps[i].cnt = ps.length) ∧
    (single al < units.length → units.length ≤ ps.length * partSize al ∧
      (ps.length - 1) * (partSize al - 1) < units.length ∧
      (27 ∉ units → ps.length = (units.length + partSize al - 1) / partSize al)) := by
  obtain ⟨ts, mr, cr, ⟨_, units', hu', h2⟩, h3, h4⟩ := C10_conformance s al hr hu ps s' h
  rw [units_unique hu' hun] at h2
  refine ⟨?_, ?_, ?_⟩
  · rcases h2 with ⟨h2, h5⟩ | ⟨h2, h5, _⟩
    · rw [h3, h5]; simpa using h2
    · rw [h3]; omega
  · intro i hi
    obtain ⟨udl, ud, ⟨_, _, _, _, _, _, _, _, _, hc, hs, _⟩, _⟩ := h4 i (by omega) hi
    exact ⟨hs, by rw [hc, h3]⟩
  · intro hlt
    rcases h2 with ⟨h2, _⟩ | ⟨_, _, _, h5⟩
    · omega
    · rw [h3]; exact h5

example : Ready (sample ⟨true, py! "あ叶葉"⟩ none) ∧ Uses (sample ⟨true, py! "あ叶葉"⟩ none) .ucs2 ∧
    ∃ ps s', toPdu (sample ⟨true, py! "あ叶葉"⟩ none) = .ok ps s' := ⟨sample_ready _ _, sample_ucs2, _, _, rfl⟩

/-- C09: 8-bit data in several parts is counted and numbered like the rest. -/
theorem C09_count_8bit (s : State) (hr : Ready s) (hf : s.fmt = some 4) (hl : 140 < s.text.s.length)
    (ps : List Pdu) (s' : State) (h : toPdu s = .ok ps s') :
    2 ≤ ps.length ∧ ps.length ≤ 4351 ∧
      (∀ i (h : i < ps.length), ps[i].seq = i + 1 ∧ ps[i].cnt = ps.length) ∧
      s.text.s.length ≤ ps.length * 134 ∧ (ps.length - 1) * 133 < s.text.s.length ∧
      (27 ∉ s.text.s → ps.length = (s.text.s.length + 133) / 134) := by
  obtain ⟨hu, ht, hn⟩ := toPdu_bin_inv hf hl h
  obtain ⟨parts, h1, h2⟩ := toPdu_bin_ok hr hf hu ht hl
  obtain ⟨h3, h3'⟩ := chunks_count_le (by omega) h1
  have h4 := chunks_two (by omega) h1 (by omega)
  have h5 := h3' (by intro h0; rw [h0] at h4; simp at h4)
  have hn := hn parts h1
  obtain ⟨ps, s1, h6, h7, h8⟩ := h2 hn
  rw [h] at h6
  cases h6
  refine ⟨by omega, by omega, ?_, by omega, by omega, ?_⟩
  · intro i hi
    obtain ⟨_, _, _, _, _, _, _, _, _, hc, hs, _⟩ := h8 i (by omega) hi
    exact ⟨hs, by rw [hc, h7]⟩
  · intro h27
    rw [h7, chunks_count (by omega) h1 h27, Nat.add_sub_assoc (by decide)]

example : Ready (sample ⟨false, List.replicate 141 97⟩ (some 4)) ∧ 140 < (List.replicate 141 97).length ∧
    ∃ ps s', toPdu (sample ⟨false, List.replicate 141 97⟩ (some 4)) = .ok ps s' :=
  ⟨sample_ready _ _, by decide +kernel, (C08_8bit_accepted _ (sample_ready _ _) rfl (by decide +kernel)).1 rfl (by decide +kernel) (by decide +kernel)⟩

/-! ## C11 -/

/-- C11: at most 140 octets of user data, and the length octet is exact: septets (header included) of which the octets
are just enough for GSM, octets otherwise. -/
theorem C11_user_data (s : State) (al : Alphabet) (hr : Ready s) (hu : Uses s al) (ps : List Pdu) (s' : State)
    (h : toPdu s = .ok ps s') : ∀ p ∈ ps, ∃ udl ud, UserData p udl ud ∧ ud.length ≤ 140 ∧
      (al = .gsm → udl ≤ 160 ∧ ud.length = (7 * udl + 7) / 8) ∧ (al ≠ .gsm → udl = ud.length) := by
  obtain ⟨ts, mr, cr, _, h3, h4⟩ := C10_conformance s al hr hu ps s' h
  intro p hp
  obtain ⟨i, hi, rfl⟩ := List.getElem_of_mem hp
  obtain ⟨udl, ud, e, hl, c⟩ := h4 i (by omega) hi
  refine ⟨udl, ud, userData_of_envelope e, hl, ?_, ?_⟩
  · rintro rfl
    obtain ⟨g, _, ⟨hg, _⟩, hudl⟩ := c
    rw [← hudl] at hg
    exact ⟨by omega, hg⟩
  · intro hne
    cases al with
    | gsm => exact absurd rfl hne
    | bin => exact c.2
    | ucs2 => exact c.2.2

example : Ready (sample ⟨true, List.replicate 400 0x20AC⟩ none) ∧ Uses (sample ⟨true, List.replicate 400 0x20AC⟩ none) .gsm ∧
    ∃ ps s', toPdu (sample ⟨true, List.replicate 400 0x20AC⟩ none) = .ok ps s' :=
  ⟨sample_ready _ _, sample_gsm_long, C10_succeeds _ .gsm (sample_ready _ _) sample_gsm_long (List.replicate 400 [27, 0x65]).flatten
    ((encode_iff (t := ⟨true, List.replicate 400 0x20AC⟩)).1 (by decide +kernel)).1 (by decide +kernel)⟩

/-! ## C17 -/

/-- what C17 asks of a PDU: the hex string is two upper-case digits per octet and the length counts the octets after the
service centre field (whose first octet is its length) -/
def LengthOk (p : Pdu) : Prop :=
  ∃ n rest, p.pdu = hexUpper (n :: rest) ∧ (∀ x ∈ n :: rest, x < 256) ∧ p.length + n = rest.length

/-- C17 in full -/
def C17_full : Prop := ∀ s s' ps, Ready s → toPdu s = .ok ps s' → ∀ p ∈ ps, LengthOk p

/-- C17 for everything but 8-bit "data" with characters that are no octets.  Missing: that case, for which it is false
(`C17_refuted`). -/
theorem C17_partial (s s' : State) (ps : List Pdu) (hr : Ready s) (h : toPdu s = .ok ps s')
    (hb : s.fmt = some 4 → ∀ x ∈ s.text.s, x < 256) : ∀ p ∈ ps, LengthOk p := by
  intro p hp
  obtain ⟨i, hi, rfl⟩ := List.getElem_of_mem hp
  obtain ⟨udl, ud, bytes, sm, rest, sub, h1, h2, h3, _, h5, _⟩ := toPdu_any hr h hb i hi
  cases bytes with
  | nil => simp [readSmsc] at h3
  | cons n r =>
    refine ⟨n, r, h1, h2, ?_⟩
    rw [h5]
    cases n with
    | zero => simp only [readSmsc, Option.some.injEq, Prod.mk.injEq] at h3; rw [h3.2]; rfl
    | succ n =>
      cases r with
      | nil => simp [readSmsc] at h3
      | cons toa r =>
        simp only [readSmsc, Nat.add_sub_cancel] at h3
        split at h3
        · cases h3
        · simp only [Option.some.injEq, Prod.mk.injEq] at h3
          rw [← h3.2, List.length_drop, List.length_cons]
          omega

example : ∃ ps s', toPdu (sample ⟨false, [0, 200, 255]⟩ (some 4)) = .ok ps s' ∧ ∀ x ∈ [0, 200, 255], x < 256 :=
  ⟨_, _, rfl, by decide⟩

theorem hexUpper_even (o : List Nat) : (hexUpper o).length % 2 = 0 := by
  rw [hexUpper_length]; omega

/-- C17 is false of the code: `fmt = 0x04` with U+0100 gives an odd number of hex digits. -/
theorem C17_refuted : ¬ C17_full := by
  intro hf
  have hp : (toPdu (sample ⟨true, [0x100]⟩ (some 4))).val = .ok [⟨py! "07914346466554F631000B914316565811F90015A701100", 15, 1, 1⟩] := by
    decide +kernel
  obtain ⟨n, rest, h1, _⟩ := hf _ _ _ (sample_ready _ _) (Res.val_ok hp) _ (List.mem_singleton.2 rfl)
  have := hexUpper_even (n :: rest)
  rw [← h1] at this
  revert this
  decide

/-! ## C22 -/

/-- C22: a text that cannot fit in 255 parts raises ValueError, and no PDUs are returned. -/
theorem C22_too_long (s : State) (al : Alphabet) (hr : Ready s) (hu : Uses s al) (units : List Nat)
    (hun : Units al s.text.s units) (hl : 255 * partSize al < units.length) :
    ∃ s', toPdu s = .err .valueError s' := by
  obtain ⟨ts, s1, ⟨_, units', hu', h1⟩, _, h3, h4⟩ := toPdu_uses hr hu
  rw [units_unique hu' hun] at h1
  refine ⟨s1, h4 ?_⟩
  rcases h1 with ⟨h1, _⟩ | ⟨_, _, _, h1, _⟩
  · have : single al ≤ 255 * partSize al := by cases al <;> decide
    omega
  · by_contra hc
    have : ts.length * partSize al ≤ 255 * partSize al := Nat.mul_le_mul_right _ (by omega)
    omega

example : ∃ s', toPdu (sample ⟨true, List.replicate 17086 0x53F6⟩ (some 8)) = .err .valueError s' :=
  have hl : (List.replicate 17086 0x53F6).length = 17086 := List.length_replicate
  C22_too_long _ .ucs2 (sample_ready _ _)
    ⟨.inl rfl, fun c hc => by rw [List.eq_of_mem_replicate hc]; decide, .inl rfl⟩ _ rfl
    (by simp only [sample, hl, partSize]; decide)

/-- C22: conversely PDUs that are returned are never more than 255, so all numbers fit in their octets. -/
theorem C22_no_wrap (s : State) (al : Alphabet) (hr : Ready s) (hu : Uses s al) (ps : List Pdu) (s' : State)
    (h : toPdu s = .ok ps s') : ps.length ≤ 255 ∧ ∀ p ∈ ps, 1 ≤ p.seq ∧ p.seq ≤ p.cnt ∧ p.cnt ≤ 255 := by
  obtain ⟨ts, s1, _, _, h3, h4⟩ := toPdu_uses hr hu
  by_cases hl : ts.length ≤ 255
  · obtain ⟨ps', h5, h6, h7⟩ := h3 hl
    rw [h] at h5
    cases h5
    refine ⟨by omega, fun p hp => ?_⟩
    obtain ⟨i, hi, rfl⟩ := List.getElem_of_mem hp
    obtain ⟨udl, ud, ⟨_, _, _, _, _, _, _, _, _, hc, hs, _⟩, _⟩ := h7 i (by omega) hi
    rw [hc, hs]; omega
  · rw [h4 (by omega)] at h; cases h

example : Ready (sample ⟨true, List.replicate 400 0x20AC⟩ none) ∧ Uses (sample ⟨true, List.replicate 400 0x20AC⟩ none) .gsm ∧
    ∃ ps s', toPdu (sample ⟨true, List.replicate 400 0x20AC⟩ none) = .ok ps s' :=
  ⟨sample_ready _ _, sample_gsm_long, C10_succeeds _ .gsm (sample_ready _ _) sample_gsm_long (List.replicate 400 [27, 0x65]).flatten
    ((encode_iff (t := ⟨true, List.replicate 400 0x20AC⟩)).1 (by decide +kernel)).1 (by decide +kernel)⟩

/-- C22 in full: the same for every coding, 8-bit included -/
def C22_full : Prop := ∀ s s' ps, Ready s → toPdu s = .ok ps s' → ps.length ≤ 255

/-- C22 without 8-bit data in several parts.  Missing: that case, for which it is false (`C22_refuted`). -/
theorem C22_partial (s s' : State) (ps : List Pdu) (h : toPdu s = .ok ps s')
    (hf : s.fmt = some 4 → s.text.s.length ≤ 140) : ps.length ≤ 255 := by
  obtain ⟨ms, h1, h2⟩ := toPdu_length h
  rw [h2]
  exact bodyP_count h1 fun h4 => hf (effFmt_4 h4)

example : ∃ ps s', toPdu (sample ⟨true, py! "あ叶葉"⟩ none) = .ok ps s' ∧ (sample ⟨true, py! "あ叶葉"⟩ none).fmt ≠ some 4 :=
  ⟨_, _, rfl, by decide⟩

/-- C22 is false of the code for 8-bit data: 34305 octets give 257 PDUs. -/
theorem C22_refuted : ¬ C22_full := by
  intro hc
  have hlen : (List.replicate 34305 97).length = 34305 := List.length_replicate ..
  have hmem : ∀ c ∈ List.replicate 34305 97, c < 128 := by
    intro c hc; rw [List.eq_of_mem_replicate hc]; decide
  have hl : 140 < (sample ⟨false, List.replicate 34305 97⟩ (some 4)).text.s.length := by simp only [sample, hlen]; decide
  obtain ⟨ps, s', h1⟩ := (C08_8bit_accepted _ (sample_ready _ _) rfl hl).1 rfl hmem (by simp only [sample, hlen]; decide)
  obtain ⟨_, _, _, h2, _⟩ := C09_count_8bit _ (sample_ready _ _) rfl hl ps s' h1
  have := hc _ _ _ (sample_ready _ _) h1
  simp only [sample, hlen] at h2
  omega

end Verif.Props

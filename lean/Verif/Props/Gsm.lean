import Verif.Proofs.Gsm2
/-!
# C01-C04: the GSM 03.38 codec
-/
set_option autoImplicit false

namespace Verif.Props
open Verif
open Verif.Gsm (encode decode isGsmText)
open Verif.Spec.Gsm

/-- C01: what strict encoding produces decodes to the same text, whatever `errors` the decoder is given. -/
theorem C01_roundtrip (t : PyStr) (l : Str) (e : Gsm.Errors) (h : encode t = .ok l) : decode e l = .ok t.s := by
  obtain ⟨u, t⟩ := t
  cases u
  · by_cases hc : ∀ c ∈ t, c < 128
    · have h' : Gsm.encodeLoop false .strict t = .ok l := h
      rw [Gsm.encodeLoop_str hc] at h'
      exact Gsm.decode_spells e (Gsm.encodeLoop_iff.1 h')
    · have h' : Gsm.encodeLoop false .strict t = .ok l := h
      rw [Gsm.encodeLoop_str_err (by simpa using hc)] at h'
      cases h'
  · exact Gsm.decode_spells e (Gsm.encodeLoop_iff.1 h)

example : encode ⟨true, py! "a€[b]@"⟩ = .ok [0x61, 0x1b, 0x65, 0x1b, 0x3c, 0x62, 0x1b, 0x3e, 0x00] := by
  decide +kernel

/-- C01: strict encoding is injective on texts. -/
theorem C01_injective (t₁ t₂ : PyStr) (l : Str) (h₁ : encode t₁ = .ok l) (h₂ : encode t₂ = .ok l) :
    t₁.s = t₂.s := by
  have a := C01_roundtrip t₁ l .strict h₁
  rw [C01_roundtrip t₂ l .strict h₂] at a
  exact (Except.ok.inj a).symm

example (t : PyStr) (h : encode t = .ok [0x1b, 0x65]) : t.s = py! "€" :=
  C01_injective t ⟨true, py! "€"⟩ _ h (by decide +kernel)

/-- C02: for `unicode` texts the strict encoder succeeds exactly with the spelling TS 23.038 assigns. -/
theorem C02_encode_exact (t l : Str) : encode ⟨true, t⟩ = .ok l ↔ Spells t l := Gsm.encodeLoop_iff

/-- C02: `is_gsm_text` is exact; for byte strings characters above 0x7f never qualify. -/
theorem C02_is_gsm_text (t : PyStr) :
    isGsmText t = true ↔ (∀ c ∈ t.s, Supported c) ∧ (t.uni = false → ∀ c ∈ t.s, c < 128) := by
  obtain ⟨u, t⟩ := t
  have hu : (∃ l, Gsm.encodeLoop true .strict t = .ok l) ↔ ∀ c ∈ t, Supported c := by
    constructor
    · rintro ⟨l, h⟩; exact Gsm.spells_supported (Gsm.encodeLoop_iff.1 h)
    · intro h; obtain ⟨l, hl⟩ := Gsm.spells_exists h; exact ⟨l, Gsm.encodeLoop_iff.2 hl⟩
  have hb : ∀ u, isGsmText ⟨u, t⟩ = true ↔ ∃ l, Gsm.encodeLoop u .strict t = .ok l := by
    intro u
    unfold isGsmText encode
    cases Gsm.encodeLoop u .strict t <;> simp
  rw [hb]
  cases u
  · by_cases hc : ∀ c ∈ t, c < 128
    · rw [Gsm.encodeLoop_str hc, hu]; exact ⟨fun h => ⟨h, fun _ => hc⟩, fun h => h.1⟩
    · rw [Gsm.encodeLoop_str_err (by simpa using hc)]
      simp only [reduceCtorEq, exists_false, false_iff, not_and]
      intro _ h; exact hc (h trivial)
  · rw [hu]; simp

/-- C02: texts accepted by `is_gsm_text` encode without error, into 7-bit values only; others raise UnicodeError. -/
theorem C02_encode_total (t : PyStr) :
    (isGsmText t = true → ∃ l, encode t = .ok l ∧ ∀ x ∈ l, x < 128) ∧
    (isGsmText t = false → encode t = .error .unicodeError) := by
  obtain ⟨u, t⟩ := t
  constructor
  · intro h
    unfold isGsmText at h
    cases hx : encode ⟨u, t⟩ with
    | error e => rw [hx] at h; cases h
    | ok l =>
      refine ⟨l, rfl, ?_⟩
      cases u
      · by_cases hc : ∀ c ∈ t, c < 128
        · have h' : Gsm.encodeLoop false .strict t = .ok l := hx
          rw [Gsm.encodeLoop_str hc] at h'
          exact Gsm.spells_lt (Gsm.encodeLoop_iff.1 h')
        · have h' : Gsm.encodeLoop false .strict t = .ok l := hx
          rw [Gsm.encodeLoop_str_err (by simpa using hc)] at h'
          cases h'
      · exact Gsm.spells_lt (Gsm.encodeLoop_iff.1 hx)
  · intro h
    unfold isGsmText at h
    cases hx : encode ⟨u, t⟩ with
    | ok l => rw [hx] at h; cases h
    | error e => rw [Gsm.encodeLoop_error u hx]

example : isGsmText ⟨true, py! "Ça coûte"⟩ = false ∧ isGsmText ⟨true, py! "€ é Ω"⟩ = true ∧
    isGsmText ⟨false, [0xe9]⟩ = false ∧ isGsmText ⟨true, [0x1F600]⟩ = false := by decide +kernel

/-- C03: decoding septets never fails in any mode, and never lengthens. -/
theorem C03_total (e : Gsm.Errors) (l : Str) (h : ∀ x ∈ l, x < 128) :
    ∃ t, decode e l = .ok t ∧ t.length ≤ l.length := by
  obtain ⟨t, h1, h2, _⟩ := Gsm.decode_septets e l.length l (Nat.le_refl _) h
  exact ⟨t, h1, h2⟩

example : ∃ t, decode .strict [0x41, 0x1b, 0x41, 0x1b] = .ok t ∧ t.length ≤ 4 := C03_total _ _ (by decide)

/-- C03: the decoded text re-encodes to the same septets exactly when it shows no no-break space ... -/
theorem C03_reencode (l t : Str) (h : ∀ x ∈ l, x < 128) (hd : decode .strict l = .ok t) :
    encode ⟨true, t⟩ = .ok l ↔ 0xa0 ∉ t := by
  obtain ⟨t', h1, _, h3⟩ := Gsm.decode_septets .strict l.length l (Nat.le_refl _) h
  rw [h1] at hd
  cases hd
  rw [C02_encode_exact]
  constructor
  · exact Gsm.nbsp_not_spelled
  · intro hn
    rcases h3 with h3 | ⟨h3, _⟩
    · exact h3
    · exact absurd h3 hn

example : encode ⟨true, [0x41, 0xa0]⟩ ≠ .ok [0x41, 0x1b] := fun h =>
  (C03_reencode [0x41, 0x1b] [0x41, 0xa0] (by decide) (by decide +kernel)).1 h (by decide)

/-- C03: ... and that character appears exactly when an escape is dangling or followed by a septet that the
extension table does not assign. -/
theorem C03_bad_escape (l t : Str) (h : ∀ x ∈ l, x < 128) (hd : decode .strict l = .ok t) :
    0xa0 ∈ t ↔ ∃ t' pre suf, Spells t' pre ∧ l = pre ++ 27 :: suf ∧
        (suf = [] ∨ ∃ g r, suf = g :: r ∧ ∀ c, (c, g) ∉ extension) := by
  obtain ⟨t', h1, hlen, h3⟩ := Gsm.decode_septets .strict l.length l (Nat.le_refl _) h
  clear hlen
  rw [h1] at hd
  cases hd
  constructor
  · intro ha
    rcases h3 with h3 | ⟨_, h3⟩
    · exact absurd ha (Gsm.nbsp_not_spelled h3)
    · exact h3
  · rintro ⟨t', pre, suf, hsp, rfl, hb⟩
    obtain ⟨p, hp, rfl⟩ := hsp
    clear h3
    induction hp generalizing t with
    | nil =>
      rcases hb with rfl | ⟨g, r, rfl, hg⟩
      · have h1 : decode .strict [27] = .ok t := h1
        rw [Gsm.decode_esc_nil] at h1
        cases h1; simp
      · have h1 : decode .strict (27 :: g :: r) = .ok t := h1
        rw [Gsm.decode_esc_cons] at h1
        have : Gsm.lookup Gsm.escapeDecode g = none := by
          cases hl : Gsm.lookup Gsm.escapeDecode g with
          | none => rfl
          | some c => exact absurd (Gsm.escapeDecode_ext.1 hl) (hg c)
        rw [this] at h1
        cases hr : decode .strict r with
        | error _ => rw [hr] at h1; cases h1
        | ok x => rw [hr] at h1; cases h1; simp
    | cons hc hps ih =>
      rename_i c s cs ps
      have h2 : decode .strict (s ++ (ps.flatten ++ 27 :: suf)) = .ok t := by
        rw [← h1]; simp
      rw [Gsm.decode_code .strict hc] at h2
      cases hr : decode .strict (ps.flatten ++ 27 :: suf) with
      | error _ => rw [hr] at h2; cases h2
      | ok x =>
        rw [hr] at h2
        cases h2
        have := ih x (fun y hy => h y (by simp at hy ⊢; exact Or.inr hy)) hr
        simp [this]

example : decode .strict [0x41, 0x1b, 0x41, 0x1b] = .ok [0x41, 0xa0, 0xa0] := by decide +kernel

/-- C04: `ignore` drops exactly the unsupported characters. -/
theorem C04_ignore (t : Str) [DecidablePred Supported] :
    encode ⟨true, t⟩ .ignore = encode ⟨true, t.filter (fun c => decide (Supported c))⟩ .strict ∧
    ∃ l, encode ⟨true, t⟩ .ignore = .ok l := by
  unfold encode
  induction t with
  | nil => exact ⟨rfl, [], rfl⟩
  | cons c cs ih =>
    obtain ⟨ih1, l, ih2⟩ := ih
    simp only [] at ih1 ih2
    by_cases hc : Supported c
    · obtain ⟨s, hs⟩ := hc
      rw [List.filter_cons_of_pos (by simpa using ⟨s, hs⟩)]
      simp only [Gsm.encodeLoop, Gsm.encodeChar_supported _ hs]
      rw [← ih1]
      exact ⟨rfl, s ++ l, by rw [ih2]; rfl⟩
    · rw [List.filter_cons_of_neg (by simpa using hc)]
      simp only [Gsm.encodeLoop, Gsm.encodeChar_ignore hc]
      rw [← ih1, ih2]
      exact ⟨rfl, l, rfl⟩

/-- C04: `replace` encodes the text in which every unsupported character is substituted by its look-alike, or by
a question mark if it has none. -/
theorem C04_replace (t : Str) :
    ∃ t' l, List.Forall₂ (fun c r => (Supported c ∧ r = c) ∨ (¬ Supported c ∧ Substitute c r)) t t' ∧
      encode ⟨true, t'⟩ .strict = .ok l ∧ encode ⟨true, t⟩ .replace = .ok l := by
  unfold encode
  induction t with
  | nil => exact ⟨[], [], .nil, rfl, rfl⟩
  | cons c cs ih =>
    obtain ⟨t', l, h1, h2, h3⟩ := ih
    by_cases hc : Supported c
    · obtain ⟨s, hs⟩ := hc
      refine ⟨c :: t', s ++ l, .cons (Or.inl ⟨⟨s, hs⟩, rfl⟩) h1, ?_, ?_⟩
      · simp only [Gsm.encodeLoop, Gsm.encodeChar_supported _ hs] at h2 ⊢; rw [h2]; rfl
      · simp only [Gsm.encodeLoop, Gsm.encodeChar_supported _ hs] at h3 ⊢; rw [h3]; rfl
    · obtain ⟨r, s, hr, hs, he⟩ := Gsm.encodeChar_replace hc
      refine ⟨r :: t', s ++ l, .cons (Or.inr ⟨hc, hr⟩) h1, ?_, ?_⟩
      · simp only [Gsm.encodeLoop, Gsm.encodeChar_supported _ hs] at h2 ⊢; rw [h2]; rfl
      · simp only [Gsm.encodeLoop, he] at h3 ⊢; rw [h3]; rfl

/-- C04: byte strings: characters above 0x7f become question marks / are dropped, others as for `unicode`. -/
theorem C04_str (t : Str) :
    encode ⟨false, t⟩ .replace = encode ⟨true, t.map (fun c => if c < 128 then c else 63)⟩ .replace ∧
    encode ⟨false, t⟩ .ignore = encode ⟨true, t.filter (· < 128)⟩ .ignore := by
  unfold encode
  induction t with
  | nil => exact ⟨rfl, rfl⟩
  | cons c cs ih =>
    obtain ⟨h1, h2⟩ := ih
    simp only [] at h1 h2
    by_cases hc : c < 128
    · constructor
      · simp only [List.map_cons, hc, if_true, Gsm.encodeLoop, Gsm.encodeChar_str]; rw [h1]
      · simp only [List.filter_cons, hc, decide_true, if_true, Gsm.encodeLoop, Gsm.encodeChar_str]; rw [h2]
    · constructor
      · simp only [List.map_cons, hc, if_false, Gsm.encodeLoop, Gsm.encodeChar_str,
          Gsm.encodeChar_supported _ Gsm.code_question]; rw [h1]
      · simp only [List.filter_cons, hc, decide_false, Bool.false_eq_true, if_false, Gsm.encodeLoop,
          Gsm.encodeChar_str]
        rw [h2]
        cases Gsm.encodeLoop true .ignore (List.filter (fun x => decide (x < 128)) cs) <;> rfl

example : encode ⟨true, py! "ça Ωê☃"⟩ .replace = .ok [0x09, 0x61, 0x20, 0x15, 0x3f, 0x3f] ∧
    encode ⟨true, py! "ça Ωê☃"⟩ .ignore = .ok [0x61, 0x20, 0x15] := by decide +kernel

/-- C04: decoding octets in pieces: if the first piece does not end within an escape, the result is that of the pieces. -/
theorem C04_decode_concat (e : Gsm.Errors) (l l' : Str) (h : Whole l) :
    decode e (l ++ l') = (do let a ← decode e l; let b ← decode e l'; .ok (a ++ b)) := by
  induction h with
  | nil =>
    show decode e l' = Except.bind (decode e l') fun b => .ok b
    cases decode e l' <;> rfl
  | plain x l hx _ ih =>
    rw [List.cons_append]
    cases hl : Gsm.lookup Gsm.regularDecode x with
    | some u =>
      rw [Gsm.decode_reg e _ hx hl, Gsm.decode_reg e _ hx hl, ih]
      cases decode e l with
      | error _ => rfl
      | ok a => cases decode e l' <;> rfl
    | none =>
      rw [Gsm.decode_unk e _ hx hl, Gsm.decode_unk e _ hx hl]
      cases e with
      | replace =>
        simp only []
        rw [ih]
        cases decode .replace l with
        | error _ => rfl
        | ok a => cases decode .replace l' <;> rfl
      | ignore => exact ih
      | strict => rfl
      | other => rfl
  | escape x l _ ih =>
    rw [List.cons_append, List.cons_append, Gsm.decode_esc_cons, Gsm.decode_esc_cons, ih]
    cases decode e l with
    | error _ => rfl
    | ok a => cases decode e l' <;> rfl

/-- C04: an octet above 127 is an error, a question mark or nothing, depending on `errors`. -/
theorem C04_decode_octet (x : Nat) (h : 128 ≤ x) :
    decode .strict [x] = .error .unicodeError ∧ decode .replace [x] = .ok [63] ∧ decode .ignore [x] = .ok [] := by
  have hl : Gsm.lookup Gsm.regularDecode x = none := by
    cases hl : Gsm.lookup Gsm.regularDecode x with
    | none => rfl
    | some u =>
      have h1 := (List.getElem?_eq_some_iff.1 (Gsm.regularEncode_iff.1 (Gsm.regularDecode_iff.1 hl)).2).1
      have h2 : alphabet.length = 128 := by decide +kernel
      omega
  exact ⟨Gsm.decode_unk _ _ (by omega) hl, Gsm.decode_unk _ _ (by omega) hl, Gsm.decode_unk _ _ (by omega) hl⟩

example := C04_decode_octet 200 (by decide)

/-- C04: so in `strict` mode such an octet outside an escape makes the whole fail, and with `replace` and `ignore` only
that octet is affected. -/
theorem C04_decode_bad (pre suf : Str) (x : Nat) (hp : Whole pre) (h : 128 ≤ x) (a b : Str) :
    (∃ e, decode .strict (pre ++ x :: suf) = .error e) ∧
    (decode .replace pre = .ok a → decode .replace suf = .ok b → decode .replace (pre ++ x :: suf) = .ok (a ++ 63 :: b)) ∧
    (decode .ignore pre = .ok a → decode .ignore suf = .ok b → decode .ignore (pre ++ x :: suf) = .ok (a ++ b)) := by
  obtain ⟨h1, h2, h3⟩ := C04_decode_octet x h
  have hw : Whole [x] := .plain x [] (by omega) .nil
  refine ⟨?_, ?_, ?_⟩
  · rw [C04_decode_concat _ _ _ hp, show x :: suf = [x] ++ suf from rfl, C04_decode_concat _ _ _ hw, h1]
    cases decode .strict pre with
    | error e => exact ⟨e, rfl⟩
    | ok _ => exact ⟨_, rfl⟩
  · intro ha hb
    rw [C04_decode_concat _ _ _ hp, show x :: suf = [x] ++ suf from rfl, C04_decode_concat _ _ _ hw, h2, ha, hb]
    rfl
  · intro ha hb
    rw [C04_decode_concat _ _ _ hp, show x :: suf = [x] ++ suf from rfl, C04_decode_concat _ _ _ hw, h3, ha, hb]
    rfl

example : Whole [0x48, 27, 0x65, 0x21] := .plain _ _ (by decide) (.escape _ _ (.plain _ _ (by decide) .nil))
example : decode .replace [0x48, 200, 27, 0x65] = .ok (py! "H?€") := by decide +kernel

end Verif.Props

import Verif.Model.Gsm0338
import Verif.Spec.Gsm
import Mathlib.Tactic.ByContra
/-!
# Lemmas about the GSM codec model
-/
set_option autoImplicit false

namespace Verif.Gsm
open Verif

theorem lookup_mem {d : List (Nat × Nat)} {c v : Nat} (h : lookup d c = some v) : (c, v) ∈ d := by
  unfold lookup at h
  cases hf : d.find? (fun p => p.1 == c) with
  | none => rw [hf] at h; cases h
  | some p =>
    rw [hf] at h
    have h1 := List.find?_some hf
    have h2 := List.mem_of_find?_eq_some hf
    simp at h1 h
    rw [← h1, ← h]; exact h2

theorem mem_lookup {d : List (Nat × Nat)} {c v : Nat} (hn : (d.map (·.1)).Nodup) (h : (c, v) ∈ d) :
    lookup d c = some v := by
  unfold lookup
  induction d with
  | nil => cases h
  | cons p d ih =>
    simp only [List.map_cons, List.nodup_cons] at hn
    by_cases hc : p.1 = c
    · rw [List.find?_cons_of_pos (by simp [hc])]
      rcases List.mem_cons.1 h with h | h
      · rw [← h]; rfl
      · exfalso; apply hn.1; rw [hc]; exact List.mem_map.2 ⟨(c, v), h, rfl⟩
    · rw [List.find?_cons_of_neg (by simp [hc])]
      rcases List.mem_cons.1 h with h | h
      · exfalso; apply hc; rw [← h]
      · exact ih hn.2 h

theorem lookup_iff {d : List (Nat × Nat)} {c v : Nat} (hn : (d.map (·.1)).Nodup) :
    lookup d c = some v ↔ (c, v) ∈ d := ⟨lookup_mem, mem_lookup hn⟩

theorem lookup_none {d : List (Nat × Nat)} {c : Nat} (h : lookup d c = none) (v : Nat) : (c, v) ∉ d := by
  intro hm
  unfold lookup at h
  simp at h
  exact h c v hm rfl

theorem regularEncode_nodup : (regularEncode.map (·.1)).Nodup := by decide +kernel
theorem regular_nodup : (regularDecode.map (·.1)).Nodup := by decide +kernel
theorem escapeEncode_nodup : (escapeEncode.map (·.1)).Nodup := by decide +kernel
theorem escape_nodup : (escapeDecode.map (·.1)).Nodup := by decide +kernel
theorem replace_nodup : (replaceEncode.map (·.1)).Nodup := by decide +kernel

open Verif.Spec.Gsm (alphabet extension Code Supported Spells)

theorem regularEncode_spec1 : ∀ p ∈ regularEncode, p.2 ≠ 27 ∧ alphabet[p.2]? = some p.1 := by decide +kernel
theorem regularEncode_spec2 : ∀ i ∈ List.range 128, i = 27 ∨ ((alphabet[i]?).getD 0, i) ∈ regularEncode := by
  decide +kernel
theorem alphabet_length : alphabet.length = 128 := by decide +kernel

theorem regularEncode_iff {c i : Nat} :
    lookup regularEncode c = some i ↔ i ≠ 27 ∧ alphabet[i]? = some c := by
  rw [lookup_iff regularEncode_nodup]
  constructor
  · intro h; exact regularEncode_spec1 (c, i) h
  · rintro ⟨h1, h2⟩
    have hi : i < 128 := by
      have := (List.getElem?_eq_some_iff.1 h2).1
      rwa [alphabet_length] at this
    have := regularEncode_spec2 i (List.mem_range.2 hi)
    rw [h2] at this
    simpa [h1] using this

theorem escapeEncode_perm : ∀ p, p ∈ escapeEncode ↔ p ∈ extension := by
  have h1 : ∀ p ∈ escapeEncode, p ∈ extension := by decide +kernel
  have h2 : ∀ p ∈ extension, p ∈ escapeEncode := by decide +kernel
  exact fun p => ⟨h1 p, h2 p⟩

theorem escapeEncode_iff {c g : Nat} : lookup escapeEncode c = some g ↔ (c, g) ∈ extension := by
  rw [lookup_iff escapeEncode_nodup, escapeEncode_perm]

theorem regularDecode_iff {c g : Nat} : lookup regularDecode g = some c ↔ lookup regularEncode c = some g := by
  rw [lookup_iff regular_nodup, lookup_iff regularEncode_nodup]
  unfold regularEncode
  simp

theorem escapeDecode_iff {c g : Nat} : lookup escapeDecode g = some c ↔ lookup escapeEncode c = some g := by
  rw [lookup_iff escape_nodup, lookup_iff escapeEncode_nodup]
  unfold escapeEncode
  simp

/-- no character has both a regular and an escaped code -/
theorem regular_escape_disjoint : ∀ p ∈ escapeEncode, lookup regularEncode p.1 = none := by decide +kernel

theorem extension_lt : ∀ p ∈ extension, p.2 < 128 ∧ p.2 ≠ 27 := by decide +kernel

theorem code_lt {c : Nat} {s : List Nat} (h : Code c s) : ∀ x ∈ s, x < 128 := by
  rcases h with ⟨i, _, h2, rfl⟩ | ⟨g, h2, rfl⟩
  · have := (List.getElem?_eq_some_iff.1 h2).1
    rw [alphabet_length] at this
    simpa using this
  · have := extension_lt _ h2
    simp at this ⊢
    exact this.1

theorem code_ne_nil {c : Nat} {s : List Nat} (h : Code c s) : s ≠ [] := by
  rcases h with ⟨i, _, h2, rfl⟩ | ⟨g, h2, rfl⟩ <;> simp

/-- strict per-character encoding, unicode input -/
theorem encodeChar_iff {c : Nat} {e : Errors} {s : Str} (he : e = .strict ∨ e = .other) :
    encodeChar true e c = .ok s ↔ Code c s := by
  unfold encodeChar
  simp only [lookupU, Bool.true_or, if_true]
  constructor
  · intro h
    split at h
    · rename_i g hg
      simp at h
      left; refine ⟨g, ?_, ?_, h.symm⟩
      · exact (regularEncode_iff.1 hg).1
      · exact (regularEncode_iff.1 hg).2
    · split at h
      · rename_i g hg
        simp at h
        right; exact ⟨g, escapeEncode_iff.1 hg, h.symm⟩
      · rcases he with rfl | rfl <;> simp at h
  · rintro (⟨i, h1, h2, rfl⟩ | ⟨g, h, rfl⟩)
    · rw [regularEncode_iff.2 ⟨h1, h2⟩]
    · have h' := escapeEncode_iff.2 h
      rw [regular_escape_disjoint _ ((escapeEncode_perm _).2 h), h']

theorem encodeChar_err {c : Nat} (h : ¬ Supported c) : encodeChar true .strict c = .error .unicodeError := by
  cases hx : encodeChar true .strict c with
  | ok s => exact absurd ⟨s, (encodeChar_iff (Or.inl rfl)).1 hx⟩ h
  | error e =>
    unfold encodeChar at hx
    split at hx
    · cases hx
    · split at hx
      · cases hx
      · simp at hx; rw [hx]

/-- `str` input: only ASCII characters can match -/
theorem encodeChar_str {c : Nat} {e : Errors} :
    encodeChar false e c = if c < 128 then encodeChar true e c else
      match e with
      | .strict => .error .unicodeError | .replace => .ok [63] | .ignore => .ok [] | .other => .error .unicodeError := by
  unfold encodeChar lookupU
  by_cases h : c < 128
  · simp [h]
  · simp [h]; cases e <;> rfl

theorem decode_code {c : Nat} {s : List Nat} (e : Errors) (h : Code c s) (rest : Str) :
    decode e (s ++ rest) = (decode e rest).map (c :: ·) := by
  rcases h with ⟨i, h1, h2, rfl⟩ | ⟨g, h, rfl⟩
  · have hl : lookup regularDecode i = some c := regularDecode_iff.2 (regularEncode_iff.2 ⟨h1, h2⟩)
    rw [List.singleton_append, decode.eq_def]
    simp only [beq_iff_eq, h1, if_false, hl]
    cases decode e rest <;> rfl
  · have hl : lookup escapeDecode g = some c := escapeDecode_iff.2 (escapeEncode_iff.2 h)
    simp only [List.cons_append, List.nil_append]
    rw [decode.eq_def]
    simp only [beq_self_eq_true, if_true, hl, Option.getD_some]
    cases decode e rest <;> rfl

theorem decode_spells {t l : List Nat} (e : Errors) (h : Spells t l) : decode e l = .ok t := by
  obtain ⟨parts, hp, rfl⟩ := h
  induction hp with
  | nil => simp [decode]
  | cons hc _ ih =>
    rw [List.flatten_cons, decode_code e hc, ih]; rfl

theorem encodeLoop_iff {t l : List Nat} : encodeLoop true .strict t = .ok l ↔ Spells t l := by
  induction t generalizing l with
  | nil =>
    simp only [encodeLoop]
    constructor
    · intro h; cases h; exact ⟨[], .nil, rfl⟩
    · rintro ⟨p, hp, rfl⟩; cases hp; rfl
  | cons c cs ih =>
    simp only [encodeLoop]
    constructor
    · intro h
      cases hx : encodeChar true .strict c with
      | error e => rw [hx] at h; cases h
      | ok x =>
        cases hy : encodeLoop true .strict cs with
        | error e => rw [hx, hy] at h; cases h
        | ok xs =>
          rw [hx, hy] at h
          cases h
          obtain ⟨parts, hp, rfl⟩ := ih.1 hy
          exact ⟨x :: parts, .cons ((encodeChar_iff (Or.inl rfl)).1 hx) hp, rfl⟩
    · rintro ⟨p, hp, rfl⟩
      cases hp with
      | cons hc ht =>
        rw [(encodeChar_iff (Or.inl rfl)).2 hc, ih.2 ⟨_, ht, rfl⟩]; rfl

/-- the `errors` argument only matters for unsupported characters -/
theorem encodeLoop_str {e : Errors} {t : List Nat} (h : ∀ c ∈ t, c < 128) :
    encodeLoop false e t = encodeLoop true e t := by
  induction t with
  | nil => rfl
  | cons c cs ih =>
    simp only [List.mem_cons, forall_eq_or_imp] at h
    simp only [encodeLoop, encodeChar_str, h.1, if_true, ih h.2]

theorem encodeLoop_str_err {t : List Nat} (h : ∃ c ∈ t, 128 ≤ c) :
    encodeLoop false .strict t = .error .unicodeError := by
  induction t with
  | nil => obtain ⟨c, hc, _⟩ := h; cases hc
  | cons c cs ih =>
    simp only [encodeLoop]
    cases hx : encodeChar false .strict c with
    | error e =>
      have : e = .unicodeError := by
        unfold encodeChar at hx
        split at hx
        · cases hx
        · split at hx
          · cases hx
          · simp at hx; exact hx.symm
      rw [this]; rfl
    | ok x =>
      have hc : c < 128 := by
        by_contra hc
        rw [encodeChar_str, if_neg hc] at hx
        cases hx
      have : ∃ c ∈ cs, 128 ≤ c := by
        obtain ⟨d, hd, hd'⟩ := h
        rcases List.mem_cons.1 hd with rfl | hd
        · omega
        · exact ⟨d, hd, hd'⟩
      rw [ih this]; rfl

theorem spells_lt {t l : List Nat} (h : Spells t l) : ∀ x ∈ l, x < 128 := by
  obtain ⟨parts, hp, rfl⟩ := h
  induction hp with
  | nil => simp
  | cons hc _ ih =>
    intro x hx
    rw [List.flatten_cons, List.mem_append] at hx
    rcases hx with hx | hx
    · exact code_lt hc x hx
    · exact ih x hx

theorem spells_exists {t : List Nat} (h : ∀ c ∈ t, Supported c) : ∃ l, Spells t l := by
  induction t with
  | nil => exact ⟨[], [], .nil, rfl⟩
  | cons c cs ih =>
    obtain ⟨s, hs⟩ := h c (by simp)
    obtain ⟨l, parts, hp, rfl⟩ := ih (fun c hc => h c (by simp [hc]))
    exact ⟨_, s :: parts, .cons hs hp, rfl⟩

theorem spells_supported {t l : List Nat} (h : Spells t l) : ∀ c ∈ t, Supported c := by
  obtain ⟨parts, hp, rfl⟩ := h
  induction hp with
  | nil => simp
  | cons hc _ ih =>
    intro c hcm
    rcases List.mem_cons.1 hcm with rfl | h
    · exact ⟨_, hc⟩
    · exact ih c h

theorem encodeLoop_error {t : List Nat} {e : PyErr} (u : Bool) (h : encodeLoop u .strict t = .error e) :
    e = .unicodeError := by
  induction t with
  | nil => cases h
  | cons c cs ih =>
    simp only [encodeLoop] at h
    cases hx : encodeChar u .strict c with
    | error e' =>
      rw [hx] at h
      cases h
      unfold encodeChar at hx
      split at hx
      · cases hx
      · split at hx
        · cases hx
        · simp at hx; exact hx.symm
    | ok x =>
      cases hy : encodeLoop u .strict cs with
      | error e' =>
        rw [hx, hy] at h
        cases h
        exact ih hy
      | ok xs => rw [hx, hy] at h; cases h

/-- septets below 128 other than the escape have a character -/
theorem regularDecode_total : ∀ g ∈ List.range 128, g = 27 ∨ (lookup regularDecode g).isSome := by decide +kernel

theorem regularDecode_some {g : Nat} (h : g < 128) (h' : g ≠ 27) : ∃ c, lookup regularDecode g = some c := by
  rcases regularDecode_total g (List.mem_range.2 h) with h1 | h1
  · exact absurd h1 h'
  · exact Option.isSome_iff_exists.1 h1

theorem nbsp_unsupported : ¬ Supported 0xa0 := by
  have h1 : 0xa0 ∉ alphabet := by decide +kernel
  have h2 : ∀ p ∈ extension, p.1 ≠ 0xa0 := by decide +kernel
  rintro ⟨s, ⟨i, _, h, _⟩ | ⟨g, h, _⟩⟩
  · exact h1 (List.mem_of_getElem? h)
  · exact h2 _ h rfl

end Verif.Gsm

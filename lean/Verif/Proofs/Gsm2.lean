import Verif.Proofs.Gsm
/-!
# Lemmas about GSM decoding and the lossy encoding modes
-/
set_option autoImplicit false

namespace Verif.Gsm
open Verif
open Verif.Spec.Gsm (alphabet extension Code Supported Spells lookAlikes Substitute)

theorem decode_esc_nil (e : Errors) : decode e [27] = .ok [0xa0] := by rw [decode.eq_def]; simp

theorem decode_esc_cons (e : Errors) (g : Nat) (r : Str) :
    decode e (27 :: g :: r) = (decode e r).map ((lookup escapeDecode g).getD 0xa0 :: ·) := by
  rw [decode.eq_def]
  simp only [beq_self_eq_true, if_true]
  cases decode e r <;> rfl

theorem decode_reg (e : Errors) {c u : Nat} (r : Str) (h : c ≠ 27) (hl : lookup regularDecode c = some u) :
    decode e (c :: r) = (decode e r).map (u :: ·) := by
  rw [decode.eq_def]
  simp only [beq_iff_eq, h, if_false, hl]
  cases decode e r <;> rfl

theorem decode_unk (e : Errors) {c : Nat} (r : Str) (h : c ≠ 27) (hl : lookup regularDecode c = none) :
    decode e (c :: r) = match e with
        | .strict => .error .unicodeError
        | .replace => (decode e r).map (63 :: ·)
        | .ignore => decode e r
        | .other => .error .unicodeError := by
  rw [decode.eq_def]
  simp only [beq_iff_eq, h, if_false, hl]
  cases e <;> cases hd : decode _ r <;> rfl

theorem escapeDecode_ext {g c : Nat} : lookup escapeDecode g = some c ↔ (c, g) ∈ extension := by
  rw [escapeDecode_iff, escapeEncode_iff]

/-- the four shapes of a septet string -/
theorem septets_cases (e : Errors) (l : Str) (h : ∀ x ∈ l, x < 128) :
    l = [] ∨ (l = [27]) ∨ (∃ c s r, Code c s ∧ l = s ++ r) ∨
      (∃ g r, l = 27 :: g :: r ∧ (∀ c, (c, g) ∉ extension) ∧ decode e l = (decode e r).map (0xa0 :: ·)) := by
  match l with
  | [] => left; rfl
  | c :: r =>
    right
    by_cases hc : c = 27
    · subst hc
      match r with
      | [] => left; rfl
      | g :: r =>
        right
        cases hl : lookup escapeDecode g with
        | some u =>
          left; exact ⟨u, [27, g], r, Or.inr ⟨g, escapeDecode_ext.1 hl, rfl⟩, rfl⟩
        | none =>
          right
          refine ⟨g, r, rfl, ?_, ?_⟩
          · intro c hc
            rw [escapeDecode_ext.2 hc] at hl; cases hl
          · rw [decode_esc_cons, hl]; rfl
    · right; left
      obtain ⟨u, hu⟩ := regularDecode_some (h c (by simp)) hc
      refine ⟨u, [c], r, Or.inl ⟨c, hc, ?_, rfl⟩, rfl⟩
      exact (regularEncode_iff.1 (regularDecode_iff.1 hu)).2

theorem decode_septets (e : Errors) : ∀ (n : Nat) (l : Str), l.length ≤ n → (∀ x ∈ l, x < 128) →
    ∃ t, decode e l = .ok t ∧ t.length ≤ l.length ∧
      (Spells t l ∨ (0xa0 ∈ t ∧ ∃ t' pre suf, Spells t' pre ∧ l = pre ++ 27 :: suf ∧
        (suf = [] ∨ ∃ g r, suf = g :: r ∧ ∀ c, (c, g) ∉ extension))) := by
  intro n
  induction n with
  | zero =>
    intro l hl _
    have : l = [] := List.length_eq_zero_iff.1 (by omega)
    subst this
    exact ⟨[], by simp [decode], by simp, Or.inl ⟨[], .nil, rfl⟩⟩
  | succ n ih =>
    intro l hl hlt
    rcases septets_cases e l hlt with rfl | rfl | ⟨c, s, r, hc, rfl⟩ | ⟨g, r, rfl, hg, hd⟩
    · exact ⟨[], by simp [decode], by simp, Or.inl ⟨[], .nil, rfl⟩⟩
    · refine ⟨[0xa0], decode_esc_nil e, by simp, Or.inr ⟨by simp, [], [], [], ⟨[], .nil, rfl⟩, rfl, Or.inl rfl⟩⟩
    · have hs : 0 < s.length := List.length_pos_iff.2 (code_ne_nil hc)
      obtain ⟨t, ht, hlen, hsp⟩ := ih r (by simp at hl; omega) (fun x hx => hlt x (by simp [hx]))
      refine ⟨c :: t, ?_, ?_, ?_⟩
      · rw [decode_code e hc, ht]; rfl
      · simp; omega
      · rcases hsp with ⟨p, hp, rfl⟩ | ⟨ha, t', pre, suf, ⟨p, hp, rfl⟩, rfl, hb⟩
        · exact Or.inl ⟨s :: p, .cons hc hp, rfl⟩
        · refine Or.inr ⟨by simp [ha], c :: t', s ++ p.flatten, suf, ⟨s :: p, .cons hc hp, rfl⟩, by simp, hb⟩
    · obtain ⟨t, ht, hlen, _⟩ := ih r (by simp at hl; omega) (fun x hx => hlt x (by simp [hx]))
      refine ⟨0xa0 :: t, by rw [hd, ht]; rfl, by simp; omega, Or.inr ⟨by simp, ?_⟩⟩
      exact ⟨[], [], g :: r, ⟨[], .nil, rfl⟩, rfl, Or.inr ⟨g, r, rfl, hg⟩⟩

theorem nbsp_not_spelled {t l : List Nat} (h : Spells t l) : 0xa0 ∉ t :=
  fun hm => nbsp_unsupported (spells_supported h _ hm)

/-- look-alike table against the model's replacement table (in septets) -/
theorem replace_spec1 : ∀ p ∈ replaceEncode, ∃ r, (p.1, r) ∈ lookAlikes ∧ Code r [p.2] := by
  have h : ∀ p ∈ replaceEncode, ∃ r ∈ lookAlikes, r.1 = p.1 ∧ p.2 ≠ 27 ∧ alphabet[p.2]? = some r.2 := by
    decide +kernel
  intro p hp
  obtain ⟨r, h1, h2, h3, h4⟩ := h p hp
  refine ⟨r.2, ?_, Or.inl ⟨p.2, h3, h4, rfl⟩⟩
  rw [← h2]; exact h1

theorem replace_spec2 : ∀ r ∈ lookAlikes, ∃ p ∈ replaceEncode, p.1 = r.1 := by decide +kernel

theorem lookAlikes_functional : ∀ p ∈ lookAlikes, ∀ q ∈ lookAlikes, p.1 = q.1 → p.2 = q.2 := by decide +kernel

theorem code_question : Code 63 [63] := Or.inl ⟨63, by decide, by decide +kernel, rfl⟩

/-- lossy replacement of one unsupported character -/
theorem encodeChar_replace {c : Nat} (h : ¬ Supported c) :
    ∃ r s, Substitute c r ∧ Code r s ∧ encodeChar true .replace c = .ok s := by
  have hr : lookup regularEncode c = none := by
    cases hl : lookup regularEncode c with
    | none => rfl
    | some i => exact absurd ⟨[i], Or.inl ⟨i, (regularEncode_iff.1 hl).1, (regularEncode_iff.1 hl).2, rfl⟩⟩ h
  have he : lookup escapeEncode c = none := by
    cases hl : lookup escapeEncode c with
    | none => rfl
    | some g => exact absurd ⟨[27, g], Or.inr ⟨g, escapeEncode_iff.1 hl, rfl⟩⟩ h
  cases hl : lookup replaceEncode c with
  | some g =>
    obtain ⟨r, h1, h2⟩ := replace_spec1 (c, g) (lookup_mem hl)
    refine ⟨r, [g], Or.inl h1, h2, ?_⟩
    simp [encodeChar, lookupU, hr, he, hl]
  | none =>
    refine ⟨63, [63], Or.inr ⟨?_, rfl⟩, code_question, ?_⟩
    · intro r' hr'
      obtain ⟨p, hp, hp'⟩ := replace_spec2 _ hr'
      apply lookup_none hl p.2
      simp at hp'
      rw [← hp']; exact hp
    · simp [encodeChar, lookupU, hr, he, hl]

theorem encodeChar_ignore {c : Nat} (h : ¬ Supported c) : encodeChar true .ignore c = .ok [] := by
  have hr : lookup regularEncode c = none := by
    cases hl : lookup regularEncode c with
    | none => rfl
    | some i => exact absurd ⟨[i], Or.inl ⟨i, (regularEncode_iff.1 hl).1, (regularEncode_iff.1 hl).2, rfl⟩⟩ h
  have he : lookup escapeEncode c = none := by
    cases hl : lookup escapeEncode c with
    | none => rfl
    | some g => exact absurd ⟨[27, g], Or.inr ⟨g, escapeEncode_iff.1 hl, rfl⟩⟩ h
  simp [encodeChar, lookupU, hr, he]

theorem encodeChar_supported {c : Nat} {s : List Nat} (e : Errors) (h : Code c s) :
    encodeChar true e c = .ok s := by
  rcases h with ⟨i, h1, h2, rfl⟩ | ⟨g, h, rfl⟩
  · simp [encodeChar, lookupU, regularEncode_iff.2 ⟨h1, h2⟩]
  · simp [encodeChar, lookupU, regular_escape_disjoint _ ((escapeEncode_perm _).2 h), escapeEncode_iff.2 h]

end Verif.Gsm

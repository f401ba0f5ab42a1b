import Verif.Proofs.Submit5

/-!
# 8-bit data in several parts

Exactly which texts can be sent in several 8-bit parts: ASCII byte strings of at most 4351 parts.
-/

set_option autoImplicit false

namespace Verif.Submit

open Verif Verif.Spec Verif.Spec.Sms Verif.Spec.Gsm Verif.Spec.Submit

theorem or_bound {n j : Nat} (hj : j < 65536) : (n <<< 8) ||| j < 1114112 ↔ n ≤ 4351 := by
  have h : ((n <<< 8) ||| j) >>> 16 = n >>> 8 := by
    rw [Nat.shiftRight_or_distrib, show j >>> 16 = 0 by rw [Nat.shiftRight_eq_div_pow]; omega, Nat.or_zero,
      Nat.shiftLeft_eq, Nat.shiftRight_eq_div_pow, Nat.shiftRight_eq_div_pow]
    omega
  rw [Nat.shiftRight_eq_div_pow, Nat.shiftRight_eq_div_pow] at h
  omega

theorem packPart_bin_inv {uni : Bool} {ref total i : Nat} {m x : Str} (h : packPart .bin8 uni ref total i m = .ok x) :
    (total <<< 8) ||| i < 1114112 ∧ (uni = false → ∀ c ∈ m, c < 128) ∧ (uni = true → m.length < 125) := by
  obtain ⟨u, hu, h⟩ := bind_ok_inv h
  have hu' : (total <<< 8) ||| i < 1114112 ∧ u.length = 3 := by
    unfold udh16 at hu
    obtain ⟨a, ha, hu⟩ := bind_ok_inv hu
    obtain ⟨b, hb, hu⟩ := bind_ok_inv hu
    obtain ⟨c, hc, hu⟩ := bind_ok_inv hu
    unfold pyUnichr at hc
    split at hc
    · rename_i hlt; exact ⟨hlt, by rw [← Except.ok.inj hu]; rfl⟩
    · cases hc
  refine ⟨hu'.1, ?_, ?_⟩
  · rintro rfl
    unfold pack8 at h
    obtain ⟨t, ht, _⟩ := bind_ok_inv h
    simp only [concatUni] at ht
    split at ht
    · cases ht
    · rename_i hc
      intro c hm
      by_contra hge
      exact hc (by simpa using ⟨c, hm, by omega⟩)
  · rintro rfl
    unfold pack8 at h
    obtain ⟨t, ht, h⟩ := bind_ok_inv h
    have ht' : t.length = 3 + m.length := by
      simp only [concatUni] at ht
      split at ht
      · cases ht
      · rw [← Except.ok.inj ht, List.length_append, hu'.2]
    obtain ⟨c, hc, h⟩ := bind_ok_inv h
    obtain ⟨y, hy, h⟩ := bind_ok_inv h
    unfold pyChr at hc
    split at hc
    · cases hc
      unfold concatStr at hy
      split at hy
      · cases hy
      · rename_i hn
        by_contra hge
        exact hn (by simp; omega)
    · cases hc

theorem packParts_bin_inv {uni : Bool} {ref total : Nat} : ∀ {parts : List Str} {k : Nat} {xs : List Str},
    packParts .bin8 uni ref total k parts = .ok xs →
    ∀ i (hi : i < parts.length), (total <<< 8) ||| (k + i + 1) < 1114112 ∧
      (uni = false → ∀ c ∈ parts[i], c < 128) ∧ (uni = true → parts[i].length < 125)
  | [], _, _, _, i, hi => by cases hi
  | m :: parts, k, xs, h, i, hi => by
    unfold packParts at h
    obtain ⟨x, hx, h⟩ := bind_ok_inv h
    obtain ⟨ys, hy, h⟩ := bind_ok_inv h
    cases i with
    | zero => exact packPart_bin_inv hx
    | succ i =>
      have := packParts_bin_inv hy i (by simpa using hi)
      rw [show k + 1 + i + 1 = k + (i + 1) + 1 by omega] at this
      exact this

/-- `to_pdu` on 8-bit text longer than one message: what success means -/
theorem toPdu_bin_inv {s s' : State} {ps : List Pdu} (hf : s.fmt = some 4) (hl : 140 < s.text.s.length)
    (h : toPdu s = .ok ps s') : s.text.uni = false ∧ (∀ c ∈ s.text.s, c < 128) ∧
      ∀ parts, Chunks 134 s.text.s parts → parts.length ≤ 4351 := by
  have he : effFmt s = 4 := by unfold effFmt; rw [hf]
  have hv : (toPdu s).val = .ok ps := by rw [h]; rfl
  rw [toPdu_val] at hv
  unfold toPduP at hv
  obtain ⟨_, _, hv⟩ := bind_ok_inv hv
  obtain ⟨_, _, hv⟩ := bind_ok_inv hv
  obtain ⟨_, _, hv⟩ := bind_ok_inv hv
  obtain ⟨_, _, hv⟩ := bind_ok_inv hv
  obtain ⟨_, _, hv⟩ := bind_ok_inv hv
  obtain ⟨_, _, hv⟩ := bind_ok_inv hv
  obtain ⟨ms, hms, hv⟩ := bind_ok_inv hv
  rw [he] at hms
  unfold bodyP at hms
  rw [if_neg (by decide), if_pos rfl, if_neg (by exact Nat.not_le.2 hl)] at hms
  obtain ⟨parts, hp1, hp2⟩ := splitLoop_ok s.text.s 134 (by omega)
  unfold splitP at hms
  rw [show Coding.bin8.mpSize = 134 from rfl, hp1] at hms
  have hinv := packParts_bin_inv hms
  have htwo := chunks_two (by omega) hp2 (by omega)
  have hfirst : ∃ h0 : 0 < parts.length, 133 ≤ parts[0].length := by
    generalize s.text.s = txt at hp2 hl
    cases hp2 with
    | nil => simp at htwo
    | cons _ parts' hne _ =>
      refine ⟨by simp, ?_⟩
      simp only [List.getElem_cons_zero, List.length_take]
      unfold partLen
      split <;> omega
  obtain ⟨h0, h133⟩ := hfirst
  have huni : s.text.uni = false := by
    cases hu : s.text.uni with
    | false => rfl
    | true => have := (hinv 0 h0).2.2 hu; omega
  refine ⟨huni, ?_, ?_⟩
  · intro c hc
    rw [← chunks_flatten hp2, List.mem_flatten] at hc
    obtain ⟨m, hm, hc⟩ := hc
    obtain ⟨i, hi, rfl⟩ := List.getElem_of_mem hm
    exact (hinv i hi).2.1 huni c hc
  · intro q hq
    rw [chunks_det hq hp2]
    exact (or_bound (by omega)).1 (hinv 0 h0).1

/-- and when it succeeds -/
theorem toPdu_bin_ok {s : State} (hr : Ready s) (hf : s.fmt = some 4) (hu : s.text.uni = false)
    (ht : ∀ c ∈ s.text.s, c < 128) (hl : 140 < s.text.s.length) :
    ∃ parts, Chunks 134 s.text.s parts ∧ (parts.length ≤ 4351 → ∃ ps s', toPdu s = .ok ps s' ∧
      ps.length = parts.length ∧ ∀ i (h : i < parts.length) (h' : i < ps.length),
        Envelope s .bin (mrOf s) parts.length i ps[i] (parts[i].length + 3) parts[i]) := by
  obtain ⟨parts, h1, h2⟩ := toPdu_bin_multi hr hf hu ht hl
  exact ⟨parts, h1, fun hn => h2 fun i hi => (or_bound (by omega)).2 hn⟩

end Verif.Submit

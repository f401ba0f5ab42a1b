import Verif.Props.Settings
import Verif.Proofs.Numeral
import Verif.Spec.Zone
/-!
# Which time zones are understood (C34)
-/
set_option autoImplicit false

namespace Verif.Props
open Verif Verif.Spec.Numeral Verif.Spec.Zone

theorem pyInt10_iff (s : Str) (n : Nat) : pyInt10 s = .ok n ↔ Number s n := by
  have h0 : pyInt10 s = match Mms.digitsVal (strip s) with | some n => .ok n | none => .error .valueError := by
    unfold pyInt10 Mms.digitsVal
    dsimp only
    split <;> rfl
  rw [h0]
  constructor
  · intro h
    cases hv : Mms.digitsVal (strip s) with
    | none => rw [hv] at h; cases h
    | some k =>
      rw [hv] at h
      injection h with h
      subst h
      obtain ⟨hd, hk⟩ := (Mms.digitsVal_iff _ _).1 hv
      obtain ⟨w₁, w₂, h1, h2, h3⟩ := Mms.strip_split s
      exact ⟨w₁, strip s, w₂, h1, h2, h3, hd, hk⟩
  · rintro ⟨w₁, ds, w₂, rfl, h1, h2, hd, rfl⟩
    rw [Mms.strip_core h1 h2 hd.1 (fun c hc => Mms.digit_space (hd.2 c (List.mem_of_mem_head? hc)))
      (fun c hc => Mms.digit_space (hd.2 c (List.mem_of_getLast? hc))), (Mms.digitsVal_iff _ _).2 ⟨hd, rfl⟩]

theorem pyInt10_err (s : Str) (h : ¬ ∃ n, Number s n) : pyInt10 s = .error .valueError := by
  cases hp : pyInt10 s with
  | ok n => exact absurd ⟨n, (pyInt10_iff s n).1 hp⟩ h
  | error e =>
    unfold pyInt10 at hp
    dsimp only at hp
    split at hp
    · exact hp.symm ▸ rfl
    · cases hp

theorem unsigned_iff (s t : Str) : Unsigned s t ↔ (s.filter (· != 43)).filter (· != 45) = t := by
  induction s generalizing t with
  | nil =>
    constructor
    · intro h; cases h; rfl
    · intro h; subst h; exact .nil
  | cons c s ih =>
    constructor
    · intro h
      cases h with
      | sign _ _ _ hc h =>
        have := (ih _).1 h
        rcases hc with rfl | rfl <;> simpa using this
      | other _ _ t h1 h2 h =>
        have := (ih _).1 h
        simp only [bne_iff_ne, ne_eq, h1, not_false_eq_true, List.filter_cons_of_pos, h2, this]
    · intro h
      by_cases h1 : c = 43
      · exact .sign c s t (.inl h1) ((ih t).2 (by simpa [h1] using h))
      · by_cases h2 : c = 45
        · exact .sign c s t (.inr h2) ((ih t).2 (by simpa [h2] using h))
        · simp only [bne_iff_ne, ne_eq, h1, not_false_eq_true, List.filter_cons_of_pos, h2] at h
          subst h
          exact .other c s _ h1 h2 ((ih _).2 rfl)

theorem number_two {s : Str} {n : Nat} (h : Number s n) : s ≠ [] := by
  obtain ⟨w₁, ds, w₂, rfl, -, -, hd, -⟩ := h
  intro he
  simp only [List.append_eq_nil_iff] at he
  exact hd.1 he.1.2

theorem written_iff (s : Str) (k : Nat) : Written s k ↔
    ∃ h m, pyInt10 (((s.filter (· != 43)).filter (· != 45)).take 2) = .ok h ∧
      pyInt10 (((s.filter (· != 43)).filter (· != 45)).drop 2) = .ok m ∧ k = m + h * 60 := by
  constructor
  · rintro ⟨hh, mm, h, m, hu, hl, hn, hm, rfl⟩
    refine ⟨h, m, ?_, ?_, by omega⟩
    · rw [(unsigned_iff _ _).1 hu, ← hl, List.take_left, pyInt10_iff]; exact hn
    · rw [(unsigned_iff _ _).1 hu, ← hl, List.drop_left, pyInt10_iff]; exact hm
  · rintro ⟨h, m, h1, h2, rfl⟩
    rw [pyInt10_iff] at h1 h2
    refine ⟨_, _, h, m, (unsigned_iff _ _).2 (List.take_append_drop 2 _).symm, ?_, h1, h2, by omega⟩
    have := number_two h2
    have h3 : ((s.filter (· != 43)).filter (· != 45)).drop 2 ≠ [] := this
    rw [List.length_take]
    have : 2 < ((s.filter (· != 43)).filter (· != 45)).length := by
      by_contra hc
      exact h3 (List.drop_eq_nil_iff.2 (by omega))
    omega

/-- the zone, with its number of minutes and its sign, as the code makes it -/
theorem zone_of {s : Str} {k : Nat} (h : Written s k) :
    fromTimezone s = timedeltaMinutes (if 43 ∈ s then (k : Int) else (k : Int) - 1440) := by
  obtain ⟨a, b, h1, h2, rfl⟩ := (written_iff s k).1 h
  unfold fromTimezone
  have hne : s.isEmpty = false := by
    cases s with
    | nil => simp [pyInt10, strip, lstrip] at h1
    | cons c s => rfl
  rw [hne]
  simp only [Bool.false_eq_true, if_false, h1, h2, bind, Except.bind]
  by_cases hp : 43 ∈ s
  · have : s.contains 43 = true := by simpa using hp
    simp only [this, if_true, if_pos hp, beq_self_eq_true]
  · have : s.contains 43 = false := by simpa using hp
    simp only [this, Bool.false_eq_true, if_false, if_neg hp]
    rw [if_neg (by decide), show (-1440 : Int) + ((b + a * 60 : Nat) : Int) = ((b + a * 60 : Nat) : Int) - 1440 by omega]

/-- C34, exactly: the empty text is no offset; a text written as a zone, its signs wherever they are, is its minutes if
there is a '+' in it, and its minutes less a day otherwise, unless that is too long a time (OverflowError); every other text is
refused with ValueError. -/
theorem C34_exact (s : Str) :
    fromTimezone [] = .ok 0 ∧
    (∀ k, Written s k → 43 ∈ s → k ≤ longest → fromTimezone s = .ok (k : Int)) ∧
    (∀ k, Written s k → 43 ∉ s → k ≤ longest + 1440 → fromTimezone s = .ok ((k : Int) - 1440)) ∧
    (∀ k, Written s k → (if 43 ∈ s then longest else longest + 1440) < k → fromTimezone s = .error .overflowError) ∧
    (s ≠ [] → (¬ ∃ k, Written s k) → fromTimezone s = .error .valueError) := by
  refine ⟨rfl, ?_, ?_, ?_, ?_⟩
  · intro k hw hp hk
    unfold longest at hk
    rw [zone_of hw, if_pos hp]
    exact if_pos ⟨by omega, by omega⟩
  · intro k hw hp hk
    unfold longest at hk
    rw [zone_of hw, if_neg hp]
    exact if_pos ⟨by omega, by omega⟩
  · intro k hw hk
    rw [zone_of hw]
    unfold longest at hk
    refine if_neg ?_
    split at hk
    · rw [if_pos (by assumption)]
      omega
    · rw [if_neg (by assumption)]
      omega
  · intro hne hw
    unfold fromTimezone
    have he : s.isEmpty = false := by
      cases s with
      | nil => exact absurd rfl hne
      | cons c s => rfl
    rw [he]
    simp only [Bool.false_eq_true, if_false]
    cases h1 : pyInt10 (((s.filter (· != 43)).filter (· != 45)).take 2) with
    | error e =>
      have : e = .valueError := by
        by_cases hn : ∃ n, Number (((s.filter (· != 43)).filter (· != 45)).take 2) n
        · obtain ⟨n, hn⟩ := hn
          rw [(pyInt10_iff _ _).2 hn] at h1
          cases h1
        · rw [pyInt10_err _ hn] at h1
          injection h1 with h1
          exact h1.symm
      subst this
      rfl
    | ok a =>
      cases h2 : pyInt10 (((s.filter (· != 43)).filter (· != 45)).drop 2) with
      | error e =>
        have : e = .valueError := by
          by_cases hn : ∃ n, Number (((s.filter (· != 43)).filter (· != 45)).drop 2) n
          · obtain ⟨n, hn⟩ := hn
            rw [(pyInt10_iff _ _).2 hn] at h2
            cases h2
          · rw [pyInt10_err _ hn] at h2
            injection h2 with h2
            exact h2.symm
        subst this
        rfl
      | ok b => exact absurd ⟨_, (written_iff s _).2 ⟨a, b, h1, h2, rfl⟩⟩ hw

/-- C34: hours alone are refused, with one digit or two. -/
theorem C34_hours (sign : Str) (h : Str) (hs : ∀ c ∈ sign, c = 43 ∨ c = 45) (hh : h.length ≤ 2) (hne : sign ++ h ≠ []) :
    fromTimezone (sign ++ h) = .error .valueError := by
  refine (C34_exact _).2.2.2.2 hne ?_
  rintro ⟨k, hk⟩
  obtain ⟨a, b, -, h2, -⟩ := (written_iff _ k).1 hk
  rw [pyInt10_iff] at h2
  refine number_two h2 (List.drop_eq_nil_iff.2 ?_)
  have e : (sign.filter (· != 43)).filter (· != 45) = [] := by
    rw [List.filter_filter, List.filter_eq_nil_iff]
    intro c hc
    rcases hs c hc with rfl | rfl <;> decide
  rw [List.filter_append, List.filter_append, e, List.nil_append]
  exact Nat.le_trans (List.length_filter_le _ _) (Nat.le_trans (List.length_filter_le _ _) hh)

example : Written (py! "+0330") 210 ∧ Written (py! "0-3 75+") 255 ∧ fromTimezone (py! "-0300") = .ok (-1260) ∧
    fromTimezone (py! "+3") = .error .valueError ∧ fromTimezone (py! "+03:30") = .error .valueError ∧
    fromTimezone (py! "+001440000000000") = .error .overflowError := by
  refine ⟨(written_iff _ _).2 ⟨3, 30, by decide +kernel, by decide +kernel, rfl⟩,
    (written_iff _ _).2 ⟨3, 75, by decide +kernel, by decide +kernel, rfl⟩, ?_⟩
  decide +kernel

end Verif.Props

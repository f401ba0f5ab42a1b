import Verif.Model.Submit
import Verif.Spec.Time
import Verif.Proofs.Hex
import Mathlib.Tactic.NormNum
/-!
# Lemmas about validity periods
-/
set_option autoImplicit false

namespace Verif
open Verif.Spec.Time

theorem relMicros_eq (n : Nat) : relMicros n = if n ≤ 143 then ((n : Int) + 1) * 300000000
    else if n ≤ 167 then 43200000000 + ((n : Int) - 143) * 1800000000
    else if n ≤ 196 then ((n : Int) - 166) * 86400000000
    else ((n : Int) - 192) * 604800000000 := by
  unfold relMicros
  norm_num

theorem relativeValidity_floor (t : TimeDelta) (h1 : 5 * 60000000 ≤ t.us) (h2 : t.us ≤ 63 * 7 * 86400000000) :
    ∃ n : Nat, n < 256 ∧ relativeValidity t = .ok (n : Int) ∧ relMicros n ≤ t.us ∧
      ∀ m < 256, relMicros m ≤ t.us → relMicros m ≤ relMicros n ∧ m ≤ n := by
  have key : ∃ n : Nat, n < 256 ∧ relativeValidity t = .ok (n : Int) ∧ relMicros n ≤ t.us ∧
      (n < 255 → t.us < relMicros (n + 1)) := by
    unfold relativeValidity
    rw [if_neg (by omega), if_neg (by omega)]
    simp only [TimeDelta.seconds, TimeDelta.days]
    by_cases h3 : t.us ≤ 12 * 3600000000
    · rw [if_pos h3]
      obtain ⟨n, hn⟩ : ∃ n : Nat, (n : Int) = t.us % 86400000000 / 1000000 / (60 * 5) - 1 :=
        ⟨(t.us % 86400000000 / 1000000 / (60 * 5) - 1).toNat, by omega⟩
      refine ⟨n, by omega, by rw [hn], ?_, ?_⟩
      · rw [relMicros_eq]; rw [if_pos (by omega)]; omega
      · intro _; rw [relMicros_eq]
        split
        · push_cast; omega
        · rw [if_pos (by omega)]; push_cast; omega
    · rw [if_neg h3]
      by_cases h4 : t.us ≤ 24 * 3600000000
      · rw [if_pos h4]
        obtain ⟨n, hn⟩ : ∃ n : Nat, (n : Int) =
            (t.us - 12 * 3600000000) % 86400000000 / 1000000 / (60 * 30) + 143 :=
          ⟨((t.us - 12 * 3600000000) % 86400000000 / 1000000 / (60 * 30) + 143).toNat, by omega⟩
        refine ⟨n, by omega, by rw [hn], ?_, ?_⟩
        · rw [relMicros_eq]
          split
          · omega
          · rw [if_pos (by omega)]; omega
        · intro _; rw [relMicros_eq]
          rw [if_neg (by omega)]
          split
          · push_cast; omega
          · rw [if_pos (by omega)]; push_cast; omega
      · rw [if_neg h4]
        by_cases h5 : t.us ≤ 30 * 86400000000
        · rw [if_pos h5]
          obtain ⟨n, hn⟩ : ∃ n : Nat, (n : Int) = t.us / 86400000000 + 166 :=
            ⟨(t.us / 86400000000 + 166).toNat, by omega⟩
          refine ⟨n, by omega, by rw [hn], ?_, ?_⟩
          · rw [relMicros_eq]
            rw [if_neg (by omega)]
            split
            · omega
            · rw [if_pos (by omega)]; omega
          · intro _; rw [relMicros_eq]
            rw [if_neg (by omega), if_neg (by omega)]
            split
            · push_cast; omega
            · push_cast; omega
        · rw [if_neg h5]
          obtain ⟨n, hn⟩ : ∃ n : Nat, (n : Int) = t.us / 86400000000 / 7 + 192 :=
            ⟨(t.us / 86400000000 / 7 + 192).toNat, by omega⟩
          refine ⟨n, by omega, by rw [hn], ?_, ?_⟩
          · rw [relMicros_eq]
            rw [if_neg (by omega), if_neg (by omega)]
            split
            · omega
            · omega
          · intro _; rw [relMicros_eq]
            rw [if_neg (by omega), if_neg (by omega), if_neg (by omega)]
            push_cast; omega
  have mono : ∀ m n : Nat, m ≤ n → relMicros m ≤ relMicros n := by
    intro m n hmn
    rw [relMicros_eq, relMicros_eq]
    split <;> split <;> (try split) <;> (try split) <;> (try split) <;> omega
  obtain ⟨n, hn, h3, h4, h5⟩ := key
  refine ⟨n, hn, h3, h4, ?_⟩
  intro m hm hle
  have : m ≤ n := by
    by_contra hc
    have := mono (n + 1) m (by omega)
    have := h5 (by omega)
    omega
  exact ⟨mono m n this, this⟩

theorem relativeValidity_err (t : TimeDelta) (h : t.us < 5 * 60000000 ∨ 63 * 7 * 86400000000 < t.us) :
    relativeValidity t = .error .valueError := by
  unfold relativeValidity
  by_cases h1 : t.us < 5 * 60000000
  · rw [if_pos h1]
  · rw [if_neg h1, if_pos (by omega)]

/-! ## Absolute -/

theorem pyInt10_dec02 {n : Nat} (h : n < 100) : pyInt10 (dec02 n) = .ok n := by
  have : ∀ n ∈ List.range 100, pyInt10 (dec02 n) = .ok n := by decide +kernel
  exact this n (List.mem_range.2 h)

theorem pyInt16_dec02 {n : Nat} (h : n < 100) :
    pyInt16 (dec02 n).reverse = .ok ((n % 10 * 16 + n / 10 : Nat) : Int) := by
  have : ∀ n ∈ List.range 100, pyInt16 (dec02 n).reverse = .ok ((n % 10 * 16 + n / 10 : Nat) : Int) := by
    decide +kernel
  exact this n (List.mem_range.2 h)

theorem timedeltaMinutes_ok {m : Int} (h1 : -999999999 ≤ m / 1440) (h2 : m / 1440 ≤ 999999999) : timedeltaMinutes m = .ok m :=
  if_pos ⟨h1, h2⟩

theorem fromTimezone_pos {h m : Nat} (hh : h < 100) (hm : m < 100) :
    fromTimezone (43 :: (dec02 h ++ dec02 m)) = .ok ((m + h * 60 : Nat) : Int) := by
  have hf : ((43 :: (dec02 h ++ dec02 m)).filter (· != 43)).filter (· != 45) = dec02 h ++ dec02 m := by
    unfold dec02
    have e1 : 48 + h / 10 ≠ 43 := by omega
    have e2 : 48 + h % 10 ≠ 43 := by omega
    have e3 : 48 + m / 10 ≠ 43 := by omega
    have e4 : 48 + m % 10 ≠ 43 := by omega
    have f1 : 48 + h / 10 ≠ 45 := by omega
    have f2 : 48 + h % 10 ≠ 45 := by omega
    have f3 : 48 + m / 10 ≠ 45 := by omega
    have f4 : 48 + m % 10 ≠ 45 := by omega
    simp [e1, e2, e3, e4, f1, f2, f3, f4]
  unfold fromTimezone
  simp only [hf, List.isEmpty_cons, Bool.false_eq_true, if_false]
  have t1 : (dec02 h ++ dec02 m).take 2 = dec02 h := by simp [dec02]
  have t2 : (dec02 h ++ dec02 m).drop 2 = dec02 m := by simp [dec02]
  simp only [t1, t2, pyInt10_dec02 hh, pyInt10_dec02 hm, bind, Except.bind]
  rw [timedeltaMinutes_ok (by omega) (by omega), timedeltaMinutes_ok (by omega) (by omega)]
  simp

theorem fromTimezone_neg {h m : Nat} (hh : h < 100) (hm : m < 100) :
    fromTimezone (45 :: (dec02 h ++ dec02 m)) = .ok (-1440 + ((m + h * 60 : Nat) : Int)) := by
  have e1 : 48 + h / 10 ≠ 43 := by omega
  have e2 : 48 + h % 10 ≠ 43 := by omega
  have e3 : 48 + m / 10 ≠ 43 := by omega
  have e4 : 48 + m % 10 ≠ 43 := by omega
  have f1 : 48 + h / 10 ≠ 45 := by omega
  have f2 : 48 + h % 10 ≠ 45 := by omega
  have f3 : 48 + m / 10 ≠ 45 := by omega
  have f4 : 48 + m % 10 ≠ 45 := by omega
  have hf : ((45 :: (dec02 h ++ dec02 m)).filter (· != 43)).filter (· != 45) = dec02 h ++ dec02 m := by
    unfold dec02
    simp [e1, e2, e3, e4, f1, f2, f3, f4]
  have hc : (45 :: (dec02 h ++ dec02 m)).contains 43 = false := by
    unfold dec02
    simp; omega
  unfold fromTimezone
  simp only [hf, hc, List.isEmpty_cons, Bool.false_eq_true, if_false]
  have t1 : (dec02 h ++ dec02 m).take 2 = dec02 h := by simp [dec02]
  have t2 : (dec02 h ++ dec02 m).drop 2 = dec02 m := by simp [dec02]
  simp only [t1, t2, pyInt10_dec02 hh, pyInt10_dec02 hm, bind, Except.bind]
  rw [timedeltaMinutes_ok (by omega) (by omega), timedeltaMinutes_ok (by omega) (by omega)]
  simp

theorem semi_dec {n : Nat} (h : n < 100) : semi (n % 10 * 16 + n / 10) = some n := by
  have : ∀ n ∈ List.range 100, semi (n % 10 * 16 + n / 10) = some n := by decide +kernel
  exact this n (List.mem_range.2 h)

theorem td_pos : ∀ n ∈ List.range 1440,
    ((⟨(n : Int) * 60000000⟩ : TimeDelta).seconds / (60 * 15)).toNat = n / 15 ∧
    ¬ (⟨(n : Int) * 60000000⟩ : TimeDelta).days < 0 := by decide +kernel

theorem td_neg : ∀ n ∈ List.range 1440,
    ((⟨(-1440 + (n : Int)) * 60000000⟩ : TimeDelta).seconds / (60 * 15)).toNat = n / 15 ∧
    (⟨(-1440 + (n : Int)) * 60000000⟩ : TimeDelta).days < 0 := by decide +kernel

/-- minutes to whole quarters, toward zero -/
def quartersOf (off : Option Int) : Int :=
  match off with
  | none => 0
  | some o => if o < 0 then -((o.natAbs / 15 : Nat) : Int) else ((o.natAbs / 15 : Nat) : Int)

theorem zone_pos' : ∀ q ∈ List.range 96, ∃ x : Nat, x < 256 ∧ pyInt16 (dec02 q).reverse = .ok (x : Int) ∧
    zone x = some (if q < 80 then (q : Int) else -((q : Int) - 80)) := by
  intro q hq
  have hq : q < 96 := List.mem_range.1 hq
  refine ⟨q % 10 * 16 + q / 10, by omega, pyInt16_dec02 (by omega), ?_⟩
  have : ∀ q ∈ List.range 96, zone (q % 10 * 16 + q / 10) = some (if q < 80 then (q : Int) else -((q : Int) - 80)) := by
    decide +kernel
  exact this q (List.mem_range.2 hq)

theorem zone_neg' : ∀ q ∈ List.range 96,
    pyInt16 (hex02 ((q / 10) <<< 4 ||| q % 10 ||| 0x80)).reverse = .ok ((q % 10 * 16 + q / 10 % 8 + 8 : Nat) : Int) ∧
    zone (q % 10 * 16 + q / 10 % 8 + 8) = some (if q < 80 then -(q : Int) else -((q : Int) - 80)) := by decide +kernel

/-- the quarters that the zone octet says: right below 20 hours, else always west and 20 hours too few -/
def zoneSent (off : Option Int) : Int :=
  match off with
  | none => 0
  | some o =>
    if o < 0 then (if o.natAbs / 15 < 80 then -((o.natAbs / 15 : Nat) : Int) else -(((o.natAbs / 15 : Nat) : Int) - 80))
    else (if o.natAbs / 15 < 80 then ((o.natAbs / 15 : Nat) : Int) else -(((o.natAbs / 15 : Nat) : Int) - 80))

theorem absoluteValidity_all (d : DateTime) (hy : 1900 ≤ d.year) (hmo : d.month < 100) (hd : d.day < 100)
    (hh : d.hour < 100) (hmi : d.minute < 100) (hs : d.second < 100)
    (ho : ∀ o, d.off = some o → o.natAbs < 1440) :
    ∃ o : List Nat, o.length = 7 ∧ (∀ x ∈ o, x < 256) ∧
      absoluteValidity d = .ok (o.map (fun x : Nat => (x : Int))) ∧
      readStamp o = some ⟨d.year % 100, d.month, d.day, d.hour, d.minute, d.second, zoneSent d.off⟩ := by
  have hzone : ∃ (x : Nat) (offset : Int), x < 256 ∧ fromTimezone (strftimeZ d.off) = .ok offset ∧
      pyInt16 (if (⟨offset * 60000000⟩ : TimeDelta).days < 0
        then hex02 (((((⟨offset * 60000000⟩ : TimeDelta).seconds / (60 * 15)).toNat / 10) <<< 4) |||
          ((⟨offset * 60000000⟩ : TimeDelta).seconds / (60 * 15)).toNat % 10 ||| 0x80)
        else dec02 ((⟨offset * 60000000⟩ : TimeDelta).seconds / (60 * 15)).toNat).reverse = .ok (x : Int) ∧
      zone x = some (zoneSent d.off) := by
    cases hoff : d.off with
    | none =>
      refine ⟨0, 0, by omega, rfl, ?_, ?_⟩
      · decide +kernel
      · decide
    | some o =>
      have ho' := ho o hoff
      by_cases hneg : o < 0
      · have hf : fromTimezone (strftimeZ (some o)) = .ok (-1440 + (o.natAbs : Int)) := by
          simp only [strftimeZ, if_pos hneg]
          rw [fromTimezone_neg (by omega) (by omega)]
          congr 2; omega
        have hq := zone_neg' (o.natAbs / 15) (List.mem_range.2 (by omega))
        obtain ⟨hsec, hday⟩ := td_neg o.natAbs (List.mem_range.2 (by omega))
        refine ⟨o.natAbs / 15 % 10 * 16 + o.natAbs / 15 / 10 % 8 + 8, _, by omega, hf, ?_, ?_⟩
        · rw [if_pos hday, hsec]
          exact hq.1
        · rw [hq.2]
          simp only [zoneSent, hneg, if_true]
      · have hf : fromTimezone (strftimeZ (some o)) = .ok (o.natAbs : Int) := by
          simp only [strftimeZ, if_neg hneg]
          rw [fromTimezone_pos (by omega) (by omega)]
          congr 1; omega
        obtain ⟨x, hx, hx1, hx2⟩ := zone_pos' (o.natAbs / 15) (List.mem_range.2 (by omega))
        obtain ⟨hsec, hday⟩ := td_pos o.natAbs (List.mem_range.2 (by omega))
        refine ⟨x, _, hx, hf, ?_, ?_⟩
        · rw [if_neg hday, hsec]
          exact hx1
        · rw [hx2]
          simp only [zoneSent, hneg, if_false]
  obtain ⟨x, offset, hx, h1, h2, h3⟩ := hzone
  refine ⟨[d.year % 100 % 10 * 16 + d.year % 100 / 10, d.month % 10 * 16 + d.month / 10,
    d.day % 10 * 16 + d.day / 10, d.hour % 10 * 16 + d.hour / 10, d.minute % 10 * 16 + d.minute / 10,
    d.second % 10 * 16 + d.second / 10, x], rfl, ?_, ?_, ?_⟩
  · intro y hy'
    simp only [List.mem_cons, List.not_mem_nil, or_false] at hy'
    rcases hy' with rfl | rfl | rfl | rfl | rfl | rfl | rfl <;> omega
  · unfold absoluteValidity
    rw [if_neg (by omega)]
    simp only [h1, bind, Except.bind]
    simp only [List.mapM_cons, List.mapM_nil, pyInt16_dec02 (show d.year % 100 < 100 by omega), pyInt16_dec02 hmo,
      pyInt16_dec02 hd, pyInt16_dec02 hh, pyInt16_dec02 hmi, pyInt16_dec02 hs, h2, bind, Except.bind, pure, Except.pure,
      List.map_cons, List.map_nil]
  · simp only [readStamp, semi_dec (show d.year % 100 < 100 by omega), semi_dec hmo, semi_dec hd, semi_dec hh,
      semi_dec hmi, semi_dec hs, h3]

theorem absoluteValidity_ok (d : DateTime) (hy : 1900 ≤ d.year) (hmo : d.month < 100) (hd : d.day < 100)
    (hh : d.hour < 100) (hmi : d.minute < 100) (hs : d.second < 100)
    (ho : ∀ o, d.off = some o → o.natAbs < 1200) :
    ∃ o : List Nat, o.length = 7 ∧ (∀ x ∈ o, x < 256) ∧
      absoluteValidity d = .ok (o.map (fun x : Nat => (x : Int))) ∧
      readStamp o = some ⟨d.year % 100, d.month, d.day, d.hour, d.minute, d.second, quartersOf d.off⟩ := by
  obtain ⟨o, h1, h2, h3, h4⟩ := absoluteValidity_all d hy hmo hd hh hmi hs (fun o h => by have := ho o h; omega)
  refine ⟨o, h1, h2, h3, ?_⟩
  rw [h4]
  congr 2
  unfold zoneSent quartersOf
  cases h : d.off with
  | none => rfl
  | some x =>
    have := ho x h
    simp only
    simp only [show x.natAbs / 15 < 80 by omega, if_true]

end Verif

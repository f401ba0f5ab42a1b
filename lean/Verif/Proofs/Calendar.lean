import Verif.Model.Calendar
import Verif.Spec.Time
import Mathlib.Tactic.Linarith
/-!
# Lemmas about the calendar: the model of `datetime` against the civil calendar of `Spec.Time`
-/
set_option autoImplicit false

namespace Verif.Cal
open Verif Verif.Spec.Time

theorem isLeap_iff (y : Nat) : isLeap y = true ↔ Leap y := by
  unfold isLeap Leap
  simp only [Bool.and_eq_true, beq_iff_eq, Bool.or_eq_true, bne_iff_ne, ne_eq, Nat.dvd_iff_mod_eq_zero]

theorem daysInMonth_eq {m : Nat} (y : Nat) (h1 : 1 ≤ m) (h2 : m ≤ 12) : daysInMonth y m = monthLength y m := by
  have : ∀ (b : Bool) (p : Prop) [Decidable p], (b = true ↔ p) → (if b = true then 29 else 28) = (if p then 29 else 28) := by
    intro b p _ h
    by_cases hp : p
    · rw [if_pos hp, if_pos (h.2 hp)]
    · rw [if_neg hp, if_neg (fun hb => hp (h.1 hb))]
  have h29 := this (isLeap y) (Leap y) (isLeap_iff y)
  have : m = 1 ∨ m = 2 ∨ m = 3 ∨ m = 4 ∨ m = 5 ∨ m = 6 ∨ m = 7 ∨ m = 8 ∨ m = 9 ∨ m = 10 ∨ m = 11 ∨ m = 12 := by omega
  rcases this with rfl | rfl | rfl | rfl | rfl | rfl | rfl | rfl | rfl | rfl | rfl | rfl <;>
    first
    | rfl
    | exact h29

theorem daysBeforeMonth_eq (y : Nat) : ∀ m, m ≤ 13 → daysBeforeMonth y m = monthStart y m
  | 0, _ => rfl
  | 1, _ => rfl
  | m + 2, h => by
    rw [daysBeforeMonth, monthStart, daysBeforeMonth_eq y (m + 1) (by omega), daysInMonth_eq y (by omega) (by omega)]

theorem cycles {a b c e : Nat} (hb : b ≤ 3) (hc : c ≤ 24) (he : e ≤ 3) :
    daysBeforeYear (400 * a + 100 * b + 4 * c + e + 1) = 146097 * a + 36524 * b + 1461 * c + 365 * e := by
  have h4 : (400 * a + 100 * b + 4 * c + e) / 4 = 100 * a + 25 * b + c := by omega
  have h100 : (400 * a + 100 * b + 4 * c + e) / 100 = 4 * a + b := by omega
  have h400 : (400 * a + 100 * b + 4 * c + e) / 400 = a := by omega
  unfold daysBeforeYear
  rw [Nat.add_sub_cancel, h4, h100, h400]
  omega

theorem cycles_leap {a b c e : Nat} (hb : b ≤ 3) (hc : c ≤ 24) (he : e ≤ 3) :
    Leap (400 * a + 100 * b + 4 * c + e + 1) ↔ e = 3 ∧ (c ≠ 24 ∨ b = 3) := by
  have h4 : 4 ∣ 400 * a + 100 * b + 4 * c + e + 1 ↔ e = 3 := by omega
  have h100 : 100 ∣ 400 * a + 100 * b + 4 * c + e + 1 ↔ e = 3 ∧ c = 24 := by omega
  have h400 : 400 ∣ 400 * a + 100 * b + 4 * c + e + 1 ↔ e = 3 ∧ c = 24 ∧ b = 3 := by omega
  unfold Leap
  rw [h4, h100, h400]
  omega

theorem cycles_of {y : Nat} (h : 1 ≤ y) : ∃ a b c e, b ≤ 3 ∧ c ≤ 24 ∧ e ≤ 3 ∧ y = 400 * a + 100 * b + 4 * c + e + 1 :=
  ⟨(y - 1) / 400, (y - 1) % 400 / 100, (y - 1) % 100 / 4, (y - 1) % 4, by omega, by omega, by omega, by omega⟩

theorem daysBeforeYear_succ {y : Nat} (h : 1 ≤ y) : daysBeforeYear (y + 1) = daysBeforeYear y + (if Leap y then 366 else 365) := by
  obtain ⟨a, b, c, e, hb, hc, he, rfl⟩ := cycles_of h
  rw [cycles hb hc he]
  simp only [cycles_leap hb hc he]
  by_cases h1 : e = 3
  · subst h1
    by_cases h2 : c = 24
    · subst h2
      by_cases h3 : b = 3
      · subst h3
        rw [show 400 * a + 100 * 3 + 4 * 24 + 3 + 1 + 1 = 400 * (a + 1) + 100 * 0 + 4 * 0 + 0 + 1 by omega,
          cycles (a := a + 1) (b := 0) (c := 0) (e := 0) (by omega) (by omega) (by omega)]
        simp; omega
      · rw [show 400 * a + 100 * b + 4 * 24 + 3 + 1 + 1 = 400 * a + 100 * (b + 1) + 4 * 0 + 0 + 1 by omega,
          cycles (a := a) (b := b + 1) (c := 0) (e := 0) (by omega) (by omega) (by omega)]
        simp [h3]; omega
    · rw [show 400 * a + 100 * b + 4 * c + 3 + 1 + 1 = 400 * a + 100 * b + 4 * (c + 1) + 0 + 1 by omega,
        cycles (a := a) (b := b) (c := c + 1) (e := 0) (by omega) (by omega) (by omega)]
      simp [h2]; omega
  · rw [show 400 * a + 100 * b + 4 * c + e + 1 + 1 = 400 * a + 100 * b + 4 * c + (e + 1) + 1 by omega,
      cycles (by omega) (by omega) (by omega)]
    simp [h1]; omega

theorem daysBeforeYear_eq : ∀ y, daysBeforeYear y = yearStart y
  | 0 => rfl
  | 1 => rfl
  | y + 2 => by
    rw [yearStart, ← daysBeforeYear_eq (y + 1)]
    exact daysBeforeYear_succ (by omega)

theorem monthLength_pos (y m : Nat) : 1 ≤ monthLength y m := by
  unfold monthLength
  split
  · split <;> decide
  · split <;> decide

theorem monthStart_13 (y : Nat) : monthStart y 13 = if Leap y then 366 else 365 := by
  simp only [monthStart, monthLength]
  by_cases h : Leap y <;> simp [h]

theorem monthStart_mono (y : Nat) {a b : Nat} (ha : 1 ≤ a) (h : a ≤ b) : monthStart y a ≤ monthStart y b := by
  induction b with
  | zero => omega
  | succ b ih =>
    by_cases he : a = b + 1
    · rw [he]
    · have := ih (by omega)
      obtain ⟨b', rfl⟩ : ∃ b', b = b' + 1 := ⟨b - 1, by omega⟩
      rw [monthStart]
      omega

theorem monthStart_lt (y : Nat) {a b : Nat} (ha : 1 ≤ a) (h : a < b) :
    monthStart y a + monthLength y a ≤ monthStart y b := by
  have := monthStart_mono y (a := a + 1) (b := b) (by omega) h
  obtain ⟨a', rfl⟩ : ∃ a', a = a' + 1 := ⟨a - 1, by omega⟩
  rw [monthStart] at this
  exact this

theorem yearStart_mono {a b : Nat} (h : a ≤ b) : yearStart a ≤ yearStart b := by
  induction b with
  | zero => have : a = 0 := by omega
            rw [this]
  | succ b ih =>
    by_cases he : a = b + 1
    · rw [he]
    · have := ih (by omega)
      cases b with
      | zero => exact this
      | succ b => rw [yearStart]; omega

theorem yearStart_lt {a b : Nat} (ha : 1 ≤ a) (h : a < b) : yearStart a + (if Leap a then 366 else 365) ≤ yearStart b := by
  have := yearStart_mono (a := a + 1) (b := b) h
  obtain ⟨a', rfl⟩ : ∃ a', a = a' + 1 := ⟨a - 1, by omega⟩
  rw [yearStart] at this
  exact this

/-- day of the year is within the year -/
theorem doy_lt {c : Civil} (h : c.Valid) :
    monthStart c.year c.month + (c.day - 1) < if Leap c.year then 366 else 365 := by
  obtain ⟨_, h2, h3, h4, h5, _⟩ := h
  have := monthStart_lt c.year (a := c.month) (b := 13) h2 (by omega)
  rw [monthStart_13] at this
  omega

/-- the day number determines the date -/
theorem date_inj {c d : Civil} (hc : c.Valid) (hd : d.Valid)
    (h : yearStart c.year + monthStart c.year c.month + (c.day - 1) =
      yearStart d.year + monthStart d.year d.month + (d.day - 1)) :
    c.year = d.year ∧ c.month = d.month ∧ c.day = d.day := by
  have hc' := doy_lt hc
  have hd' := doy_lt hd
  have hy : c.year = d.year := by
    rcases Nat.lt_trichotomy c.year d.year with hlt | he | hlt
    · have := yearStart_lt hc.1 hlt; omega
    · exact he
    · have := yearStart_lt hd.1 hlt; omega
  obtain ⟨_, h2, h3, h4, h5, _⟩ := hc
  obtain ⟨_, k2, k3, k4, k5, _⟩ := hd
  rw [hy] at h h5 
  have hm : c.month = d.month := by
    rcases Nat.lt_trichotomy c.month d.month with hlt | he | hlt
    · have := monthStart_lt d.year h2 hlt; omega
    · exact he
    · have := monthStart_lt d.year k2 hlt; omega
  rw [hm] at h
  exact ⟨hy, hm, by omega⟩

/-- civil times are determined by their position on the time line -/
theorem seconds_inj {c d : Civil} (hc : c.Valid) (hd : d.Valid) (h : c.seconds = d.seconds) : c = d := by
  have h1 := hc.2.2.2.2.2
  have h2 := hd.2.2.2.2.2
  unfold Civil.seconds at h
  have hday : yearStart c.year + monthStart c.year c.month + (c.day - 1) =
      yearStart d.year + monthStart d.year d.month + (d.day - 1) := by omega
  obtain ⟨e1, e2, e3⟩ := date_inj hc hd hday
  have : c.hour = d.hour ∧ c.minute = d.minute ∧ c.second = d.second := by omega
  cases c; cases d
  simp only at e1 e2 e3 this
  obtain ⟨e4, e5, e6⟩ := this
  subst e1 e2 e3 e4 e5 e6
  rfl

/-- the month search -/
theorem monthDay_ok (y : Nat) : ∀ (fuel m n : Nat), 1 ≤ m → m + fuel = 12 → n + monthStart y m < monthStart y 13 →
    let r := monthDay y fuel m n
    1 ≤ r.1 ∧ r.1 ≤ 12 ∧ 1 ≤ r.2 ∧ r.2 ≤ monthLength y r.1 ∧ monthStart y r.1 + r.2 = monthStart y m + n + 1
  | 0, m, n, h1, h2, h3 => by
    have : m = 12 := by omega
    subst this
    have e : monthStart y 13 = monthStart y 12 + monthLength y 12 := rfl
    simp only [monthDay]
    omega
  | fuel + 1, m, n, h1, h2, h3 => by
    simp only [monthDay]
    rw [daysInMonth_eq y h1 (by omega)]
    obtain ⟨m', rfl⟩ : ∃ m', m = m' + 1 := ⟨m - 1, by omega⟩
    have e : monthStart y (m' + 2) = monthStart y (m' + 1) + monthLength y (m' + 1) := rfl
    split
    · simp only; omega
    · have ih := monthDay_ok y fuel (m' + 2) (n - monthLength y (m' + 1)) (by omega) (by omega) (by omega)
      simp only at ih ⊢
      obtain ⟨i1, i2, i3, i4, i5⟩ := ih
      exact ⟨i1, i2, i3, i4, i5.trans (by omega)⟩

theorem ofOrdinal_ok {ord : Nat} (h : 1 ≤ ord) :
    let r := ofOrdinal ord
    1 ≤ r.1 ∧ 1 ≤ r.2.1 ∧ r.2.1 ≤ 12 ∧ 1 ≤ r.2.2 ∧ r.2.2 ≤ monthLength r.1 r.2.1 ∧
      yearStart r.1 + monthStart r.1 r.2.1 + r.2.2 = ord := by
  obtain ⟨n, rfl⟩ : ∃ n, ord = n + 1 := ⟨ord - 1, by omega⟩
  clear h
  unfold ofOrdinal
  simp only [Nat.add_sub_cancel]
  generalize ha : n / 146097 = a
  generalize hb : n % 146097 / 36524 = b
  generalize hc : n % 146097 % 36524 / 1461 = c
  generalize he : n % 146097 % 36524 % 1461 / 365 = e
  generalize hr : n % 146097 % 36524 % 1461 % 365 = r
  have hb4 : b ≤ 4 := by omega
  have hc24 : c ≤ 24 := by omega
  have he4 : e ≤ 4 := by omega
  have hr365 : r < 365 := by omega
  have hn : n = 146097 * a + 36524 * b + 1461 * c + 365 * e + r := by omega
  by_cases h1 : e = 4 ∨ b = 4
  · rw [if_pos h1]
    simp only []
    have hml : ∀ y, monthLength y 12 = 31 := fun _ => rfl
    have hms : ∀ y, monthStart y 12 + 31 = monthStart y 13 := fun _ => rfl
    have key : Leap (a * 400 + b * 100 + c * 4 + e) ∧ daysBeforeYear (a * 400 + b * 100 + c * 4 + e) + 366 = n + 1 ∧
        1 ≤ a * 400 + b * 100 + c * 4 + e := by
      rcases h1 with h1 | h1
      · subst h1
        have : r = 0 ∧ c ≤ 23 ∧ b ≤ 3 := by omega
        rw [show a * 400 + b * 100 + c * 4 + 4 = 400 * a + 100 * b + 4 * c + 3 + 1 by omega,
          cycles (by omega) (by omega) (by omega), cycles_leap (by omega) (by omega) (by omega)]
        omega
      · subst h1
        have : r = 0 ∧ c = 0 ∧ e = 0 := by omega
        rw [show a * 400 + 4 * 100 + c * 4 + e = 400 * a + 100 * 3 + 4 * 24 + 3 + 1 by omega,
          cycles (a := a) (b := 3) (c := 24) (e := 3) (by omega) (by omega) (by omega), cycles_leap (a := a) (b := 3) (c := 24) (e := 3) (by omega) (by omega) (by omega)]
        omega
    obtain ⟨k1, k2, k3⟩ := key
    refine ⟨k3, by omega, by omega, by omega, by rw [hml], ?_⟩
    rw [← daysBeforeYear_eq]
    have := hms (a * 400 + b * 100 + c * 4 + e)
    rw [monthStart_13, if_pos k1] at this
    omega
  · rw [if_neg h1]
    have hlt : r + monthStart (a * 400 + b * 100 + c * 4 + e + 1) 1 <
        monthStart (a * 400 + b * 100 + c * 4 + e + 1) 13 := by
      rw [monthStart_13]; simp only [monthStart]
      split <;> omega
    obtain ⟨q1, q2, q3, q4, q5⟩ := monthDay_ok (a * 400 + b * 100 + c * 4 + e + 1) 11 1 r (by omega) (by omega) hlt
    simp only
    refine ⟨by omega, q1, q2, q3, q4, ?_⟩
    have hy : daysBeforeYear (a * 400 + b * 100 + c * 4 + e + 1) = 146097 * a + 36524 * b + 1461 * c + 365 * e := by
      rw [show a * 400 + b * 100 + c * 4 + e + 1 = 400 * a + 100 * b + 4 * c + e + 1 by omega,
        cycles (by omega) (by omega) (by omega)]
    rw [← daysBeforeYear_eq, hy]
    simp only [monthStart] at q5
    omega

/-- the civil time of a `datetime` -/
def civil (d : DateTime) : Civil := ⟨d.year, d.month, d.day, d.hour, d.minute, d.second⟩

theorem valid_iff (d : DateTime) : DateTime.valid d = true ↔ (civil d).Valid := by
  unfold DateTime.valid Civil.Valid civil
  simp only [Bool.and_eq_true, decide_eq_true_eq]
  constructor
  · rintro ⟨⟨⟨⟨⟨⟨⟨h1, h2⟩, h3⟩, h4⟩, h5⟩, h6⟩, h7⟩, h8⟩
    rw [daysInMonth_eq _ h2 h3] at h5
    exact ⟨h1, h2, h3, h4, h5, h6, h7, h8⟩
  · rintro ⟨h1, h2, h3, h4, h5, h6, h7, h8⟩
    rw [← daysInMonth_eq _ h2 h3] at h5
    exact ⟨⟨⟨⟨⟨⟨⟨h1, h2⟩, h3⟩, h4⟩, h5⟩, h6⟩, h7⟩, h8⟩

theorem toSecs_eq {d : DateTime} (h : (civil d).Valid) : toSecs d = (civil d).seconds + 86400 := by
  obtain ⟨_, h2, h3, h4, _⟩ := h
  simp only [civil] at h2 h3 h4
  unfold toSecs Civil.seconds civil toOrdinal
  simp only
  rw [daysBeforeYear_eq, daysBeforeMonth_eq _ _ (by omega)]
  omega

theorem ofSecs_ok {s : Int} (h : 86400 ≤ s) : (civil (ofSecs s)).Valid ∧ (civil (ofSecs s)).seconds + 86400 = s := by
  obtain ⟨h1, h2, h3, h4, h5, h6⟩ := ofOrdinal_ok (ord := (s / 86400).toNat) (by omega)
  have hr : (s % 86400).toNat < 86400 := by omega
  have hs : s = ((s / 86400).toNat : Int) * 86400 + ((s % 86400).toNat : Int) := by omega
  generalize hq : (s / 86400).toNat = q at *
  generalize hr' : (s % 86400).toNat = r at *
  have hof : ofSecs s = ⟨(ofOrdinal q).1, (ofOrdinal q).2.1, (ofOrdinal q).2.2, r / 3600, r % 3600 / 60, r % 60, none⟩ := by
    unfold ofSecs; rw [hq, hr']
  rw [hof]
  refine ⟨⟨h1, h2, h3, h4, h5, ?_, ?_, ?_⟩, ?_⟩
  · simp only [civil]; omega
  · simp only [civil]; omega
  · simp only [civil]; omega
  · simp only [civil, Civil.seconds]
    omega

theorem subMinutes_ok {d : DateTime} {m : Int} (h : (civil d).Valid) (hm : m * 60 ≤ (civil d).seconds) :
    (civil (subMinutes d m)).Valid ∧ (civil (subMinutes d m)).seconds = (civil d).seconds - m * 60 := by
  unfold subMinutes
  rw [toSecs_eq h]
  obtain ⟨h1, h2⟩ := ofSecs_ok (s := (civil d).seconds + 86400 - m * 60) (by omega)
  exact ⟨h1, by omega⟩

theorem subMinutes_off (d : DateTime) (m : Int) : (subMinutes d m).off = none := by
  unfold subMinutes ofSecs
  rfl

end Verif.Cal

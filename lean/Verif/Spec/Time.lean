/-!
# Specification: validity periods and time stamps (TS 23.040 sections 9.2.3.11, 9.2.3.12) and the civil calendar
-/
set_option autoImplicit false

namespace Verif.Spec.Time

/-- duration, in microseconds, of the relative validity period octet `n` -/
def relMicros (n : Nat) : Int :=
  let minute : Int := 60000000
  let hour : Int := 60 * minute
  let day : Int := 24 * hour
  if n ≤ 143 then (n + 1) * (5 * minute)
  else if n ≤ 167 then 12 * hour + (n - 143) * (30 * minute)
  else if n ≤ 196 then (n - 166) * day
  else (n - 192) * (7 * day)

/-- civil time with a time zone in quarters of an hour -/
structure Stamp where
  yy : Nat
  month : Nat
  day : Nat
  hour : Nat
  minute : Nat
  second : Nat
  quarters : Int
  deriving DecidableEq, Repr

/-- two decimal digits as swapped semi-octets -/
def semi (x : Nat) : Option Nat := if x % 16 < 10 ∧ x / 16 < 10 then some (x % 16 * 10 + x / 16) else none

/-- the zone octet: like two decimal digits, but bit 3 is the sign -/
def zone (x : Nat) : Option Int :=
  if x / 16 < 10 then
    let v : Int := (x % 8 * 10 + x / 16 : Nat)
    some (if x / 8 % 2 = 1 then -v else v)
  else none

/-- reader of a seven octet time stamp -/
def readStamp : List Nat → Option Stamp
  | [a, b, c, d, e, f, z] =>
    match semi a, semi b, semi c, semi d, semi e, semi f, zone z with
    | some yy, some mo, some dd, some hh, some mi, some ss, some q => some ⟨yy, mo, dd, hh, mi, ss, q⟩
    | _, _, _, _, _, _, _ => none
  | _ => none

/-- Gregorian leap years -/
def Leap (y : Nat) : Prop := 4 ∣ y ∧ (¬ 100 ∣ y ∨ 400 ∣ y)

instance (y : Nat) : Decidable (Leap y) := inferInstanceAs (Decidable (_ ∧ _))

/-- number of days of month `m` of year `y` -/
def monthLength (y m : Nat) : Nat :=
  if m = 2 then (if Leap y then 29 else 28) else if m = 4 ∨ m = 6 ∨ m = 9 ∨ m = 11 then 30 else 31

/-- days from 0001-01-01 to the first day of year `y` -/
def yearStart : Nat → Nat
  | 0 => 0
  | 1 => 0
  | y + 2 => yearStart (y + 1) + (if Leap (y + 1) then 366 else 365)

/-- days from the start of year `y` to the first day of month `m` -/
def monthStart (y : Nat) : Nat → Nat
  | 0 => 0
  | 1 => 0
  | m + 2 => monthStart y (m + 1) + monthLength y (m + 1)

/-- a civil date and time -/
structure Civil where
  year : Nat
  month : Nat
  day : Nat
  hour : Nat
  minute : Nat
  second : Nat
  deriving DecidableEq, Repr

/-- it exists in the Gregorian calendar -/
def Civil.Valid (c : Civil) : Prop :=
  1 ≤ c.year ∧ 1 ≤ c.month ∧ c.month ≤ 12 ∧ 1 ≤ c.day ∧ c.day ≤ monthLength c.year c.month ∧
    c.hour < 24 ∧ c.minute < 60 ∧ c.second < 60

instance (c : Civil) : Decidable c.Valid := inferInstanceAs (Decidable (_ ∧ _))

/-- seconds since the start of year 1 -/
def Civil.seconds (c : Civil) : Int :=
  (((yearStart c.year + monthStart c.year c.month + (c.day - 1) : Nat) : Int) * 24 + c.hour) * 3600 + c.minute * 60 +
    c.second

/-- full year of a two digit year (POSIX convention of `%y`) -/
def century (yy : Nat) : Nat := if yy < 69 then 2000 + yy else 1900 + yy

/-- the civil time of a stamp, without its zone -/
def Stamp.civil (t : Stamp) : Civil := ⟨century t.yy, t.month, t.day, t.hour, t.minute, t.second⟩

/-- the civil time in the first six octets of a time stamp, if it exists -/
def readCivil : List Nat → Option Civil
  | a :: b :: c :: d :: e :: f :: _ =>
    match semi a, semi b, semi c, semi d, semi e, semi f with
    | some yy, some mo, some dd, some hh, some mi, some ss =>
      if (⟨century yy, mo, dd, hh, mi, ss⟩ : Civil).Valid then some ⟨century yy, mo, dd, hh, mi, ss⟩ else none
    | _, _, _, _, _, _ => none
  | _ => none

end Verif.Spec.Time

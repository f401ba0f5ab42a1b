import Verif.Model.Utils
/-!
# Model of the parts of Python's `datetime` used by `messaging/sms/deliver.py`

Not in /repo: CPython 2 `datetime` (proleptic Gregorian calendar) and `_strptime`.
-/
set_option autoImplicit false

namespace Verif.Cal

/-- leap year -/
def isLeap (y : Nat) : Bool := y % 4 == 0 && (y % 100 != 0 || y % 400 == 0)

/-- days in a month -/
def daysInMonth (y m : Nat) : Nat :=
  match m with
  | 1 => 31 | 2 => if isLeap y then 29 else 28 | 3 => 31 | 4 => 30 | 5 => 31 | 6 => 30
  | 7 => 31 | 8 => 31 | 9 => 30 | 10 => 31 | 11 => 30 | 12 => 31
  | _ => 0

/-- datetime.py `_days_before_year` -/
def daysBeforeYear (y : Nat) : Nat := (y - 1) * 365 + (y - 1) / 4 - (y - 1) / 100 + (y - 1) / 400

/-- datetime.py `_days_before_month` -/
def daysBeforeMonth (y : Nat) : Nat → Nat
  | 0 => 0
  | 1 => 0
  | m + 2 => daysBeforeMonth y (m + 1) + daysInMonth y (m + 1)

/-- datetime.py `_ymd2ord` (1 = 0001-01-01) -/
def toOrdinal (y m d : Nat) : Nat := daysBeforeYear y + daysBeforeMonth y m + d

/-- datetime.py `_ord2ymd`, month part: the month containing day-of-year `n` (0-based) of year `y` -/
def monthDay (y : Nat) : Nat → Nat → Nat → Nat × Nat
  | 0, m, n => (m, n + 1)
  | fuel + 1, m, n => if n < daysInMonth y m then (m, n + 1) else monthDay y fuel (m + 1) (n - daysInMonth y m)

/-- datetime.py `_ord2ymd` (400/100/4/1-year cycles) -/
def ofOrdinal (ord : Nat) : Nat × Nat × Nat :=
  let n := ord - 1
  let n400 := n / 146097
  let n := n % 146097
  let n100 := n / 36524
  let n' := n % 36524
  let n4 := n' / 1461
  let n'' := n' % 1461
  let n1 := n'' / 365
  let n''' := n'' % 365
  let year := n400 * 400 + n100 * 100 + n4 * 4 + n1 + 1
  if n1 = 4 ∨ n100 = 4 then (year - 1, 12, 31)
  else
    let (m, d) := monthDay year 11 1 n'''
    (year, m, d)

/-- valid `datetime` fields (years as reachable here) -/
def DateTime.valid (d : DateTime) : Bool :=
  1 ≤ d.year && 1 ≤ d.month && d.month ≤ 12 && 1 ≤ d.day && d.day ≤ daysInMonth d.year d.month &&
  d.hour < 24 && d.minute < 60 && d.second < 60

/-- seconds since 0001-01-01 00:00 -/
def toSecs (d : DateTime) : Int :=
  ((toOrdinal d.year d.month d.day : Nat) : Int) * 86400 + d.hour * 3600 + d.minute * 60 + d.second

/-- the naive datetime at a given number of seconds -/
def ofSecs (s : Int) : DateTime :=
  let day := (s / 86400).toNat
  let r := (s % 86400).toNat
  let (y, m, d) := ofOrdinal day
  { year := y, month := m, day := d, hour := r / 3600, minute := r % 3600 / 60, second := r % 60 }

/-- `datetime - timedelta(minutes=m)` (no OverflowError for the years reachable here) -/
def subMinutes (d : DateTime) (m : Int) : DateTime := ofSecs (toSecs d - m * 60)

/-- two decimal digit characters as a number -/
def twoDigits (a b : Nat) : Option Nat :=
  if 48 ≤ a ∧ a ≤ 57 ∧ 48 ≤ b ∧ b ≤ 57 then some ((a - 48) * 10 + (b - 48)) else none

/-- `datetime.strptime(s, '%y/%m/%d %H:%M:%S')` where the six fields are the given pairs of lower-case hex
digit characters: ValueError unless each is a decimal number in the range of its directive; seconds 60/61 and
impossible days are rejected by the `datetime`/`date` constructors, also with ValueError. -/
def strptime (f : List Nat) : Py DateTime :=
  match f with
  | [y1, y0, mo1, mo0, d1, d0, h1, h0, mi1, mi0, s1, s0] =>
    match twoDigits y1 y0, twoDigits mo1 mo0, twoDigits d1 d0, twoDigits h1 h0, twoDigits mi1 mi0,
      twoDigits s1 s0 with
    | some y, some mo, some d, some h, some mi, some s =>
      let year := if y ≤ 68 then 2000 + y else 1900 + y
      let dt : DateTime := { year := year, month := mo, day := d, hour := h, minute := mi, second := s }
      if DateTime.valid dt then .ok dt else .error .valueError
    | _, _, _, _, _, _ => .error .valueError
  | _ => .error .typeError

end Verif.Cal

import Verif.Spec.Submit
/-!
# Specification: settings that mean the same
-/
set_option autoImplicit false

namespace Verif.Spec.Same
open Verif.Spec Verif.Spec.Sms Verif.Spec.Time
open Verif.Submit (State Validity)

/-- equal but for a final newline, which numbers may have -/
def SameNumber (x y : List Nat) : Prop := ∃ w, (x = w ∨ x = w ++ [10]) ∧ (y = w ∨ y = w ++ [10])

/-- no service centre (unset or empty), or the same one -/
def SameCentre (x y : Option (List Nat)) : Prop :=
  ((x = none ∨ x = some []) ∧ (y = none ∨ y = some [])) ∨ ∃ a b, x = some a ∧ y = some b ∧ a ≠ [] ∧ b ≠ [] ∧ SameNumber a b

/-- no validity; durations between which no duration lies that can be expressed; dates that agree but for the century and
the minutes of the zone that exceed a quarter of an hour -/
def SameValidity : Validity → Validity → Prop
  | .none, .none => True
  | .relative t, .relative u => ∀ n < 256, relMicros n ≤ t.us ↔ relMicros n ≤ u.us
  | .absolute d, .absolute e => d.year % 100 = e.year % 100 ∧ d.month = e.month ∧ d.day = e.day ∧ d.hour = e.hour ∧
      d.minute = e.minute ∧ d.second = e.second ∧ Int.tdiv (d.off.getD 0) 15 = Int.tdiv (e.off.getD 0) 15
  | _, _ => False

end Verif.Spec.Same

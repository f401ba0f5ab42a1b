import Verif.Spec.Numeral
/-!
# Specification: time zones as texts

Written without the model.
-/
set_option autoImplicit false

namespace Verif.Spec.Zone
open Verif.Spec.Numeral

/-- digits with white space around them, and their value -/
def Number (s : List Nat) (n : Nat) : Prop :=
  ∃ w₁ ds w₂, s = w₁ ++ ds ++ w₂ ∧ Blank w₁ ∧ Blank w₂ ∧ Digits ds ∧ n = value ds

/-- what is left of a zone without its signs, wherever they are -/
inductive Unsigned : List Nat → List Nat → Prop
  | nil : Unsigned [] []
  | sign (c : Nat) (s t : List Nat) : c = 43 ∨ c = 45 → Unsigned s t → Unsigned (c :: s) t
  | other (c : Nat) (s t : List Nat) : c ≠ 43 → c ≠ 45 → Unsigned s t → Unsigned (c :: s) (c :: t)

/-- a zone written as hours (two characters) and minutes (the others) -/
def Written (s : List Nat) (minutes : Nat) : Prop :=
  ∃ hh mm h m, Unsigned s (hh ++ mm) ∧ hh.length = 2 ∧ Number hh h ∧ Number mm m ∧ minutes = 60 * h + m

/-- the longest time there is, in minutes: 999999999 days and almost one more -/
def longest : Nat := 1440 * 1000000000 - 1

end Verif.Spec.Zone

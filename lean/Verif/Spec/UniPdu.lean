import Verif.Model.UniPdu
/-!
# What the characters of a `unicode` PDU stand for
-/
set_option autoImplicit false

namespace Verif.Spec.UniPdu
open Verif.Deliver (CharTable)

/-- what the tables of every version of Unicode say: digits are below 10; ASCII has the digits 0 to 9, and as white space the
tabulator to the carriage return, the four separators 28 to 31, and the space -/
structure Valid (t : CharTable) : Prop where
  digit : ∀ c d, t.decimal c = some d → d < 10
  ascii : ∀ c, c < 128 → t.decimal c = if 48 ≤ c ∧ c ≤ 57 then some (c - 48) else none
  space : ∀ c, c < 128 → (t.space c = true ↔ (9 ≤ c ∧ c ≤ 13) ∨ (28 ≤ c ∧ c ≤ 32))
  apart : ∀ c, t.space c = true → t.decimal c = none

/-- the character `c` stands for the octet `x`: white space for a space, a digit of any script for the ASCII digit, anything
else in Latin-1 but NUL for itself -/
inductive Means (t : CharTable) : Nat → Nat → Prop
  | space (c : Nat) : t.space c = true → Means t c 32
  | digit (c d : Nat) : t.decimal c = some d → Means t c (48 + d)
  | self (c : Nat) : t.space c = false → t.decimal c = none → 0 < c → c < 256 → Means t c c

end Verif.Spec.UniPdu

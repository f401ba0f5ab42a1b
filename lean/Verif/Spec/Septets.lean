import Verif.Model.Py
/-!
# Specification: bit packing of septets (TS 23.038 section 6.1.2) by arithmetic

A sequence of symbols in base `b` denotes a number, least significant symbol first.  Packing septets in octets keeps
the number and changes the base.
-/
set_option autoImplicit false

namespace Verif.Spec

/-- number denoted by symbols in base `b`, least significant first -/
def leVal (b : Nat) : List Nat → Nat
  | [] => 0
  | x :: xs => x + b * leVal b xs

/-- the first `k` base-`b` digits of `v`, least significant first -/
def digits (b : Nat) : Nat → Nat → List Nat
  | 0, _ => []
  | k + 1, v => v % b :: digits b k (v / b)

/-- `o` is the packing of the septets `s`: as many octets as needed for `7 * n` bits, denoting the same number
(so the unused high bits of the last octet are zero). -/
def PackedSeptets (s o : List Nat) : Prop :=
  o.length = (7 * s.length + 7) / 8 ∧ (∀ x ∈ o, x < 256) ∧ leVal 256 o = leVal 128 s

/-- `o` is the user data field with header octets `udh` followed by fill bits (zero) up to a septet boundary and the
septets `s` (TS 23.040 section 9.2.3.24). -/
def PackedWithHeader (udh s o : List Nat) : Prop :=
  let h := (8 * udh.length + 6) / 7
  o.length = (7 * (h + s.length) + 7) / 8 ∧ (∀ x ∈ o, x < 256) ∧
    leVal 256 o = leVal 256 udh + 128 ^ h * leVal 128 s

/-- two lower-case hexadecimal digits per octet -/
def hexLower (o : List Nat) : List Nat :=
  o.flatMap fun x => [(py! "0123456789abcdef")[x / 16 % 16]!, (py! "0123456789abcdef")[x % 16]!]

/-- two upper-case hexadecimal digits per octet -/
def hexUpper (o : List Nat) : List Nat :=
  o.flatMap fun x => [(py! "0123456789ABCDEF")[x / 16 % 16]!, (py! "0123456789ABCDEF")[x % 16]!]

end Verif.Spec

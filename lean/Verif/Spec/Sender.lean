import Verif.Spec.Deliver
/-!
# Specification: what an address field shows (3GPP TS 23.040 section 9.1.2.5)
-/
set_option autoImplicit false

namespace Verif.Spec.Sms
open Verif.Spec

/-- character of a semi-octet: decimal digits, then `*`, `#`, `a`, `b`, `c` -/
def semiChar (d : Nat) : Option Nat := (py! "0123456789*#abc")[d]?

/-- the octets `oa` are a numeric address shown as `s` -/
def NumericAddress (oa s : List Nat) : Prop :=
  ∃ a cs, readAddress oa = some (a, []) ∧ a.toa / 16 % 8 ≠ 5 ∧ a.digits.mapM semiChar = some cs ∧
    s = (if a.toa / 16 % 8 = 1 then [43] else []) ++ cs

/-- the octets `oa` are an alphanumeric address with the text `s`, which takes the septets `g`: the length octet counts
the semi-octets that are needed -/
def AlphanumericAddress (oa s g : List Nat) : Prop :=
  ∃ toa o, oa = (7 * g.length + 3) / 4 :: toa :: o ∧ toa / 16 % 8 = 5 ∧ Gsm.Spells s g ∧ PackedSeptets g o

/-- the sender of a message is shown as `s` -/
def ShownAddress (oa s : List Nat) : Prop := NumericAddress oa s ∨ ∃ g, AlphanumericAddress oa s g

/-! ## User data -/

/-- the header octets `hdr` consist of the elements `els`; the header indicator of the first octet `fo` is set exactly
if there is a header -/
def HeaderOf (fo : Nat) (els : List Element) (hdr : List Nat) : Prop :=
  (fo / 64 % 2 = 1 ∧ hdr = (elementOctets els).length :: elementOctets els) ∨ (fo / 64 % 2 = 0 ∧ els = [] ∧ hdr = [])

end Verif.Spec.Sms

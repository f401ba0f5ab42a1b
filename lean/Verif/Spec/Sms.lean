import Verif.Spec.Septets
import Verif.Spec.Gsm
/-!
# Specification: SMS-SUBMIT / SMS-DELIVER TPDUs (3GPP TS 23.040 section 9)

An independent octet-level reader of SMS-SUBMIT.  Shares no definitions with the model.
-/
set_option autoImplicit false

namespace Verif.Spec.Sms
open Verif.Spec

/-- A phone number as accepted by the API: optional '+', 3 to 20 ASCII digits, and (because of `$`) an optional final
newline. -/
def ValidNumber (x : List Nat) : Prop :=
  ∃ (plus nl : Bool) (ds : List Nat), x = (if plus then [43] else []) ++ ds ++ (if nl then [10] else []) ∧
    3 ≤ ds.length ∧ ds.length ≤ 20 ∧ ∀ d ∈ ds, 48 ≤ d ∧ d ≤ 57

/-- type-of-address octet and digit values of an address field -/
structure Address where
  toa : Nat
  digits : List Nat
  deriving DecidableEq, Repr

/-- the phone number `x` denotes the address `a`: international (0x91) iff it has a '+', otherwise unknown (0x81) -/
def Denotes (x : List Nat) (a : Address) : Prop :=
  ∃ (plus nl : Bool) (ds : List Nat), x = (if plus then [43] else []) ++ ds ++ (if nl then [10] else []) ∧
    (∀ d ∈ ds, 48 ≤ d ∧ d ≤ 57) ∧
    a.toa = (if plus then 0x91 else 0x81) ∧ a.digits = ds.map (· - 48)

/-- what a receiver shows for an address: '+' for international numbers, then the digits -/
def display (a : Address) : List Nat :=
  (if a.toa / 16 % 8 = 1 then [43] else []) ++ a.digits.map (· + 48)

/-- semi-octets, low nibble first -/
def nibbles (o : List Nat) : List Nat := o.flatMap fun x => [x % 16, x / 16]

/-- semi-octet representation of digits, filled with 0xF -/
def bcd : List Nat → List Nat
  | [] => []
  | [d] => [d + 16 * 15]
  | d :: e :: r => (d + 16 * e) :: bcd r

/-- TP-DA / TP-OA: number of digits, type of address, digits; the unused half octet after an odd number of digits is
0xF -/
def readAddress : List Nat → Option (Address × List Nat)
  | n :: toa :: r =>
    let k := (n + 1) / 2
    if r.length < k then none
    else if (nibbles (r.take k)).drop n = (if n % 2 = 1 then [15] else []) then
      some (⟨toa, (nibbles (r.take k)).take n⟩, r.drop k)
    else none
  | _ => none

/-- remove the filler after an odd number of digits -/
def dropFiller (nb : List Nat) : List Nat := if nb.getLast? = some 15 then nb.dropLast else nb

/-- service centre address (not part of the TPDU): length in octets including the type, then like an address, filled
with 0xF -/
def readSmsc : List Nat → Option (Option Address × List Nat)
  | 0 :: r => some (none, r)
  | n :: toa :: r =>
    if r.length < n - 1 then none
    else some (some ⟨toa, dropFiller (nibbles (r.take (n - 1)))⟩, r.drop (n - 1))
  | _ => none

/-- SMS-SUBMIT fields -/
structure Submit where
  mti : Nat
  rd : Bool
  vpf : Nat
  srr : Bool
  udhi : Bool
  rp : Bool
  mr : Nat
  da : Address
  pid : Nat
  dcs : Nat
  vp : List Nat
  udl : Nat
  ud : List Nat
  deriving DecidableEq, Repr

/-- size of TP-VP for a validity period format -/
def vpSize (vpf : Nat) : Nat := if vpf = 0 then 0 else if vpf = 2 then 1 else 7

/-- SMS-SUBMIT reader (section 9.2.2.2) -/
def readSubmit : List Nat → Option Submit
  | fo :: mr :: r =>
    match readAddress r with
    | some (da, pid :: dcs :: r) =>
      let vpf := fo / 8 % 4
      let k := vpSize vpf
      if r.length < k then none
      else match r.drop k with
        | udl :: ud =>
          some { mti := fo % 4, rd := fo / 4 % 2 = 1, vpf := vpf, srr := fo / 32 % 2 = 1,
                 udhi := fo / 64 % 2 = 1, rp := fo / 128 % 2 = 1, mr := mr, da := da, pid := pid, dcs := dcs,
                 vp := r.take k, udl := udl, ud := ud }
        | [] => none
    | _ => none
  | _ => none

/-- octets of a UCS2 text (big endian) -/
def ucs2Octets (t : List Nat) : List Nat := t.flatMap fun c => [c / 256, c % 256]

/-- the concatenation information element with an 8-bit reference, as a whole user data header -/
def concatUdh (ref cnt seq : Nat) : List Nat := [5, 0, 3, ref, cnt, seq]

/-- how user data represents the payload -/
inductive Alphabet
  | gsm | bin | ucs2
  deriving DecidableEq, Repr

/-- the coding bits of TP-DCS, which are also the `fmt` values of the API -/
def Alphabet.code : Alphabet → Nat
  | .gsm => 0
  | .bin => 4
  | .ucs2 => 8

/-- The user data `ud` with length octet `udl` carries the header octets `hdr` (empty: no header) and the payload `t`
(section 9.2.3.16 and 9.2.3.24): packed septets spelling `t` and a length in septets, or octets and a length in
octets. -/
def Carries (c : Alphabet) (hdr t : List Nat) (udl : Nat) (ud : List Nat) : Prop :=
  match c with
  | .gsm => ∃ g, Gsm.Spells t g ∧ PackedWithHeader hdr g ud ∧ udl = (8 * hdr.length + 6) / 7 + g.length
  | .bin => ud = hdr ++ t ∧ udl = ud.length
  | .ucs2 => (∀ c ∈ t, c < 65536) ∧ ud = hdr ++ ucs2Octets t ∧ udl = ud.length

end Verif.Spec.Sms

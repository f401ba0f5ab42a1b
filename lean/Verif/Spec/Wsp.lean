/-!
# The encodings of WAP-230 (WSP) and WAP-209 (MMS encapsulation), as a conformant sender produces them

Independent of the library: plain functions from values to octet strings, following the grammars of WAP-230
section 8.4 and 8.5 and WAP-209 section 7.
-/
set_option autoImplicit false

namespace Verif.Spec.Wsp

/-- the value of an octet string, most significant octet first -/
def beVal (l : List Nat) : Nat := l.foldl (fun a b => 256 * a + b) 0

/-- the value of a uintvar octet string: seven bits per octet, most significant first -/
def uvVal (l : List Nat) : Nat := l.foldl (fun a b => 128 * a + b % 128) 0

/-- WAP-230 8.1.2: an octet string is a uintvar if all octets but the last have the continue bit -/
inductive IsUintvar : List Nat → Prop
  | last (b : Nat) (h : b < 128) : IsUintvar [b]
  | more (b : Nat) (l : List Nat) (h1 : 128 ≤ b) (h2 : b < 256) (hl : IsUintvar l) : IsUintvar (b :: l)

/-- octets with the continue bit for the number `n` (nothing for 0) -/
def uvHigh (n : Nat) : List Nat := if _h : n = 0 then [] else uvHigh (n / 128) ++ [128 + n % 128]
termination_by n
decreasing_by omega

/-- WAP-230 8.1.2: the shortest uintvar for `n` -/
def uintvar (n : Nat) : List Nat := uvHigh (n / 128) ++ [n % 128]

/-- WAP-230 8.4.2.2 Value-length -/
def valueLength (n : Nat) : List Nat := if n ≤ 30 then [n] else 31 :: uintvar n

/-- WAP-230 8.4.2.1 Text-string: a Quote before a first character from 128 on (the Quote itself must be quoted too) -/
def text (s : List Nat) : List Nat :=
  (match s with
   | [] => []
   | c :: _ => if c ≥ 127 then [127] else []) ++ s ++ [0]

/-- WAP-230 8.4.2.1 Short-integer -/
def shortInt (n : Nat) : List Nat := [128 + n]

/-- WAP-230 8.4.2.1 Long-integer of the given octets -/
def longInt (octets : List Nat) : List Nat := octets.length :: octets

/-- characters allowed in a WSP token (RFC 2616: no controls, no separators) -/
def isTokenChar (c : Nat) : Bool :=
  33 ≤ c && c < 127 &&
    !([40, 41, 60, 62, 64, 44, 59, 58, 92, 34, 47, 91, 93, 63, 61, 123, 125] : List Nat).contains c

/-- a non-empty token -/
def IsToken (s : List Nat) : Prop := s ≠ [] ∧ ∀ c ∈ s, isTokenChar c = true

/-- the encoding version in which WAP-230 table 38 introduced the parameter with assigned number `n` -/
def paramVersion (n : Nat) : Nat := if n ≤ 0x08 then 1 else if n ≤ 0x0b then 2 else if n ≤ 0x10 then 3 else 4

/-- the encoding version in which WAP-230 table 39 introduced the header with assigned number `n` -/
def headerVersion (n : Nat) : Nat := if n ≤ 0x2e then 1 else if n ≤ 0x37 then 2 else if n ≤ 0x43 then 3 else 4

/-- "1.<v>" -/
def version1 (v : Nat) : List Nat := [49, 46, 48 + v]

end Verif.Spec.Wsp

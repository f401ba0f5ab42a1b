import Verif.Model.Py
import Mathlib.Data.List.Forall2
/-!
# Specification: GSM 03.38 / 3GPP TS 23.038 default alphabet and extension table

Written from the standard's table (section 6.2.1), as the sequence of characters in code order; shares nothing
with the model's tables.
-/
set_option autoImplicit false

namespace Verif.Spec.Gsm

/-- The 128 positions of the default alphabet in order.  Position 27 is the escape and denotes no character. -/
def alphabet : List Nat :=
  py! "@£$¥èéùìòÇ\nØø\rÅåΔ_ΦΓΛΩΠΨΣΘΞ\x1bÆæßÉ !\"#¤%&'()*+,-./0123456789:;<=>?¡ABCDEFGHIJKLMNOPQRSTUVWXYZÄÖÑÜ§¿abcdefghijklmnopqrstuvwxyzäöñüà"

/-- The extension table: character and its code after the escape. -/
def extension : List (Nat × Nat) :=
  [('\x0c'.toNat, 0x0a), ('^'.toNat, 0x14), ('{'.toNat, 0x28), ('}'.toNat, 0x29), ('\\'.toNat, 0x2f),
   ('['.toNat, 0x3c), ('~'.toNat, 0x3d), (']'.toNat, 0x3e), ('|'.toNat, 0x40), ('€'.toNat, 0x65)]

/-- `s` is the septet sequence TS 23.038 assigns to character `c`. -/
def Code (c : Nat) (s : List Nat) : Prop :=
  (∃ i, i ≠ 27 ∧ alphabet[i]? = some c ∧ s = [i]) ∨ (∃ g, (c, g) ∈ extension ∧ s = [27, g])

/-- `c` can be written in the GSM alphabet. -/
def Supported (c : Nat) : Prop := ∃ s, Code c s

/-- Septet sequence `l` spells text `t`: it is the concatenation of codes of the characters of `t`. -/
def Spells (t : List Nat) (l : List Nat) : Prop :=
  ∃ parts, List.Forall₂ Code t parts ∧ l = parts.flatten

/-- Look-alikes used by the lossy mode: lower-case c cedilla and the Greek capitals shaped like Latin ones. -/
def lookAlikes : List (Nat × Nat) :=
  [('ç'.toNat, 'Ç'.toNat), ('Α'.toNat, 'A'.toNat), ('Β'.toNat, 'B'.toNat), ('Ε'.toNat, 'E'.toNat),
   ('Η'.toNat, 'H'.toNat), ('Ι'.toNat, 'I'.toNat), ('Κ'.toNat, 'K'.toNat), ('Μ'.toNat, 'M'.toNat),
   ('Ν'.toNat, 'N'.toNat), ('Ο'.toNat, 'O'.toNat), ('Ρ'.toNat, 'P'.toNat), ('Τ'.toNat, 'T'.toNat),
   ('Χ'.toNat, 'X'.toNat), ('Υ'.toNat, 'Y'.toNat), ('Ζ'.toNat, 'Z'.toNat)]

/-- `r` is what the lossy mode shows instead of the unsupported character `c`. -/
def Substitute (c r : Nat) : Prop :=
  (c, r) ∈ lookAlikes ∨ ((∀ r', (c, r') ∉ lookAlikes) ∧ r = '?'.toNat)

/-- octets that do not end within an escape: each escape is followed by an octet -/
inductive Whole : List Nat → Prop
  | nil : Whole []
  | plain (x : Nat) (l : List Nat) (h : x ≠ 27) (hl : Whole l) : Whole (x :: l)
  | escape (x : Nat) (l : List Nat) (hl : Whole l) : Whole (27 :: x :: l)

end Verif.Spec.Gsm

import Verif.Model.Py
/-!
# Unicode characters and their UTF-16 units (RFC 2781)
-/
set_option autoImplicit false

namespace Verif.Spec.Utf16

/-- `Spells chars units`: the text `chars` in UTF-16 -/
inductive Spells : List Nat → List Nat → Prop
  | nil : Spells [] []
  | one (c : Nat) (cs us : List Nat) : c < 0xD800 ∨ 0xE000 ≤ c ∧ c < 0x10000 → Spells cs us → Spells (c :: cs) (c :: us)
  | two (x : Nat) (cs us : List Nat) : x < 0x100000 → Spells cs us →
      Spells ((0x10000 + x) :: cs) ((0xD800 + x / 1024) :: (0xDC00 + x % 1024) :: us)

/-- a Unicode character (not a surrogate) -/
def Char (c : Nat) : Prop := c < 0xD800 ∨ 0xE000 ≤ c ∧ c < 0x110000

/-- the first half of a character above U+FFFF -/
def High (u : Nat) : Prop := 0xD800 ≤ u ∧ u < 0xDC00

/-- read alone, the units are whole characters -/
def Whole (units : List Nat) : Prop := ∃ chars, Spells chars units

end Verif.Spec.Utf16

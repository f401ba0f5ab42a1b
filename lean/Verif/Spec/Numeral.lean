/-!
# Specification: numbers and version numbers as texts

Written without the model: characters are their codes.
-/
set_option autoImplicit false

namespace Verif.Spec.Numeral

/-- space, tab, line feed, vertical tab, form feed, carriage return -/
def blanks : List Nat := [32, 9, 10, 11, 12, 13]

def Blank (w : List Nat) : Prop := ∀ c ∈ w, c ∈ blanks

/-- one digit or more -/
def Digits (ds : List Nat) : Prop := ds ≠ [] ∧ ∀ c ∈ ds, 48 ≤ c ∧ c ≤ 57

/-- the value of digits, each times a power of ten -/
def value : List Nat → Nat
  | [] => 0
  | c :: r => (c - 48) * 10 ^ r.length + value r

/-- a text that stands for a number: digits, maybe after a sign, with white space around; white space may also follow the
sign -/
def Numeral (s : List Nat) (n : Int) : Prop :=
  ∃ w₁ sign w₂ ds w₃, s = w₁ ++ sign ++ w₂ ++ ds ++ w₃ ∧ Blank w₁ ∧ Blank w₂ ∧ Blank w₃ ∧ Digits ds ∧
    ((sign = [] ∧ w₂ = [] ∧ n = value ds) ∨ (sign = [43] ∧ n = value ds) ∨ (sign = [45] ∧ n = -(value ds : Int)))

/-- the major and minor version that fit into the short form: a number from 1 to 7 alone (the minor version is then 15), or
followed by a dot and a number from 0 to 14 -/
inductive Short (s : List Nat) : Nat → Nat → Prop
  | alone (a : Nat) : Numeral s a → 1 ≤ a → a ≤ 7 → Short s a 15
  | dotted (x y : List Nat) (a b : Nat) : s = x ++ 46 :: y → Numeral x a → Numeral y b → 1 ≤ a → a ≤ 7 → b ≤ 14 →
      Short s a b

/-- the short form is written as everybody writes it: `a.b` without anything else -/
def Plain (s : List Nat) : Prop :=
  ∃ a b, 1 ≤ a ∧ a ≤ 7 ∧ b ≤ 14 ∧ s = [48 + a, 46] ++ (if b < 10 then [48 + b] else [49, 38 + b])

end Verif.Spec.Numeral

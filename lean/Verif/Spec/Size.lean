import Verif.Model.WspTables
import Verif.Spec.Weight
import Mathlib.Data.Nat.Log
/-!
# How many octets a header needs when it is sent (C119)

Texts need an octet for each character and one more, numbers at most ten and their digits.
-/
set_option autoImplicit false

namespace Verif.Spec.Size
open Verif Verif.Mms

/-- what a length of this size takes, in groups of seven bits -/
def len (n : Nat) : Nat := Nat.log 128 n + 1

def val : Val → Nat
  | .str s => s.length + 1
  | .uni s => s.length + 1
  | .int n => Weight.digits n + 9
  | _ => 5

/-- names and values of parameters -/
def params (d : Dict Val) : Nat := (d.map fun e => e.1.length + 1 + val e.2).sum

def value : HVal → Nat
  | .v x => val x
  | .tup n x => n.length + 1 + val x
  | .ct m p => m.length + 1 + params p

/-- a header: name, value, and in front of the value its length and one octet -/
def header (n : Str) (v : HVal) : Nat := n.length + 1 + value v + len (value v + 1) + 2

def headers (d : Dict HVal) : Nat := (d.map fun e => header e.1 e.2).sum

/-- what a part with `n` octets of data takes besides them: its headers, their length and the length of the data -/
def around (d : Dict HVal) (n : Nat) : Nat := headers d + len (headers d) + len n

/-- a string, an integer, a truth value or None -/
def Plain : Val → Prop
  | .flt _ _ => False
  | .dt _ => False
  | _ => True

/-- a plain value, or a content type whose parameters are -/
def Ordinary (n : Str) : HVal → Prop
  | .v x => Plain x
  | .tup _ _ => False
  | .ct _ p => n = py! "Content-Type" ∧ ∀ e ∈ p, Plain e.2

end Verif.Spec.Size

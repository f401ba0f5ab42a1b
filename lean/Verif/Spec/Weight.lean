import Verif.Model.WspTables
import Mathlib.Data.Nat.Log
/-!
# How much a decoded header holds (C118)

Strings weigh their length, numbers the number of their decimal digits, everything else 1.
-/
set_option autoImplicit false

namespace Verif.Spec.Weight
open Verif Verif.Mms

/-- the number of decimal digits -/
def digits (n : Int) : Nat := Nat.log 10 n.natAbs + 1

def val : Val → Nat
  | .str s => s.length
  | .uni s => s.length
  | .int n => digits n
  | _ => 1

/-- names and values of parameters -/
def params (d : Dict Val) : Nat := (d.map fun e => e.1.length + val e.2).sum

def value : HVal → Nat
  | .v x => val x
  | .tup n x => n.length + val x
  | .ct m p => m.length + params p

/-- names and values of headers -/
def headers (d : Dict HVal) : Nat := (d.map fun e => e.1.length + value e.2).sum

end Verif.Spec.Weight

import Verif.Spec.ParamRefusal
import Verif.Spec.Assigned
import Verif.Spec.Slides
/-!
# Specification: parameters in the four versions of the encoding

What `encode_parameter` answers: octets (characters of texts as they are) or an exception.  Only the Python value types and
the exception classes are taken from the model.
-/
set_option autoImplicit false

namespace Verif.Spec.Versions
open Verif (PyErr Py)
open Verif.Mms (Val)
open Verif.Spec.Assigned Verif.Spec.Refusal

/-- number and form of a parameter in minor version `v`: of several with the same name, the one with the highest number -/
def entry (v : Nat) (name : List Nat) : Option (Nat × List Nat) :=
  ((parameters.filter fun e => e.2.1 = name ∧ e.2.2.2 ≤ v).getLast?).map fun e => (e.1, e.2.2.1)

/-- a text, closed by NUL -/
def closed (s : List Nat) : List Int := s.map Int.ofNat ++ [0]

def textAnswer : Val → Py (List Int)
  | .str s | .uni s => .ok (closed s)
  | _ => .error .typeError

/-- the octets of a number, the lowest first -/
def lowFirst (n : Nat) : List Int := if n = 0 then [] else ((n % 256 : Nat) : Int) :: lowFirst (n / 256)
termination_by n

/-- a number: one octet up to 127, else the number of octets and the octets; nothing is left of negative ones -/
def wholeOctets (n : Int) : List Int :=
  if 0 ≤ n ∧ n ≤ 127 then [128 + n] else ((lowFirst n.toNat).length : Int) :: lowFirst n.toNat

/-- machine integers -/
def machine (n : Int) : Prop := -2 ^ 63 ≤ n ∧ n < 2 ^ 63

instance (n : Int) : Decidable (machine n) := inferInstanceAs (Decidable (_ ∧ _))

/-- the form Integer-value -/
def wholeAnswer : Val → Py (List Int)
  | .bool b => .ok [if b then 129 else 128]
  | .int n => if machine n then .ok (wholeOctets n) else .error .encodeError
  | _ => .error .encodeError

/-- the form Short-integer -/
def shortAnswer (x : Val) : Py (List Int) :=
  match x, paddingRefusal x with
  | _, some e => .error e
  | .bool b, none => .ok [if b then 129 else 128]
  | .int n, none => .ok [128 + n]
  | _, none => .error .typeError

/-- the form Constrained-encoding, except for numbers with a fraction and dates -/
def kindAnswer (x : Val) : Py (List Int) :=
  match x, kindRefusal x with
  | _, some e => .error e
  | .bool b, none => .ok [if b then 129 else 128]
  | .int n, none => if machine n then .ok [128 + n] else .ok (closed (Spec.Slides.decimal n))
  | .str s, none | .uni s, none => .ok (closed s)
  | _, none => .ok (closed (py! "None"))

/-- the value of a parameter that has no number: a machine integer or a text -/
def freeAnswer (x : Val) : Py (List Int) :=
  match wholeAnswer x with
  | .ok l => .ok l
  | .error _ => textAnswer x

/-- forms the library cannot write -/
def unwritten : List (List Nat) := [py! "Q-value", py! "Well-known-charset", py! "Field-name", py! "Delta-seconds-value", py! "Date-value"]

/-- the value of a parameter of this form; `level` is the answer for the form Version-value -/
def valueAnswer (level : Py (List Int)) (form : List Nat) (x : Val) : Py (List Int) :=
  if form ∈ unwritten then .error .attributeError
  else if form = py! "Text-string" ∨ form = py! "Text-value" then textAnswer x
  else if form = py! "Integer-value" then wholeAnswer x
  else if form = py! "Short-integer" then shortAnswer x
  else if form = py! "No-value" then .ok [0]
  else if form = py! "Constrained-encoding" then kindAnswer x
  else level

/-- the whole parameter in minor version `v` -/
def paramAnswer (level : Py (List Int)) (v : Nat) (name : List Nat) (x : Val) : Py (List Int) :=
  match entry v name with
  | some (k, form) => (valueAnswer level form x).map fun b => (128 + (k : Int)) :: b
  | none => if name.any isSeparator then .error .encodeError else (freeAnswer x).map fun b => closed name ++ b

end Verif.Spec.Versions

import Verif.Spec.Refusal
/-!
# Specification: which content types cannot be sent, and with which exception

Only the Python value types and the exception classes are taken from the model.
-/
set_option autoImplicit false

namespace Verif.Spec.Refusal
open Verif (PyErr)
open Verif.Mms (Val Dict)

/-- the parameters with an assigned number (up to version 1.2) whose values are texts -/
def textParams : List (List Nat) := [py! "Name", py! "Filename", py! "Start", py! "Start-info"]

/-- those whose values the library cannot write -/
def closedParams : List (List Nat) := [py! "Q", py! "Charset", py! "Differences"]

/-- all parameters with an assigned number -/
def numbered : List (List Nat) := closedParams ++ textParams ++ [py! "Level", py! "Type", py! "Padding"]

/-- a text -/
def needsText : Val → Option PyErr
  | .str _ | .uni _ => none
  | _ => some .typeError

/-- the value of Padding: a number from 0 to 127; strings and None are not numbers, and numbers with a fraction are
refused after all -/
def paddingRefusal : Val → Option PyErr
  | .bool _ => none
  | .int i => if 0 ≤ i ∧ i ≤ 127 then none else some .encodeError
  | .flt num den => if num < 0 ∨ num > 127 * den then some .encodeError else some .typeError
  | _ => some .typeError

/-- the beginning of a media type: something that is no control character; `odd` for these -/
def startRefusal (odd : PyErr) : List Nat → Option PyErr
  | [] => some .indexError
  | c :: _ => if c < 32 ∨ c = 127 then some odd else none

/-- the value of Type: a number from 0 to 127 or a text; None and numbers that are no machine integers are taken for texts,
and so are numbers with a fraction and dates -/
def kindRefusal : Val → Option PyErr
  | .bool _ | .none => none
  | .int i => if (0 ≤ i ∧ i ≤ 127) ∨ ¬ (-2 ^ 63 ≤ i ∧ i < 2 ^ 63) then none else some .encodeError
  | .str s => startRefusal .encodeError s
  | .uni s => startRefusal (if ∃ x ∈ s, 127 < x then .unicodeError else .encodeError) s
  | _ => none

/-- the value of another parameter: a machine integer or a text -/
def otherRefusal : Val → Option PyErr
  | .bool _ => none
  | .int i => if -2 ^ 63 ≤ i ∧ i < 2 ^ 63 then none else some .typeError
  | v => needsText v

/-- the exception a parameter raises on its own, if any -/
def paramRefusal (n : List Nat) (v : Val) : Option PyErr :=
  if n ∈ closedParams then some .attributeError
  else if n ∈ textParams then needsText v
  else if n = py! "Level" then (match v with | .str _ => none | _ => some .typeError)
  else if n = py! "Padding" then paddingRefusal v
  else if n = py! "Type" then kindRefusal v
  else if n.any isSeparator then some .encodeError
  else otherRefusal v

/-- the parameter has characters that are no octets, in its value or in a name that is written out -/
def Wide (n : List Nat) (v : Val) : Prop :=
  (n ∉ numbered ∧ ∃ c ∈ n, 256 ≤ c) ∨ ∃ s, v = .uni s ∧ ∃ c ∈ s, 256 ≤ c

open Classical in
/-- the exception that sending the content type raises, if any: that of the first parameter that is refused; otherwise
OverflowError if some character is no octet.  The empty media type needs a parameter. -/
noncomputable def ctypeRefusal (media : List Nat) (params : Dict Val) : Option PyErr :=
  if media = [] ∧ params = [] then some .indexError
  else match params.findSome? fun p => paramRefusal p.1 p.2 with
    | some e => some e
    | none => if ∃ p ∈ params, Wide p.1 p.2 then some .overflowError else none

end Verif.Spec.Refusal

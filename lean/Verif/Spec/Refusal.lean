import Verif.Spec.MmsEnc
import Verif.Model.Py
/-!
# Specification: which headers cannot be sent, and with which exception

Only the Python value types and the exception classes are taken from the model.
-/
set_option autoImplicit false

namespace Verif.Spec.Refusal
open Verif (PyErr)
open Verif.Mms (Val HVal Dict)
open Verif.Spec.Mms Verif.Spec.MmsEnc

/-- the field names whose values the library can read but not write -/
def readOnly : List (List Nat) := [py! "Content-Location", py! "Date", py! "Delivery-Report", py! "Delivery-Time",
  py! "Expiry", py! "Message-Class", py! "Priority", py! "Read-Reply", py! "Report-Allowed", py! "Response-Status",
  py! "Sender-Visibility"]

/-- the separators of RFC 2616 without the quotation mark, and with VT (11) in place of HT (9) -/
def isSeparator (c : Nat) : Bool := c = 11 || c = 32 || (py! "()<>@,;:\\/[]?={}").contains c

/-- texts are octets closed by NUL.  A pair of one-character strings is as good as a text of two characters. -/
def textRefusal : HVal → Option PyErr
  | .v (.str s) | .v (.uni s) => if ∀ c ∈ s, c < 256 then none else some .overflowError
  | .tup [a] (.str [b]) | .tup [a] (.uni [b]) => if a < 256 ∧ b < 256 then none else some .overflowError
  | _ => some .typeError

/-- a message type that is not known is sent as `m-send-req`; a media type with parameters is not hashable -/
def typeRefusal : HVal → Option PyErr
  | .ct _ _ => some .typeError
  | _ => none

/-- a status is one of the five names -/
def statusRefusal : HVal → Option PyErr
  | .v (.str s) | .v (.uni s) => if s ∈ statusNames then none else some .typeError
  | _ => some .typeError

/-- a version is a `str`, whatever it says -/
def versionRefusal : HVal → Option PyErr
  | .v (.str _) => none
  | _ => some .typeError

/-- a size is a machine integer (or a bool), even a negative one -/
def sizeRefusal : HVal → Option PyErr
  | .v (.bool _) => none
  | .v (.int i) => if -2 ^ 63 ≤ i ∧ i < 2 ^ 63 then none else some .encodeError
  | _ => some .encodeError

/-- the exception that sending the header `n: v` raises, if any -/
def refusal (n : List Nat) (v : HVal) : Option PyErr :=
  if n ∈ readOnly then some .attributeError
  else if n = py! "Content-Type" then some .typeError
  else if n = py! "Message-Type" then typeRefusal v
  else if n = py! "Status" then statusRefusal v
  else if n = py! "MMS-Version" then versionRefusal v
  else if n = py! "Message-Size" then sizeRefusal v
  else if n ∈ fieldNames then textRefusal v
  else if n.any isSeparator then some .encodeError
  else if textRefusal v = some .typeError then some .typeError
  else if ∀ c ∈ n, c < 256 then textRefusal v
  else some .overflowError

/-- an Accept value that is text: the assigned media types, and whatever does not begin with a control character and fits
into octets -/
def acceptText (s : List Nat) (control : PyErr) : Option PyErr :=
  match s with
  | [] => some .indexError
  | c :: _ =>
    if c < 32 ∨ c = 127 then some control
    else if ∀ x ∈ s, x < 256 then none else some .overflowError

/-- the values under Accept: texts, numbers up to 127, numbers that are no machine integers (as text), and None, fractions,
dates, pairs and content types with parameters (as text) -/
def acceptRefusal : HVal → Option PyErr
  | .v (.str s) => acceptText s .typeError
  | .v (.uni s) => acceptText s (if ∃ x ∈ s, 127 < x then .unicodeError else .typeError)
  | .v (.int n) => if (0 ≤ n ∧ n ≤ 127) ∨ ¬ (-2 ^ 63 ≤ n ∧ n < 2 ^ 63) then none else some .typeError
  | _ => none

/-- the exception that sending the header `n: v` of a part raises, if any -/
def partRefusal (n : List Nat) (v : HVal) : Option PyErr :=
  if n = py! "Accept" then acceptRefusal v
  else if n = py! "Pragma" then some .attributeError
  else if n ∈ wspNames then textRefusal v
  else if n.any isSeparator then some .encodeError
  else if textRefusal v = some .typeError then some .typeError
  else if ∀ c ∈ n, c < 256 then textRefusal v
  else some .overflowError

end Verif.Spec.Refusal

import Verif.Model.Udh
import Verif.Model.WspTables
/-!
# Model of the `__repr__` methods of `messaging/sms/udh.py`
-/
set_option autoImplicit false

namespace Verif.Udh
open Verif.Mms (natStr)

/-- udh.py:11-13 `PortAddress.__repr__` -/
def PortAddress.repr (p : PortAddress) : Str :=
  py! "<PortAddress dest_port: " ++ natStr p.destPort ++ py! " orig_port: " ++ natStr p.origPort ++ py! ">"

/-- udh.py:24-26 `ConcatReference.__repr__` -/
def ConcatReference.repr (c : ConcatReference) : Str :=
  py! "<ConcatReference ref: " ++ natStr c.ref ++ py! " cnt: " ++ natStr c.cnt ++ py! " seq: " ++ natStr c.seq ++ py! ">"

/-- the items of a `list` or `dict` in its `repr` -/
def commas : List Str → Str
  | [] => []
  | [x] => x
  | x :: xs => x ++ py! ", " ++ commas xs

/-- `repr` of an `array('B')` (udh.py:36-38): Python 2.7 `array_repr` -/
def arrayRepr (a : List Nat) : Str :=
  if a.isEmpty then py! "array('B')" else py! "array('B', [" ++ commas (a.map natStr) ++ py! "])"

/-- `repr` of the dict of the elements (udh.py:36-38), whose items come in the order `items` -/
def dictRepr (items : List (Nat × List Nat)) : Str :=
  py! "{" ++ commas (items.map fun x => natStr x.1 ++ py! ": " ++ arrayRepr x.2) ++ py! "}"

/-- udh.py:36-38 `UserDataHeader.__repr__`; `ord` is the order of iteration of the dict -/
def UserDataHeader.repr (ord : List (Nat × List Nat) → List (Nat × List Nat)) (u : UserDataHeader) : Str :=
  py! "<UserDataHeader data: " ++ dictRepr (ord u.headers) ++
  py! " concat: " ++ (match u.concat with | some c => c.repr | none => py! "None") ++
  py! " ports: " ++ (match u.ports with | some p => p.repr | none => py! "None") ++ py! ">"

end Verif.Udh

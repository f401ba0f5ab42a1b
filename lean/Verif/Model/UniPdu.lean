import Verif.Model.Deliver
/-!
# Model of `SmsDeliver` given a `unicode` object (`messaging/sms/deliver.py`, `messaging/utils.py`)

`Model/Deliver.lean` has the same for `str`.  The difference is `int(_, 16)` of two characters, which for `unicode` objects is
`PyInt_FromUnicode` of Python 2.7: `PyUnicode_EncodeDecimal` makes octets of the characters, and these are read as those
of a `str`.
-/
set_option autoImplicit false

namespace Verif.Deliver

/-- the character database of the interpreter: `Py_UNICODE_ISSPACE` and `Py_UNICODE_TODECIMAL` -/
structure CharTable where
  space : Nat → Bool
  decimal : Nat → Option Nat

/-- utils.py:55: one step of `PyUnicode_EncodeDecimal`.  UnicodeEncodeError for what is neither white space, nor a decimal digit
of any script, nor in Latin-1; NUL is not let through. -/
def encodeDecimalChar (t : CharTable) (c : Nat) : Py Nat :=
  if t.space c then .ok 32
  else match t.decimal c with
    | some d => .ok (48 + d)
    | none => if 0 < c ∧ c < 256 then .ok c else .error .unicodeError

/-- utils.py:55: `PyUnicode_EncodeDecimal` -/
def encodeDecimal (t : CharTable) : Str → Py Str
  | [] => .ok []
  | c :: cs => do
    let x ← encodeDecimalChar t c
    let xs ← encodeDecimal t cs
    .ok (x :: xs)

/-- utils.py:55: `int(s, 16)` for a `unicode` object of at most two characters -/
def pyInt16U (t : CharTable) (s : Str) : Py Int := do
  let b ← encodeDecimal t s
  pyInt16 b

/-- utils.py:54-55 `to_array` (see `parseHexPairs`) -/
def parseHexPairsU (t : CharTable) : Str → Py (List Int)
  | [] => .ok []
  | [a] => do
    let x ← pyInt16U t [a]
    .ok [x]
  | a :: b :: rest => do
    let x ← pyInt16U t [a, b]
    let xs ← parseHexPairsU t rest
    .ok (x :: xs)

/-- utils.py:54-55 `to_array` -/
def toArrayU (t : CharTable) (pdu : Str) : Py (List Nat) := do
  let xs ← parseHexPairsU t pdu
  if xs.any (· < 0) then .error .overflowError else .ok (xs.map Int.toNat)

/-- deliver.py:71-154: `_set_pdu` after `to_array`, as in `setPdu` -/
def setPduRest (data : List Nat) : M State Unit := do
  let (smscl, data) ← M.lift (pop0 data)
  let data ←
    if smscl > 0 then do
      let (ty, data) ← M.lift (pop0 data)
      let smscl := smscl - 1
      let csca := swapNumber (encodeStr (data.take smscl))
      let csca := if (ty >>> 4) &&& 0x07 = 1 then 43 :: csca else csca
      M.modify fun s => { s with csca := some csca }
      pure (data.drop smscl)
    else do
      M.modify fun s => { s with csca := none }
      pure data
  let (mt, data) ← M.lift (pop0 data)
  M.modify fun s => { s with mtype := some mt }
  if mt &&& 0x03 = 0x02 then decodeStatusReport data
  else if mt &&& 0x03 = 0x01 then M.throw .valueError
  else decodeDeliver data

/-- deliver.py:55-154 `_set_pdu`, given a `unicode` object -/
def setPduU (t : CharTable) (pdu : Str) : M State Unit := do
  let s ← M.get
  let pdu := if !s.strict && pdu.length % 2 ≠ 0 then pdu.dropLast else pdu
  if pdu.length % 2 ≠ 0 then M.throw .valueError
  else do
    M.modify fun s => { s with pdu := some pdu }
    let data ← M.lift (toArrayU t pdu)
    setPduRest data

/-- deliver.py:16-24 `SmsDeliver(pdu, strict)`, given a `unicode` object -/
def smsDeliverU (t : CharTable) (pdu : Str) (strict : Bool := true) : Py State :=
  match setPduU t pdu (State.fresh strict) with
  | .ok _ s => .ok s
  | .err e _ => .error e

end Verif.Deliver

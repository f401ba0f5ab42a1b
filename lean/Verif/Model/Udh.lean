import Verif.Model.Py
/-!
# Model of `messaging/sms/udh.py`
-/
set_option autoImplicit false

namespace Verif.Udh

/-- udh.py:4-9 -/
structure PortAddress where
  destPort : Nat
  origPort : Nat
  eightBits : Bool
  deriving DecidableEq, Repr

/-- udh.py:16-22 -/
structure ConcatReference where
  ref : Nat
  cnt : Nat
  seq : Nat
  eightBits : Bool
  deriving DecidableEq, Repr

/-- udh.py:29-34; `headers` is an association list with unique keys (a dict) -/
structure UserDataHeader where
  concat : Option ConcatReference
  ports : Option PortAddress
  headers : List (Nat × List Nat)
  deriving DecidableEq, Repr

/-- udh.py:31-34 `__init__` -/
def UserDataHeader.empty : UserDataHeader := ⟨none, none, []⟩

/-- udh.py:40-44 `from_status_report_ref` -/
def fromStatusReportRef (ref : Nat) : UserDataHeader :=
  { UserDataHeader.empty with concat := some ⟨ref, 0, 0, true⟩ }

/-- `d[k] = v` on a dict -/
def dictSet (d : List (Nat × List Nat)) (k : Nat) (v : List Nat) : List (Nat × List Nat) :=
  match d with
  | [] => [(k, v)]
  | (k', v') :: d => if k' = k then (k, v) :: d else (k', v') :: dictSet d k v

/-- udh.py:56-77: interpretation of one element -/
def applyIe (udh : UserDataHeader) (iei : Nat) (d : List Nat) : Py UserDataHeader := do
  let udh := { udh with headers := dictSet udh.headers iei d }
  let udh ←
    if iei = 0x00 then
      match d with
      | [ref, cnt, seq] => .ok { udh with concat := some ⟨ref, cnt, seq, true⟩ }
      | _ => .error .valueError
    else .ok udh
  if iei = 0x08 then do
    let a ← pyIdx d 0
    let b ← pyIdx d 1
    let cnt ← pyIdx d 2
    let seq ← pyIdx d 3
    .ok { udh with concat := some ⟨a <<< 8 ||| b, cnt, seq, false⟩ }
  else if iei = 0x04 then
    match d with
    | [dest, orig] => .ok { udh with ports := some ⟨dest, orig, false⟩ }
    | _ => .error .valueError
  else if iei = 0x05 then do
    let a ← pyIdx d 0
    let b ← pyIdx d 1
    let c ← pyIdx d 2
    let e ← pyIdx d 3
    .ok { udh with ports := some ⟨a <<< 8 ||| b, c <<< 8 ||| e, false⟩ }
  else .ok udh

/-- udh.py:49-54: the TLV loop; each iteration pops at least two octets, `fuel` = length suffices. -/
def fromBytesLoop : Nat → UserDataHeader → List Nat → Py UserDataHeader
  | _, udh, [] => .ok udh
  | 0, _, _ :: _ => .error .diverge
  | _ + 1, _, [_] => .error .indexError
  | fuel + 1, udh, iei :: ieLen :: data => do
    let udh ← applyIe udh iei (data.take ieLen)
    fromBytesLoop fuel udh (data.drop ieLen)

/-- udh.py:46-79 `from_bytes` -/
def fromBytes (data : List Nat) : Py UserDataHeader :=
  fromBytesLoop data.length UserDataHeader.empty data

end Verif.Udh

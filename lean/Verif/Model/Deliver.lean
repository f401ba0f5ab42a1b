import Verif.Model.Calendar
import Verif.Model.Gsm0338
import Verif.Model.Udh
/-!
# Model of `messaging/sms/deliver.py`
-/
set_option autoImplicit false

namespace Verif.Deliver

/-- deliver.py:258-263: the `sr` dict -/
structure StatusReport where
  recipient : Str
  scts : Option DateTime
  dt : Option DateTime
  status : Option Nat
  deriving DecidableEq, Repr

/-- deliver.py:16-24 and base.py: attributes of an `SmsDeliver` -/
structure State where
  pdu : Option Str
  strict : Bool
  date : Option DateTime
  mtype : Option Nat
  sr : Option StatusReport
  udh : Option Udh.UserDataHeader
  number : Option Str
  text : Option Str
  fmt : Option Nat
  dcs : Option Nat
  pid : Option Nat
  csca : Option Str
  type : Option Nat
  deriving DecidableEq, Repr

/-- deliver.py:16-22: the object before `self.pdu = pdu` -/
def State.fresh (strict : Bool) : State :=
  { pdu := none, strict := strict, date := none, mtype := none, sr := none, udh := none, number := none,
    text := none, fmt := none, dcs := none, pid := none, csca := none, type := none }

/-- deliver.py:123-128: coding from TP-DCS (the three branches are exhaustive) -/
def fmtOfDcs (dcs : Nat) : Nat :=
  if dcs &&& (0x04 ||| 0x08) = 0 then 0x00
  else if dcs &&& 0x04 ≠ 0 then 0x04
  else 0x08

/-- deliver.py:141-143: zone offset in minutes -/
def zoneMinutes (tz : Nat) : Int :=
  let offset := ((tz &&& 0x07) * 10 + ((tz &&& 0xf0) >>> 4)) * 15
  if tz &&& 0x08 ≠ 0 then (offset : Int) * -1 else offset

/-- deliver.py:168-169: `while headlen % 7: headlen += 1` (at most 6 steps) -/
def roundUp7 : Nat → Nat → Nat
  | 0, h => h
  | fuel + 1, h => if h % 7 ≠ 0 then roundUp7 fuel (h + 1) else h

/-- deliver.py:185-186: pairs of octets; IndexError on an odd count -/
def ucs2Chars : List Nat → Py Str
  | [] => .ok []
  | [_] => .error .indexError
  | a :: b :: rest => do
    let r ← ucs2Chars rest
    .ok ((a * 256 + b) :: r)

/-- deliver.py:156-187 `_process_message`.  `int("%02X%02X" % (a, b), 16)` of two octets is `256 a + b`. -/
def processMessage (data : List Nat) : M State Unit := do
  let (msgl, data) ← M.lift (pop0 data)
  let msg := encodeStr (data.take msgl)
  let s ← M.get
  let mtype := s.mtype.getD 0
  let fmt := s.fmt.getD 0
  let (headlen, udLen, data) ←
    if mtype &&& 0x40 ≠ 0 then do
      let (udLen, data) ← M.lift (pop0 data)
      let udh ← M.lift (Udh.fromBytes (data.take udLen))
      M.modify fun s => { s with udh := some udh }
      let headlen := (udLen + 1) * 8
      let headlen := if fmt = 0x00 then roundUp7 6 headlen / 7 else headlen
      pure (headlen, udLen, data)
    else pure (0, 0, data)
  if fmt = 0x00 then do
    let t ← M.lift (unpackMsg msg)
    let x ← M.lift (Gsm.decode .strict ((t.take msgl).drop headlen))
    M.modify fun s => { s with text := some x }
  else if fmt = 0x04 then
    M.modify fun s => { s with text := some (data.drop udLen) }
  else if fmt = 0x08 then do
    let x ← M.lift (ucs2Chars (data.drop udLen))
    M.modify fun s => { s with text := some x }
  else pure ()

/-- deliver.py:101-104, 194-197: number of octets holding `n` semi-octets -/
def semiLen (n : Nat) : Nat := (if n % 2 ≠ 0 then n + 1 else n) / 2

/-- `"%s%s/%s%s/%s%s %s%s:%s%s:%s%s" % tuple(date)` with exactly 12 characters -/
def fmtStamp : List Nat → Str
  | [a, b, c, d, e, f, g, h, i, j, k, l] =>
    [a, b, 47, c, d, 47, e, f, 32, g, h, 58, i, j, 58, k, l]
  | _ => []

/-- deliver.py:191-263 `_decode_status_report_pdu`.  `except (ValueError, TypeError)` at 210 and 220 catches
both too short and malformed dates. -/
def decodeStatusReport (data : List Nat) : M State Unit := do
  let (ref, data) ← M.lift (pop0 data)
  M.modify fun s => { s with udh := some (Udh.fromStatusReportRef ref) }
  let (sndlen, data) ← M.lift (pop0 data)
  let sndlen := semiLen sndlen
  let (sndtype, data) ← M.lift (pop0 data)
  let recipient := swapNumber (encodeStr (data.take sndlen))
  let recipient := if (sndtype >>> 4) &&& 0x07 = 1 then 43 :: recipient else recipient
  let data := data.drop sndlen
  let date := swapPairs (encodeStr (data.take 7))
  let sctsStr ← match Cal.strptime (date.take 12) with
    | .ok d => do
      M.modify fun s => { s with date := some d }
      pure (fmtStamp (date.take 12))
    | .error _ => pure []
  let data := data.drop 7
  let date := swapPairs (encodeStr (data.take 7))
  let (dtStr, dt) := match Cal.strptime (date.take 12) with
    | .ok d => (fmtStamp (date.take 12), some d)
    | .error _ => ([], none)
  let data := data.drop 7
  let (status, sender, last) := match data with
    | [] => (none, py! "SR-UNKNOWN", dtStr)
    | st :: _ =>
      (some st,
        (if st = 0x00 then py! "SR-OK" else if st = 0x1 then py! "SR-UNKNOWN"
          else if st = 0x30 then py! "SR-STORED" else py! "SR-UNKNOWN"),
        if st = 0x00 then dtStr else [])
  M.modify fun s => { s with
    number := some sender
    text := some (recipient ++ [124] ++ sctsStr ++ [124] ++ last)
    fmt := some 0x08
    type := some 0x03
    sr := some ⟨recipient, s.date, dt, status⟩ }

/-- deliver.py:106-114: the originating address -/
def decodeSender (typeOctet : Nat) (octets : List Nat) : Py Str :=
  let sndtype := (typeOctet >>> 4) &&& 0x07
  if sndtype = 5 then Gsm.decode .strict (unpackMsg2 octets)
  else
    let sender := swapNumber (encodeStr octets)
    .ok (if sndtype = 1 then 43 :: sender else sender)

/-- deliver.py:101-154: the body of a DELIVER after the message type octet -/
def decodeDeliver (data : List Nat) : M State Unit := do
  let (sndlen, data) ← M.lift (pop0 data)
  let sndlen := semiLen sndlen
  let (ty, data) ← M.lift (pop0 data)
  let sender ← M.lift (decodeSender ty (data.take sndlen))
  M.modify fun s => { s with number := some sender }
  let data := data.drop sndlen
  let (pid, data) ← M.lift (pop0 data)
  M.modify fun s => { s with pid := some pid }
  let (dcs, data) ← M.lift (pop0 data)
  M.modify fun s => { s with dcs := some dcs, fmt := some (fmtOfDcs dcs) }
  let date := swapPairs (encodeStr (data.take 6))
  let data := data.drop 6
  let (tz, data) ← M.lift (pop0 data)
  let d ← M.lift (Cal.strptime date)
  M.modify fun s => { s with date := some (Cal.subMinutes d (zoneMinutes tz)) }
  processMessage data

/-- deliver.py:55-154 `_set_pdu` -/
def setPdu (pdu : Str) : M State Unit := do
  let s ← M.get
  let pdu := if !s.strict && pdu.length % 2 ≠ 0 then pdu.dropLast else pdu
  if pdu.length % 2 ≠ 0 then M.throw .valueError
  else do
    M.modify fun s => { s with pdu := some pdu }
    let data ← M.lift (toArray pdu)
    let (smscl, data) ← M.lift (pop0 data)
    let data ←
      if smscl > 0 then do
        let (ty, data) ← M.lift (pop0 data)
        let smscl := smscl - 1
        let csca := swapNumber (encodeStr (data.take smscl))
        let csca := if (ty >>> 4) &&& 0x07 = 1 then 43 :: csca else csca
        M.modify fun s => { s with csca := some csca }
        pure (data.drop smscl)
      else do
        M.modify fun s => { s with csca := none }
        pure data
    let (mt, data) ← M.lift (pop0 data)
    M.modify fun s => { s with mtype := some mt }
    if mt &&& 0x03 = 0x02 then decodeStatusReport data
    else if mt &&& 0x03 = 0x01 then M.throw .valueError
    else decodeDeliver data

/-- deliver.py:16-24 `SmsDeliver(pdu, strict)`: the resulting object or the exception -/
def smsDeliver (pdu : Str) (strict : Bool := true) : Py State :=
  match setPdu pdu (State.fresh strict) with
  | .ok _ s => .ok s
  | .err e _ => .error e

/-- deliver.py:26-53 the `data` property (as key/value record; the last three keys are present only when a
concatenation header was decoded) -/
structure Data where
  text : Option Str
  pid : Option Nat
  dcs : Option Nat
  csca : Option Str
  number : Option Str
  type : Option Nat
  date : Option DateTime
  fmt : Option Nat
  sr : Option StatusReport
  concat : Option (Nat × Nat × Nat)
  deriving DecidableEq, Repr

/-- deliver.py:26-53 -/
def data (s : State) : Data :=
  { text := s.text, pid := s.pid, dcs := s.dcs, csca := s.csca, number := s.number, type := s.type,
    date := s.date, fmt := s.fmt, sr := s.sr,
    concat := match s.udh with
      | none => none
      | some u => match u.concat with
        | none => none
        | some c => some (c.ref, c.cnt, c.seq) }

end Verif.Deliver

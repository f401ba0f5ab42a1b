import Verif.Model.Utils
import Verif.Model.Gsm0338
/-!
# Model of `messaging/sms/submit.py`, `pdu.py`, `consts.py`
-/
set_option autoImplicit false

namespace Verif.Submit

/-- consts.py:2 -/
def SEVENBIT_SIZE : Nat := 160
/-- consts.py:3 -/
def EIGHTBIT_SIZE : Nat := 140
/-- consts.py:4 -/
def UCS2_SIZE : Nat := 70
/-- consts.py:5 -/
def SEVENBIT_MP_SIZE : Nat := SEVENBIT_SIZE - 7
/-- consts.py:6 -/
def EIGHTBIT_MP_SIZE : Nat := EIGHTBIT_SIZE - 6
/-- consts.py:7 -/
def UCS2_MP_SIZE : Nat := UCS2_SIZE - 3

/-- submit.py:56-63: a validity is None, a timedelta or a datetime -/
inductive Validity
  | none
  | relative (t : TimeDelta)
  | absolute (d : DateTime)
  deriving DecidableEq, Repr

/-- submit.py:23-38 and base.py: attributes of an `SmsSubmit`.  `msgvp` (line 33) is never read.  `fmt` is a
natural number (negative values, which only the caller could assign, are not modelled). -/
structure State where
  number : Option Str
  csca : Option Str
  klass : Option Nat
  validity : Validity
  requestStatus : Bool
  ref : Option Int
  randId : Option Int
  idList : List Nat
  pid : Int
  text : PyStr
  fmt : Option Nat
  dcs : Option Nat
  textGsm : Option Str
  deriving DecidableEq, Repr

/-- pdu.py:4-10 `Pdu` -/
structure Pdu where
  pdu : Str
  length : Nat
  cnt : Nat
  seq : Nat
  deriving DecidableEq, Repr

/-- pdu.py:6-10 `Pdu.__init__` (`len(pdu) / 2 - len_smsc`; the SMSC prefix is part of `pdu`) -/
def mkPdu (pdu : Str) (lenSmsc cnt seq : Nat) : Pdu :=
  { pdu := pyUpper pdu, length := pdu.length / 2 - lenSmsc, cnt := cnt, seq := seq }

/-- ASCII digit, `\d` without re.UNICODE -/
def isDigit (c : Nat) : Bool := 48 ≤ c && c ≤ 57

/-- submit.py:17, the `\+?` at the start of the pattern -/
def optPlus : Str → Str
  | [] => []
  | c :: r => if c == 43 then r else c :: r

/-- submit.py:17 `re.compile("^\+?\d{3,20}$").match`: optional '+', the longest run of digits, then the end of
the string or a final newline (`$`); backtracking cannot help because a digit is neither. -/
def validNumber (s : Str) : Bool :=
  let s := optPlus s
  let ds := s.takeWhile isDigit
  let rest := s.dropWhile isDigit
  3 ≤ ds.length && ds.length ≤ 20 && (rest == [] || rest == [10])

/-- submit.py:40-44 `_set_number` (None and '' are falsy and accepted) -/
def setNumber (n : Option Str) : M State Unit :=
  match n with
  | none => M.modify fun s => { s with number := none }
  | some x =>
    if !x.isEmpty && !validNumber x then M.throw .valueError
    else M.modify fun s => { s with number := some x }

/-- submit.py:48-52 `_set_csca` -/
def setCsca (n : Option Str) : M State Unit :=
  match n with
  | none => M.modify fun s => { s with csca := none }
  | some x =>
    if !x.isEmpty && !validNumber x then M.throw .valueError
    else M.modify fun s => { s with csca := some x }

/-- what a caller may assign to `klass`: an int or something else -/
inductive KlassArg
  | int (k : Int)
  | notInt
  deriving DecidableEq, Repr

/-- submit.py:65-72 `_set_klass` -/
def setKlass (k : KlassArg) : M State Unit :=
  match k with
  | .notInt => M.throw .typeError
  | .int k =>
    if k = 0 ∨ k = 1 ∨ k = 2 ∨ k = 3 then M.modify fun s => { s with klass := some k.toNat }
    else M.throw .valueError

/-- what a caller may assign to `validity`: None, a timedelta, a datetime, or something else -/
inductive ValidityArg
  | valid (v : Validity)
  | other
  deriving DecidableEq, Repr

/-- submit.py:56-63 `_set_validity` -/
def setValidity (a : ValidityArg) : M State Unit :=
  match a with
  | .valid v => M.modify fun s => { s with validity := v }
  | .other => M.throw .typeError

/-- submit.py:23-38 `__init__` (and base.py:6-14 `SmsBase.__init__`, whose values are all overwritten or None): all attributes, then `self.number = number` (which may raise ValueError) -/
def init (number : Option Str) (text : PyStr) : Py State :=
  let s : State :=
    { number := none, csca := none, klass := none, validity := .none, requestStatus := false,
      ref := none, randId := none, idList := List.range 255, pid := 0, text := text, fmt := none,
      dcs := none, textGsm := none }
  match setNumber number s with
  | .ok _ s => .ok s
  | .err e _ => .error e

/-- submit.py:326-330 `_get_rand_id` -/
def getRandId : M State Nat := fun s =>
  let l := if s.idList.isEmpty then List.range 255 else s.idList
  match l with
  | [] => .err .indexError { s with idList := l }
  | x :: xs => .ok x { s with idList := xs }

/-- submit.py:146-148 and 174-176: pairs of digits, swapped, as octets.  `number` has even length. -/
def semiOctets : Str → Py Str
  | a :: b :: rest => do
    let v ← pyInt16 [b, a]
    if v < 0 then .error .valueError
    else do
      let c ← pyChr v.toNat
      let r ← semiOctets rest
      .ok (c :: r)
  | [_] => .error .indexError
  | [] => .ok []

/-- submit.py:163-167 / 136-140: strip the leading '+' and determine the type of number -/
def splitPlus (number : Str) : Py (Str × Nat) :=
  match number with
  | [] => .error .indexError
  | c :: rest => if c == 43 then .ok (rest, 0x91) else .ok (number, 0x81)

/-- `if len(number) % 2: number += 'F'` -/
def padF (number : Str) : Str := if number.length % 2 ≠ 0 then number ++ [70] else number

/-- submit.py:132-153 `_get_smsc_pdu` -/
def getSmscPdu (csca : Option Str) : Py Str :=
  match csca with
  | none => .ok (py! "00")
  | some csca =>
    if csca.isEmpty || (strip csca).isEmpty then .ok (py! "00")
    else do
      let (number, ptype) ← splitPlus (cleanNumber csca)
      let number := padF number
      let t ← pyChr ptype
      let o ← semiOctets number
      let ps := t :: o
      let pl ← pyChr ps.length
      .ok (encodeStr (pl :: ps))

/-- submit.py:155-160 `_get_tpmessref_pdu` -/
def getTpmessrefPdu : M State Str := do
  let s ← M.get
  let r ← match s.ref with
    | none => do
      let x ← getRandId
      pure (x : Int)
    | some r => pure r
  let r := r % 256
  M.modify fun s => { s with ref := some r }
  let c ← M.lift (pyChr r.toNat)
  pure (encodeStr [c])

/-- submit.py:162-179 `_get_phone_pdu` (`clean_number(None)` raises AttributeError) -/
def getPhonePdu (number : Option Str) : Py Str :=
  match number with
  | none => .error .attributeError
  | some n => do
    let (number, ptype) ← splitPlus (cleanNumber n)
    let pl := number.length
    let number := padF number
    let t ← pyChr ptype
    let o ← semiOctets number
    let pl ← pyChr pl
    .ok (encodeStr (pl :: t :: o))

/-- submit.py:181-182 `_get_tppid_pdu` -/
def getTppidPdu (pid : Int) : Py Str :=
  if pid < 0 then .error .valueError
  else do
    let c ← pyChr pid.toNat
    .ok (encodeStr [c])

/-- submit.py:184-202 `_get_sms_submit_pdu` -/
def submitOctet (v : Validity) (srr udh : Bool) : Nat :=
  let o := 0x1
  let o := match v with
    | .none => o
    | .absolute _ => o ||| 0x18
    | .relative _ => o ||| 0x10
  let o := if srr then o ||| 0x20 else o
  if udh then o ||| 0x40 else o

/-- submit.py:184-202 -/
def getSmsSubmitPdu (v : Validity) (srr udh : Bool) : Py Str := do
  let c ← pyChr (submitOctet v srr udh)
  .ok (encodeStr [c])

/-- Python slice `text[pi:pe]` for non-negative bounds -/
def slice (text : Str) (pi pe : Nat) : Str := (text.take pe).drop pi

/-- submit.py:292-298: the splitting loop.  `fuel` bounds the iterations (never exhausted, see
`Verif.Submit.splitLoop_ok`). -/
def splitLoop (text : Str) (total size : Nat) : Nat → Nat → Nat → Py (List Str)
  | 0, _, _ => .error .diverge
  | fuel + 1, pi, pe =>
    if pi < total then
      match (slice text pi pe).getLast? with
      | none => .error .indexError
      | some c => do
        let pe := if c == 0x1b then pe - 1 else pe
        let msg := slice text pi pe
        let rest ← splitLoop text total size fuel pe (pe + size)
        .ok (msg :: rest)
    else .ok []

/-- submit.py:313-314: the 8-bit concatenation header as a byte string -/
def udh7 (ref total i : Nat) : Py Str := do
  let a ← pyChr ref
  let b ← pyChr total
  let c ← pyChr i
  .ok [5, 0, 3, a, b, c]

/-- submit.py:317-319: the header as three 16-bit characters (`unichr(int("%04x" % v, 16))`) -/
def udh16 (ref total i : Nat) : Py Str := do
  let a ← pyUnichr ((0x05 <<< 8) ||| 0x00)
  let b ← pyUnichr ((0x03 <<< 8) ||| ref)
  let c ← pyUnichr ((total <<< 8) ||| i)
  .ok [a, b, c]

/-- the coding selected at submit.py:271-287 -/
inductive Coding
  | gsm7 | bin8 | ucs2
  deriving DecidableEq, Repr

/-- submit.py:272, 278, 284 -/
def Coding.mpSize : Coding → Nat
  | .gsm7 => SEVENBIT_MP_SIZE
  | .bin8 => EIGHTBIT_MP_SIZE
  | .ucs2 => UCS2_MP_SIZE

/-- submit.py:312-322: UDH and packing of part number `i` (1-based) -/
def packPart (c : Coding) (uni : Bool) (ref total i : Nat) (msg : Str) : Py Str :=
  match c with
  | .gsm7 => do
    let udh ← udh7 ref total i
    pack7 (32 :: msg) (some udh)
  | .bin8 => do
    let udh ← udh16 ref total i
    pack8 ⟨uni, msg⟩ (some udh)
  | .ucs2 => do
    let udh ← udh16 ref total i
    packUcs2 ⟨uni, msg⟩ (some udh)

/-- submit.py:309-322: loop over the parts -/
def packParts (c : Coding) (uni : Bool) (ref total : Nat) : Nat → List Str → Py (List Str)
  | _, [] => .ok []
  | i, m :: ms => do
    let x ← packPart c uni ref total (i + 1) m
    let xs ← packParts c uni ref total (i + 1) ms
    .ok (x :: xs)

/-- submit.py:270-324 `_split_sms_message` -/
def splitSmsMessage (c : Coding) (text : PyStr) : M State (List Str) := do
  let total := text.s.length
  let msgs ← M.lift (splitLoop text.s total c.mpSize (total + 1) 0 c.mpSize)
  let s ← M.get
  let ref ← match s.randId with
    | none => do
      let x ← getRandId
      pure (x : Int)
    | some r => pure r
  let ref := (ref % 256).toNat
  M.lift (packParts c text.uni ref msgs.length 0 msgs)

/-- submit.py:212-222: DCS from format and class -/
def dcsOf (fmt : Nat) (klass : Option Nat) : Nat :=
  match klass with
  | some 0 => fmt ||| 0x10
  | some 1 => fmt ||| 0x11
  | some 2 => fmt ||| 0x12
  | some 3 => fmt ||| 0x13
  | _ => fmt

/-- `''.join(map(encode_str, map(chr, msgvp)))` -/
def chrHexAll : List Int → Py Str
  | [] => .ok []
  | x :: xs =>
    if x < 0 then .error .valueError
    else do
      let c ← pyChr x.toNat
      let r ← chrHexAll xs
      .ok (encodeStr [c] ++ r)

/-- submit.py:226-240: validity period field -/
def vpPdu (v : Validity) : Py Str :=
  match v with
  | .none => .ok []
  | .relative t => do
    let vp ← relativeValidity t
    chrHexAll [vp]
  | .absolute d => do
    let vp ← absoluteValidity d
    chrHexAll vp

/-- submit.py:205-210: the coding, chosen from the text unless `fmt` is already set -/
def effFmt (s : State) : Nat :=
  match s.fmt with
  | some f => f
  | none => if Gsm.isGsmText s.text then 0x00 else 0x08

/-- submit.py:242-266: user data (length octet and octets, in hex) of each part -/
def bodyM (fmt : Nat) (text : PyStr) : M State (List Str) :=
  if fmt = 0x00 then do
    let g ← M.lift (Gsm.encode text)
    M.modify fun s => { s with textGsm := some g }
    if g.length ≤ SEVENBIT_SIZE then do
      let m ← M.lift (pack7 g none)
      pure [m]
    else splitSmsMessage .gsm7 ⟨false, g⟩
  else if fmt = 0x04 then
    if text.s.length ≤ EIGHTBIT_SIZE then do
      let m ← M.lift (pack8 text none)
      pure [m]
    else splitSmsMessage .bin8 text
  else if fmt = 0x08 then
    if text.s.length ≤ UCS2_SIZE then do
      let m ← M.lift (packUcs2 text none)
      pure [m]
    else splitSmsMessage .ucs2 text
  else M.throw .valueError

/-- submit.py:204-268 `_get_msg_pdu` -/
def getMsgPdu : M State (List Str) := do
  let s ← M.get
  let fmt := effFmt s
  let dcs := dcsOf fmt s.klass
  M.modify fun s => { s with fmt := some fmt, dcs := some dcs }
  let d ← M.lift (pyChr dcs)
  let vp ← M.lift (vpPdu s.validity)
  let msgs ← bodyM fmt s.text
  pure (msgs.map (fun m => encodeStr [d] ++ vp ++ m))

/-- submit.py:109-128: numbering of the parts -/
def mkPdus (pre : Str) (lenSmsc cnt : Nat) : Nat → List Str → List Pdu
  | _, [] => []
  | i, m :: ms => mkPdu (pre ++ m) lenSmsc cnt (i + 1) :: mkPdus pre lenSmsc cnt (i + 1) ms

/-- submit.py:76-130 `to_pdu` -/
def toPdu : M State (List Pdu) := do
  let s ← M.get
  let smsc ← M.lift (getSmscPdu s.csca)
  let submit ← M.lift (getSmsSubmitPdu s.validity s.requestStatus false)
  let ref ← getTpmessrefPdu
  let phone ← M.lift (getPhonePdu s.number)
  let pid ← M.lift (getTppidPdu s.pid)
  let msgs ← getMsgPdu
  match msgs with
  | [m] => pure [mkPdu (smsc ++ submit ++ ref ++ phone ++ pid ++ m) (smsc.length / 2) 1 1]
  | ms => do
    let submit ← M.lift (getSmsSubmitPdu s.validity s.requestStatus true)
    pure (mkPdus (smsc ++ submit ++ ref ++ phone ++ pid) (smsc.length / 2) ms.length 0 ms)

end Verif.Submit

import Verif.Model.Submit
/-!
# Sending on a narrow build of Python 2

On a narrow build a `unicode` text is the list of its UTF-16 units and `unichr` makes nothing above U+FFFF.  The only place
where sending uses `unichr` is the header of the parts of a long message; the definitions of `Model/Submit.lean` from there
up to `to_pdu` are repeated here.  Receiving uses `unichr` on two octets only (deliver.py:187), which is the same on both
builds, and so are all other functions, applied to units.
-/
set_option autoImplicit false

namespace Verif.Narrow
open Verif Verif.Submit

/-- `unichr(n)` on a narrow build -/
def pyUnichr (n : Nat) : Py Nat := if n < 0x10000 then .ok n else .error .valueError

/-- submit.py:317-319 -/
def udh16 (ref total i : Nat) : Py Str := do
  let a ← pyUnichr ((0x05 <<< 8) ||| 0x00)
  let b ← pyUnichr ((0x03 <<< 8) ||| ref)
  let c ← pyUnichr ((total <<< 8) ||| i)
  .ok [a, b, c]

/-- submit.py:312-322 -/
def packPart (c : Coding) (uni : Bool) (ref total i : Nat) (msg : Str) : Py Str :=
  match c with
  | .gsm7 => do
    let udh ← udh7 ref total i
    pack7 (32 :: msg) (some udh)
  | .bin8 => do
    let udh ← udh16 ref total i
    pack8 ⟨uni, msg⟩ (some udh)
  | .ucs2 => do
    let udh ← udh16 ref total i
    packUcs2 ⟨uni, msg⟩ (some udh)

/-- submit.py:309-322 -/
def packParts (c : Coding) (uni : Bool) (ref total : Nat) : Nat → List Str → Py (List Str)
  | _, [] => .ok []
  | i, m :: ms => do
    let x ← packPart c uni ref total (i + 1) m
    let xs ← packParts c uni ref total (i + 1) ms
    .ok (x :: xs)

/-- submit.py:270-324 `_split_sms_message` -/
def splitSmsMessage (c : Coding) (text : PyStr) : M State (List Str) := do
  let total := text.s.length
  let msgs ← M.lift (splitLoop text.s total c.mpSize (total + 1) 0 c.mpSize)
  let s ← M.get
  let ref ← match s.randId with
    | none => do
      let x ← getRandId
      pure (x : Int)
    | some r => pure r
  let ref := (ref % 256).toNat
  M.lift (packParts c text.uni ref msgs.length 0 msgs)

/-- submit.py:242-266 -/
def bodyM (fmt : Nat) (text : PyStr) : M State (List Str) :=
  if fmt = 0x00 then do
    let g ← M.lift (Gsm.encode text)
    M.modify fun s => { s with textGsm := some g }
    if g.length ≤ SEVENBIT_SIZE then do
      let m ← M.lift (pack7 g none)
      pure [m]
    else splitSmsMessage .gsm7 ⟨false, g⟩
  else if fmt = 0x04 then
    if text.s.length ≤ EIGHTBIT_SIZE then do
      let m ← M.lift (pack8 text none)
      pure [m]
    else splitSmsMessage .bin8 text
  else if fmt = 0x08 then
    if text.s.length ≤ UCS2_SIZE then do
      let m ← M.lift (packUcs2 text none)
      pure [m]
    else splitSmsMessage .ucs2 text
  else M.throw .valueError

/-- submit.py:204-268 `_get_msg_pdu` -/
def getMsgPdu : M State (List Str) := do
  let s ← M.get
  let fmt := effFmt s
  let dcs := dcsOf fmt s.klass
  M.modify fun s => { s with fmt := some fmt, dcs := some dcs }
  let d ← M.lift (pyChr dcs)
  let vp ← M.lift (vpPdu s.validity)
  let msgs ← bodyM fmt s.text
  pure (msgs.map (fun m => encodeStr [d] ++ vp ++ m))

/-- submit.py:76-130 `to_pdu` -/
def toPdu : M State (List Pdu) := do
  let s ← M.get
  let smsc ← M.lift (getSmscPdu s.csca)
  let submit ← M.lift (getSmsSubmitPdu s.validity s.requestStatus false)
  let ref ← getTpmessrefPdu
  let phone ← M.lift (getPhonePdu s.number)
  let pid ← M.lift (getTppidPdu s.pid)
  let msgs ← getMsgPdu
  match msgs with
  | [m] => pure [mkPdu (smsc ++ submit ++ ref ++ phone ++ pid ++ m) (smsc.length / 2) 1 1]
  | ms => do
    let submit ← M.lift (getSmsSubmitPdu s.validity s.requestStatus true)
    pure (mkPdus (smsc ++ submit ++ ref ++ phone ++ pid) (smsc.length / 2) ms.length 0 ms)

end Verif.Narrow

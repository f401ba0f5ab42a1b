import Verif.Model.MmsPdu
/-!
# Model of `messaging/sms/wap.py`
-/
set_option autoImplicit false

namespace Verif.Mms

/-- wap.py:8-17 `is_a_wap_push_notification` -/
def isAWapPushNotification : Val → Py Bool
  | .str s =>
    match s[1]? with
    | some b => .ok (b == 0x06)
    | none => .ok false
  | _ => .error .typeError

/-- wap.py:20-30 `extract_push_notification` on a `str` -/
def extractPushNotification (s : Str) : Py Msg :=
  match (s.drop 1).take 2 with
  | [wapPush, offset] =>
    if wapPush ≠ 0x06 then .error .assertionError
    else decodeData (s.drop (offset + 3))
  | _ => .error .valueError

/-- `x is not None` for a dict lookup -/
def notNone : Option HVal → Bool
  | none => false
  | some (.v .none) => false
  | some _ => true

/-- wap.py:33-38 `is_mms_notification` -/
def isMmsNotification (push : Msg) : Bool :=
  notNone (push.headers.get (py! "From")) && notNone (push.headers.get (py! "Content-Location"))

end Verif.Mms

import Verif.Model.WspDec
import Verif.Model.WspEnc
import Verif.Model.Message
/-!
# Model of `messaging/mms/mms_pdu.py`
-/
set_option autoImplicit false

namespace Verif.Mms

/-- the value types named in `mms_field_names` (mms_pdu.py:35-60) -/
inductive MType
  | encodedStringValue | uriValue | contentTypeValue | dateValue | booleanValue | deliveryTimeValue | expiryValue | fromValue | messageClassValue | textString | messageTypeValue | versionValue | longInteger | priorityValue | responseStatusValue | senderVisibilityValue | statusValue
  deriving DecidableEq, Repr

/-- mms_pdu.py:35-60 `mms_field_names` -/
def mmsFieldNames : List (Nat × Str × MType) := [
  (0x01, py! "Bcc", .encodedStringValue),
  (0x02, py! "Cc", .encodedStringValue),
  (0x03, py! "Content-Location", .uriValue),
  (0x04, py! "Content-Type", .contentTypeValue),
  (0x05, py! "Date", .dateValue),
  (0x06, py! "Delivery-Report", .booleanValue),
  (0x07, py! "Delivery-Time", .deliveryTimeValue),
  (0x08, py! "Expiry", .expiryValue),
  (0x09, py! "From", .fromValue),
  (0x0a, py! "Message-Class", .messageClassValue),
  (0x0b, py! "Message-ID", .textString),
  (0x0c, py! "Message-Type", .messageTypeValue),
  (0x0d, py! "MMS-Version", .versionValue),
  (0x0e, py! "Message-Size", .longInteger),
  (0x0f, py! "Priority", .priorityValue),
  (0x10, py! "Read-Reply", .booleanValue),
  (0x11, py! "Report-Allowed", .booleanValue),
  (0x12, py! "Response-Status", .responseStatusValue),
  (0x13, py! "Response-Text", .encodedStringValue),
  (0x14, py! "Sender-Visibility", .senderVisibilityValue),
  (0x15, py! "Status", .statusValue),
  (0x16, py! "Subject", .encodedStringValue),
  (0x17, py! "To", .encodedStringValue),
  (0x18, py! "Transaction-Id", .textString)]

/-! ## Decoder -/

/-- mms_pdu.py:295-326 `decode_encoded_string_value` -/
def decodeEncodedStringValue : D Str :=
  orDecodeError
    (do
      let _ ← decodeValueLength
      let _ ← M.tryCatch decodeWellKnownCharset (fun e => e == .decodeError) (fun _ => M.throw .exception)
      decodeTextString)
    decodeTextString

/-- mms_pdu.py:329-354 `decode_boolean_value` -/
def decodeBooleanValue : D Bool := do
  let byte ← preview
  if byte ≠ 128 ∧ byte ≠ 129 then do
    resetPreview
    M.throw .decodeError
  else do
    let byte ← next
    pure (byte == 128)

/-- mms_pdu.py:357-368 `decode_delivery_time_value` -/
def decodeDeliveryTimeValue : D (Str × Nat) := do
  let _ ← decodeValueLength
  let token ← next
  let value ← decodeLongInteger
  if token = 128 then pure (py! "absolute", value)
  else if token = 129 then pure (py! "relative", value)
  else M.throw .decodeError

/-- mms_pdu.py:371-390 `decode_from_value` -/
def decodeFromValue : D Str := do
  let _ ← decodeValueLength
  let byte ← next
  if byte = 129 then pure (py! "<not inserted>")
  else decodeEncodedStringValue

/-- mms_pdu.py:411-416 `class_identifiers` -/
def classIdentifiers : List (Nat × Str) :=
  [(128, py! "Personal"), (129, py! "Advertisement"), (130, py! "Informational"), (131, py! "Auto")]

/-- mms_pdu.py:393-423 `decode_message_class_value` -/
def decodeMessageClassValue : D Str := do
  let byte ← preview
  match lookupNum classIdentifiers byte with
  | some s => do
    let _ ← next
    pure s
  | none => do
    resetPreview
    decodeTokenText

/-- mms_pdu.py:435-443 and 973-981 `message_types` -/
def messageTypes : List (Nat × Str) :=
  [(0x80, py! "m-send-req"), (0x81, py! "m-send-conf"), (0x82, py! "m-notification-ind"),
   (0x83, py! "m-notifyresp-ind"), (0x84, py! "m-retrieve-conf"), (0x85, py! "m-acknowledge-ind"),
   (0x86, py! "m-delivery-ind")]

/-- mms_pdu.py:426-451 `decode_message_type_value` -/
def decodeMessageTypeValue : D Str := do
  let byte ← preview
  match lookupNum messageTypes byte with
  | some s => do
    let _ ← next
    pure s
  | none => do
    resetPreview
    pure (py! "<unknown>")

/-- mms_pdu.py:466 `priorities` -/
def priorities : List (Nat × Str) := [(128, py! "Low"), (129, py! "Normal"), (130, py! "High")]

/-- mms_pdu.py:454-475 `decode_priority_value` -/
def decodePriorityValue : D Str := do
  let byte ← preview
  match lookupNum priorities byte with
  | some s => do
    let _ ← next
    pure s
  | none => do
    resetPreview
    M.throw .decodeError

/-- mms_pdu.py:478-503 `decode_sender_visibility_value` -/
def decodeSenderVisibilityValue : D Str := do
  let byte ← preview
  if byte ≠ 128 ∧ byte ≠ 129 then do
    resetPreview
    M.throw .decodeError
  else do
    let byte ← next
    pure (if byte = 128 then py! "Hide" else py! "Show")

/-- mms_pdu.py:520-530 `response_status_values` -/
def responseStatusValues : List (Nat × Str) :=
  [(0x80, py! "Ok"), (0x81, py! "Error-unspecified"), (0x82, py! "Error-service-denied"),
   (0x83, py! "Error-message-format-corrupt"), (0x84, py! "Error-sending-address-unresolved"),
   (0x85, py! "Error-message-not-found"), (0x86, py! "Error-network-problem"),
   (0x87, py! "Error-content-not-accepted"), (0x88, py! "Error-unsupported-message")]

/-- mms_pdu.py:506-534 `decode_response_status_value`: the fallback is the int 0x81 -/
def decodeResponseStatusValue : D Val := do
  let byte ← preview
  let _ ← next
  match lookupNum responseStatusValues byte with
  | some s => pure (.str s)
  | none => pure (.int 0x81)

/-- mms_pdu.py:550-556 and 987-993 `status_values` -/
def statusValues : List (Nat × Str) :=
  [(0x80, py! "Expired"), (0x81, py! "Retrieved"), (0x82, py! "Rejected"), (0x83, py! "Deferred"),
   (0x84, py! "Unrecognised")]

/-- mms_pdu.py:537-560 `decode_status_value`: the fallback is the int 0x84 -/
def decodeStatusValue : D Val := do
  let byte ← next
  match lookupNum statusValues byte with
  | some s => pure (.str s)
  | none => pure (.int 0x84)

/-- mms_pdu.py:563-586 `decode_expiry_value` -/
def decodeExpiryValue : D Val := do
  let _ ← decodeValueLength
  let token ← next
  if token = 0x80 then do
    let d ← decodeDateValue
    pure (.dt d)
  else if token = 0x81 then do
    let n ← decodeDeltaSecondsValue
    pure (.int n)
  else M.throw .decodeError

/-- mms_pdu.py:283 `getattr(MMSDecoder, 'decode_%s' % name)(byte_iter)` -/
def decodeMmsValue : MType → D HVal
  | .encodedStringValue => do let s ← decodeEncodedStringValue; pure (.v (.str s))
  | .uriValue => do let s ← decodeUriValue; pure (.v (.str s))
  | .contentTypeValue => do let (m, p) ← decodeContentTypeValue; pure (.ct m p)
  | .dateValue => do let d ← decodeDateValue; pure (.v (.dt d))
  | .booleanValue => do let b ← decodeBooleanValue; pure (.v (.bool b))
  | .deliveryTimeValue => do let (t, n) ← decodeDeliveryTimeValue; pure (.tup t (.int n))
  | .expiryValue => do let v ← decodeExpiryValue; pure (.v v)
  | .fromValue => do let s ← decodeFromValue; pure (.v (.str s))
  | .messageClassValue => do let s ← decodeMessageClassValue; pure (.v (.str s))
  | .textString => do let s ← decodeTextString; pure (.v (.str s))
  | .messageTypeValue => do let s ← decodeMessageTypeValue; pure (.v (.str s))
  | .versionValue => do let s ← decodeVersionValue; pure (.v (.str s))
  | .longInteger => do let n ← decodeLongInteger; pure (.v (.int n))
  | .priorityValue => do let s ← decodePriorityValue; pure (.v (.str s))
  | .responseStatusValue => do let v ← decodeResponseStatusValue; pure (.v v)
  | .senderVisibilityValue => do let s ← decodeSenderVisibilityValue; pure (.v (.str s))
  | .statusValue => do let v ← decodeStatusValue; pure (.v v)

/-- mms_pdu.py:281-290: exceptions other than DecodeError (StopIteration included) become RuntimeError -/
def wrapFatal {α : Type} (m : D α) : D α :=
  M.tryCatch m (fun e => e != .decodeError && e != .diverge) (fun _ => M.throw .runtimeError)

/-- mms_pdu.py:245-292 `decode_mms_header`.  When the octet has no MSB, `decode_short_integer_from_byte` raises before
`reset_preview`, so the preview offset stays advanced. -/
def decodeMmsHeader : D (Str × HVal) := do
  let p ← preview
  let byte ← M.lift (decodeShortIntegerFromByte p)
  match lookupNum mmsFieldNames byte with
  | some (name, ty) => do
    let _ ← next
    let v ← wrapFatal (decodeMmsValue ty)
    pure (name, v)
  | none => do
    resetPreview
    M.throw .decodeError

/-- mms_pdu.py:214-242 `decode_header` -/
def decodeHeader : D (Str × HVal) := orDecodeError decodeMmsHeader decodeWspHeader

/-- mms_pdu.py:135-151: the loop of `decode_message_header`.  `fuel` bounds the number of iterations and is proved
sufficient (`C50_headers`). -/
def headerLoop : Nat → Dict HVal → D (Dict HVal)
  | 0, _ => M.throw .diverge
  | fuel + 1, hdrs => fun s =>
    match decodeHeader s with
    | .ok (h, v) s' =>
      if h = py! "Content-Type" then .ok (hdrs.set h v) s'
      else headerLoop fuel (hdrs.set h v) s'
    | .err .stopIteration s' => .ok hdrs s'
    | .err e s' => .err e s'

/-- mms_pdu.py:195-200: the loop reading the headers of a part; same remark on `fuel` -/
def partHeaderLoop : Nat → Dict HVal → D (Dict HVal)
  | 0, _ => M.throw .diverge
  | fuel + 1, hdrs => fun s =>
    match decodeHeader s with
    | .ok (h, v) s' => partHeaderLoop fuel (hdrs.set h v) s'
    | .err .stopIteration s' => .ok hdrs s'
    | .err e s' => .err e s'

/-- mms_pdu.py:188-200: what is read from `ct_iter` -/
def partHeaders (bytes : List Nat) : D (Str × Dict Val × Dict HVal) := do
  let (ctype, params) ← decodeContentTypeValue
  let hdrs ← partHeaderLoop (bytes.length + 1) [(py! "Content-Type", .ct ctype params)]
  pure (ctype, params, hdrs)

/-- mms_pdu.py:179-211: one iteration of the loop over the parts -/
def decodePart : D DataPart := do
  let headersLen ← decodeUintVar
  let dataLen ← decodeUintVar
  xrangeCheck headersLen
  let ctBytes ← nextN headersLen
  let (_, params, hdrs) ← onFresh ctBytes (partHeaders ctBytes)
  xrangeCheck dataLen
  let data ← nextN dataLen
  pure { ctParams := params, headers := hdrs, filename := none, data := some data }

/-- mms_pdu.py:178-211: the loop over the parts -/
def partLoop : Nat → List DataPart → D (List DataPart)
  | 0, acc => pure acc
  | n + 1, acc => do
    let p ← decodePart
    partLoop n (acc ++ [p])

/-- mms_pdu.py:155-211 `decode_message_body`, giving the data parts added to the message -/
def decodeMessageBody : D (List DataPart) := fun s =>
  match decodeUintVar s with
  | .err .stopIteration s' => .ok [] s'
  | .err e s' => .err e s'
  | .ok n s' =>
    (do
      xrangeCheck n
      partLoop n []) s'

/-- mms_pdu.py:112-153 `decode_message_header`, from the headers of a new message -/
def decodeMessageHeader : D (Dict HVal) := fun s => headerLoop (s.rem.length + 1) Msg.new.headers s

/-- mms_pdu.py:96-110 `decode_data` (and message.py:241-252 `from_data`) -/
def decodeData (data : List Nat) : Py Msg :=
  match (do
      let hdrs ← decodeMessageHeader
      let parts ← decodeMessageBody
      pure { Msg.new with headers := hdrs, dataParts := parts } : D Msg) (It.new data) with
  | .ok m _ => .ok m
  | .err e _ => .error e

/-- mms_pdu.py:76-94 `decode_file` (and message.py:255-266 `from_file`) -/
def decodeFile (env : Env) (filename : Str) : Py Msg :=
  match env.files filename with
  | none => .error .osError
  | some d => decodeData d

/-! ## Encoder -/

/-- mms_pdu.py:24-32 `flatten_list`; deeper nesting does not occur -/
def flattenList : List Item → List Item
  | [] => []
  | .list l :: r => ints l ++ flattenList r
  | x :: r => x :: flattenList r

/-- `array('B').extend(l)`: TypeError for elements that are not ints, OverflowError for ints out of range -/
def toOctets : List Item → Py (List Nat)
  | [] => .ok []
  | .int n :: r => do
    if n < 0 ∨ n > 255 then .error .overflowError
    else do
      let l ← toOctets r
      .ok (n.toNat :: l)
  | .str _ :: _ => .error .typeError
  | .list _ :: _ => .error .typeError

/-- the key of a table entry with this name -/
def lookupName (t : List (Nat × Str)) (s : Str) : Option Nat :=
  match t with
  | [] => none
  | (k, x) :: r => if x = s then some k else lookupName r s

/-- mms_pdu.py:937-955 `encode_encoded_string_value` -/
def encodeEncodedStringValue (x : HVal) : Py (List Int) := encodeTextStringH x

/-- `len(x)` of a header value -/
def hlen : HVal → Py Nat
  | .v (.str s) => .ok s.length
  | .v (.uni s) => .ok s.length
  | .v _ => .error .typeError
  | .tup _ _ => .ok 2
  | .ct _ _ => .ok 2

/-- mms_pdu.py:901-934 `encode_from_value` -/
def encodeFromValue (x : HVal) : Py (List Int) := do
  let n ← hlen x
  if n = 0 then .ok (encodeValueLength 1 ++ [129])
  else do
    let a ← encodeEncodedStringValue x
    .ok (encodeValueLength ((a.length : Int) + 1) ++ [128] ++ a)

/-- mms_pdu.py:958-983 `encode_message_type_value`; a content type tuple is not hashable -/
def encodeMessageTypeValue : HVal → Py (List Item)
  | .v (.str s) | .v (.uni s) =>
    match lookupName messageTypes s with
    | some n => .ok [.int n]
    | none => .ok [.int 0x80]
  | .ct _ _ => .error .typeError
  | _ => .ok [.int 0x80]

/-- mms_pdu.py:986-996 `encode_status_value`: the fallback is a string -/
def encodeStatusValue : HVal → Py (List Item)
  | .v (.str s) | .v (.uni s) =>
    match lookupName statusValues s with
    | some n => .ok [.int n]
    | none => .ok [.str (py! "Unrecognised")]
  | .ct _ _ => .error .typeError
  | _ => .ok [.str (py! "Unrecognised")]

/-- a plain value, or the given error for tuples -/
def plain (e : PyErr) : HVal → Py Val
  | .v x => .ok x
  | _ => .error e

/-- mms_pdu.py:844-845 `getattr(MMSEncoder, 'encode_%s' % expected_type)(header_value)`.  `encode_content_type_value`
needs two arguments (TypeError); the other methods do not exist (AttributeError). -/
def encodeMmsValue (t : MType) (x : HVal) : Py (List Item) :=
  match t with
  | .encodedStringValue => do let l ← encodeEncodedStringValue x; .ok (ints l)
  | .fromValue => do let l ← encodeFromValue x; .ok (ints l)
  | .textString => do let l ← encodeTextStringH x; .ok (ints l)
  | .messageTypeValue => encodeMessageTypeValue x
  | .versionValue => do
    let v ← plain .typeError x
    let l ← encodeVersionValue v
    .ok (ints l)
  | .longInteger => do
    let v ← plain .encodeError x
    let l ← encodeLongIntegerV v
    .ok (ints l)
  | .statusValue => encodeStatusValue x
  | .contentTypeValue => .error .typeError
  | .uriValue | .dateValue | .booleanValue | .deliveryTimeValue | .expiryValue | .messageClassValue
  | .priorityValue | .responseStatusValue | .senderVisibilityValue => .error .attributeError

/-- the entry of `mms_field_names` with this name -/
def findField (t : List (Nat × Str × MType)) (name : Str) : Option (Nat × MType) :=
  match t with
  | [] => none
  | (k, n, ty) :: r => if n = name then some (k, ty) else findField r name

/-- mms_pdu.py:808-866 `encode_header` -/
def encodeHeader (name : Str) (value : HVal) : Py (List Item) :=
  match findField mmsFieldNames name with
  | some (n, ty) => do
    let a ← encodeShortInteger n
    let b ← encodeMmsValue ty value
    .ok (ints a ++ b)
  | none => do
    let a ← encodeTokenText name
    let b ← encodeTextStringH value
    .ok (ints a ++ ints b)

/-- mms_pdu.py:869-898 `encode_mms_field_name` -/
def encodeMmsFieldName (name : Str) : Py (List Int) :=
  match findField mmsFieldNames name with
  | some (n, _) => encodeShortInteger n
  | none => .error .encodeError

/-- mms_pdu.py:634-643: `headers[clean] = headers[hdr]; del headers[hdr]` if present -/
def renameHeader (d : Dict HVal) (hdr clean : Str) : Dict HVal :=
  match d.get hdr with
  | some v => (d.set clean v).del hdr
  | none => d

/-- equality with a `str` literal -/
def isStr (x : Option HVal) (s : Str) : Bool := x = some (.v (.str s)) || x = some (.v (.uni s))

/-- mms_pdu.py:652-671: Message-Type verification -/
def chooseMessageType (d : Dict HVal) : Dict HVal :=
  let d := if d.has (py! "Message-Type") then d else d.set (py! "Message-Type") (.v (.str (py! "m-retrieve-conf")))
  if isStr (d.get (py! "Message-Type")) (py! "m-send-req") then
    if d.has (py! "To") || d.has (py! "Cc") || d.has (py! "Bc") then d
    else d.set (py! "Message-Type") (.v (.str (py! "m-retrieve-conf")))
  else d

/-- mms_pdu.py:630-682: everything before the first header is encoded.  `rnd` is the result of
`random.randint(1000, 9999)`. -/
def prepareHeaders (rnd : Nat) (d : Dict HVal) : Dict HVal :=
  let d := renameHeader d (py! "X-Mms-Message-Type") (py! "Message-Type")
  let d := renameHeader d (py! "X-Mms-Transaction-Id") (py! "Transaction-Id")
  let d := renameHeader d (py! "X-Mms-Version") (py! "MMS-Version")
  let d := chooseMessageType d
  let d := if d.has (py! "Transaction-Id") then d else d.set (py! "Transaction-Id") (.v (.str (natStr rnd)))
  if d.has (py! "MMS-Version") then d else d.set (py! "MMS-Version") (.v (.str (py! "1.0")))

/-- `message_header.extend(MMSEncoder.encode_header(hdr, value))` -/
def headerOctets (name : Str) (value : HVal) : Py (List Nat) := do
  let l ← encodeHeader name value
  toOctets l

/-- mms_pdu.py:685-688: encode one of the first three headers and delete it from the message -/
def encodeAndDelete (hdr : Str) : M Msg (List Nat) := do
  let m ← M.get
  let v ← M.lift (m.headers.index hdr)
  let l ← M.lift (headerOctets hdr v)
  M.modify (fun m => { m with headers := m.headers.del hdr })
  pure l

/-- mms_pdu.py:692-695: all remaining headers but Content-Type, in iteration order -/
def encodeRest : Dict HVal → Py (List Nat)
  | [] => .ok []
  | (h, v) :: r =>
    if h = py! "Content-Type" then encodeRest r
    else do
      let a ← headerOctets h v
      let b ← encodeRest r
      .ok (a ++ b)

/-- mms_pdu.py:698-701: the Content-Type header -/
def encodeCtHeader (d : Dict HVal) : Py (List Nat) := do
  let v ← d.index (py! "Content-Type")
  let ret ← encodeCtPair v
  let a ← encodeMmsFieldName (py! "Content-Type")
  let a ← toOctets (ints a)
  let b ← toOctets (flattenList ret)
  .ok (a ++ b)

/-- mms_pdu.py:610-703 `encode_message_header`; works on the headers of the message itself.  `ord` gives the iteration
order of a dict (any permutation). -/
def encodeMessageHeader (ord : Dict HVal → Dict HVal) (rnd : Nat) : M Msg (List Nat) := do
  M.modify (fun m => { m with headers := prepareHeaders rnd m.headers })
  let a ← encodeAndDelete (py! "Message-Type")
  let b ← encodeAndDelete (py! "Transaction-Id")
  let c ← encodeAndDelete (py! "MMS-Version")
  let m ← M.get
  let r ← M.lift (encodeRest (ord m.headers))
  let t ← M.lift (encodeCtHeader m.headers)
  pure (a ++ b ++ c ++ r ++ t)

/-- mms_pdu.py:784-789: the encoded headers of a part but Content-Type, in iteration order -/
def encodePartHeaders : Dict HVal → Py (List Item)
  | [] => .ok []
  | (h, v) :: r =>
    if h = py! "Content-Type" then encodePartHeaders r
    else do
      let a ← encodeWspHeader h v
      let b ← encodePartHeaders r
      .ok (a ++ b)

/-- mms_pdu.py:781-803: one part -/
def encodePart (env : Env) (ord : Dict HVal → Dict HVal) (part : DataPart) : Py (List Nat) := do
  let v ← part.headers.index (py! "Content-Type")
  let ct ← encodeCtPair v
  let hs ← encodePartHeaders (ord part.headers)
  let a ← toOctets (ints (encodeUintVar ((ct.length : Int) + hs.length)))
  let n ← part.len env
  let b ← toOctets (ints (encodeUintVar n))
  let c ← toOctets ct
  let d ← toOctets hs
  let data ← part.readData env
  .ok (a ++ b ++ c ++ d ++ data)

/-- mms_pdu.py:780-803: the loop over the parts -/
def encodeParts (env : Env) (ord : Dict HVal → Dict HVal) : List DataPart → Py (List Nat)
  | [] => .ok []
  | p :: ps => do
    let a ← encodePart env ord p
    let b ← encodeParts env ord ps
    .ok (a ++ b)

/-- mms_pdu.py:769-773: the SMIL part -/
def smilPart (smil : Str) : DataPart :=
  { DataPart.new with
    headers := [(py! "Content-Type", .ct (py! "application/smil") []),
      (py! "Content-ID", .v (.str (py! "<0000>")))]
    data := some smil }

/-- mms_pdu.py:775-778: the parts of the slides -/
def slideParts : List Page → List DataPart
  | [] => []
  | p :: ps => p.dataParts.map (fun t => t.1) ++ slideParts ps

/-- mms_pdu.py:752-757: the announced number of parts -/
def numEntries (m : Msg) : Nat := 1 + (m.pages.map Page.numberOfParts).sum + m.dataParts.length

/-- mms_pdu.py:705-805 `encode_message_body`.  Simplified: the caching of file contents in the parts is not
tracked here but in `Model/Cache.lean`. -/
def encodeMessageBody (env : Env) (ord : Dict HVal → Dict HVal) (m : Msg) : Py (List Nat) := do
  let a ← toOctets (ints (encodeUintVar (numEntries m)))
  let smil ← m.smil env
  let b ← encodeParts env ord (smilPart smil :: slideParts m.pages)
  .ok (a ++ b)

/-- mms_pdu.py:595-608 `encode` (and message.py:212-223 `encode`) -/
def encode (env : Env) (ord : Dict HVal → Dict HVal) (rnd : Nat) : M Msg (List Nat) := do
  let h ← encodeMessageHeader ord rnd
  let m ← M.get
  let b ← M.lift (encodeMessageBody env ord m)
  pure (h ++ b)

end Verif.Mms

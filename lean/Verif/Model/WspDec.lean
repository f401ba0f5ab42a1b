import Verif.Model.Iter
import Verif.Model.WspTables
import Verif.Model.Calendar
/-!
# Model of `messaging/mms/wsp_pdu.py`, class `Decoder`

The iterator runs over octets (values below 256), so `chr` does not fail and is the identity on ordinals.
-/
set_option autoImplicit false

namespace Verif.Mms

/-- wsp_pdu.py:320-334 `decode_uint_8` -/
def decodeUint8 : D Nat := do
  let byte ← next
  pure (byte &&& 0xf)

/-- wsp_pdu.py:355-364: the loop of `decode_uint_var` -/
def uintVarLoop (uint : Nat) : List Nat → Res It Nat
  | [] => .err .stopIteration ⟨[], 0⟩
  | byte :: rest =>
    if byte >>> 7 = 0x01 then uintVarLoop ((uint <<< 7) ||| (byte &&& 0x7f)) rest
    else .ok ((uint <<< 7) ||| (byte &&& 0x7f)) ⟨rest, 0⟩

/-- wsp_pdu.py:337-364 `decode_uint_var` -/
def decodeUintVar : D Nat := fun s => uintVarLoop 0 s.rem

/-- wsp_pdu.py:367-392 `decode_short_integer` -/
def decodeShortInteger : D Nat := do
  let byte ← preview
  if byte &&& 0x80 = 0 then do
    resetPreview
    M.throw .decodeError
  else do
    let byte ← next
    pure (byte &&& 0x7f)

/-- wsp_pdu.py:395-409 `decode_short_integer_from_byte` -/
def decodeShortIntegerFromByte (byte : Nat) : Py Nat :=
  if byte &&& 0x80 = 0 then .error .decodeError else .ok (byte &&& 0x7f)

/-- wsp_pdu.py:596-617 `decode_short_length` -/
def decodeShortLength : D Nat := do
  let byte ← preview
  if byte > 30 then do
    resetPreview
    M.throw .decodeError
  else next

/-- wsp_pdu.py:450-454: the loop of `decode_long_integer`, `n` iterations left -/
def longIntLoop (longInt : Nat) : Nat → D Nat
  | 0 => pure longInt
  | n + 1 => do
    let byte ← next
    longIntLoop ((longInt <<< 8) ||| byte) n

/-- wsp_pdu.py:412-454 `decode_long_integer` -/
def decodeLongInteger : D Nat := do
  let shortLength ← decodeShortLength
  longIntLoop 0 shortLength

/-- wsp_pdu.py:482-486 and 565-569: read up to the terminating NUL -/
def textLoop (acc : Str) : List Nat → Res It Str
  | [] => .err .stopIteration ⟨[], 0⟩
  | byte :: rest => if byte ≠ 0x00 then textLoop (acc ++ [byte]) rest else .ok acc ⟨rest, 0⟩

/-- wsp_pdu.py:457-486 `decode_text_string` -/
def decodeTextString : D Str := fun s =>
  match s.rem with
  | 127 :: rest => textLoop [] rest
  | rest => textLoop [] rest

/-- wsp_pdu.py:489-511 `decode_quoted_string` -/
def decodeQuotedString : D Str := do
  let byte ← preview
  if byte ≠ 34 then do
    resetPreview
    M.throw .decodeError
  else do
    let _ ← next
    decodeTextString

/-- wsp_pdu.py:532-536: the loop of `decode_token_text` -/
def tokenLoop (acc : Str) : List Nat → Res It Str
  | [] => .err .stopIteration ⟨[], 0⟩
  | byte :: rest =>
    if byte > 31 ∧ byte ∉ separators then tokenLoop (acc ++ [byte]) rest else .ok acc ⟨rest, 0⟩

/-- wsp_pdu.py:514-536 `decode_token_text` -/
def decodeTokenText : D Str := do
  let byte ← preview
  if byte ≤ 31 ∨ byte ∈ separators then do
    resetPreview
    M.throw .decodeError
  else fun s => tokenLoop [] s.rem

/-- wsp_pdu.py:539-569 `decode_extension_media` -/
def decodeExtensionMedia : D Str := do
  let byte ← preview
  if byte < 32 ∨ byte = 127 then do
    resetPreview
    M.throw .decodeError
  else fun s => textLoop [] s.rem

/-- wsp_pdu.py:572-593 `decode_constrained_encoding` -/
def decodeConstrainedEncoding : D Val :=
  orDecodeError
    (do let n ← decodeShortInteger; pure (.int n))
    (do let s ← decodeExtensionMedia; pure (.str s))

/-- wsp_pdu.py:620-656 `decode_value_length` -/
def decodeValueLength : D Nat :=
  orDecodeError decodeShortLength (do
    let byte ← preview
    if byte = 31 then do
      let _ ← next
      decodeUintVar
    else do
      resetPreview
      M.throw .decodeError)

/-- wsp_pdu.py:659-689 `decode_integer_value` -/
def decodeIntegerValue : D Nat := orDecodeError decodeShortInteger decodeLongInteger

/-- `well_known_content_types[value]`, IndexError turned into DecodeError (wsp_pdu.py:761-765, 811-815) -/
def mediaName (value : Nat) : Py Str :=
  match wellKnownContentTypes[value]? with
  | some s => .ok s
  | none => .error .decodeError

/-- wsp_pdu.py:725-765 `decode_well_known_media` -/
def decodeWellKnownMedia : D Str := do
  let value ← decodeIntegerValue
  M.lift (mediaName value)

/-- wsp_pdu.py:768-787 `decode_media_type` -/
def decodeMediaType : D Str := orDecodeError decodeWellKnownMedia decodeExtensionMedia

/-- wsp_pdu.py:790-817 `decode_constrained_media` -/
def decodeConstrainedMedia : D Str := do
  let v ← decodeConstrainedEncoding
  match v with
  | .int n => M.lift (mediaName n.toNat)
  | .str s => pure s
  | _ => M.throw .decodeError   -- unreachable: decode_constrained_encoding gives an int or a str

/-- `xrange(n)`: OverflowError beyond a C long (64 bit) -/
def xrangeCheck (n : Nat) : D Unit := if n < 2 ^ 63 then pure () else M.throw .overflowError

/-- `for i in xrange(n): l.append(byte_iter.next())` (wsp_pdu.py:846-847, mms_pdu.py:185-186, 204-205), the body -/
def nextN : Nat → D (List Nat)
  | 0 => pure []
  | n + 1 => do
    let x ← next
    let xs ← nextN n
    pure (x :: xs)

/-- wsp_pdu.py:1102-1122 `decode_q_value`; `float(n)` raises OverflowError from 2^1024 - 2^970 on -/
def decodeQValue : D Val := do
  let q ← decodeUintVar
  if q > 100 then
    if q - 100 ≥ 2 ^ 1024 - 2 ^ 970 then M.throw .overflowError
    else pure (.flt ((q : Int) - 100) 1000)
  else pure (.flt ((q : Int) - 1) 100)

/-- `'%d.%d' % (major, minor)` -/
def versionStr (major minor : Nat) : Str := natStr major ++ [46] ++ natStr minor

/-- wsp_pdu.py:1125-1143 `decode_version_value` -/
def decodeVersionValue : D Str :=
  orDecodeError
    (do
      let b ← decodeShortInteger
      pure (versionStr ((b &&& 0x70) >>> 4) (b &&& 0x0f)))
    decodeTextString

/-- wsp_pdu.py:1146-1150 `decode_uri_value` -/
def decodeUriValue : D Str := decodeTextString

/-- wsp_pdu.py:1153-1174 `decode_text_value` -/
def decodeTextValue : D Str :=
  orDecodeError decodeTokenText (orDecodeError decodeQuotedString (pure []))

/-- wsp_pdu.py:1177-1194 `decode_no_value`: line 1189 unpacks an `int`, a TypeError -/
def decodeNoValue : D Val := do
  let _ ← next
  M.throw .typeError

/-- `datetime.utcfromtimestamp(n)` for `n >= 0` (CPython 2): ValueError after year 9999; 719163 is the ordinal of
1970-01-01 -/
def utcFromTimestamp (n : Nat) : Py DateTime :=
  if n < 253402300800 then .ok (Cal.ofSecs ((719163 : Int) * 86400 + n)) else .error .valueError

/-- wsp_pdu.py:1067-1083 `decode_date_value` -/
def decodeDateValue : D DateTime := do
  let n ← decodeLongInteger
  M.lift (utcFromTimestamp n)

/-- wsp_pdu.py:1086-1099 `decode_delta_seconds_value` -/
def decodeDeltaSecondsValue : D Nat := decodeIntegerValue

/-- wsp_pdu.py:1274-1300 `decode_well_known_charset` -/
def decodeWellKnownCharset : D Str := do
  let byte ← preview
  resetPreview
  if byte = 127 then do
    let _ ← next
    pure (py! "*")
  else do
    let n ← decodeIntegerValue
    match lookupNum wellKnownCharsets n with
    | some s => pure s
    | none => pure (natStr n)

/-- wsp_pdu.py:900 `getattr(Decoder, 'decode_%s' % value_type)(byte_iter)`; there is no `decode_Field-name` -/
def decodeTyped : PType → D Val
  | .qValue => decodeQValue
  | .wellKnownCharset => do let s ← decodeWellKnownCharset; pure (.str s)
  | .versionValue => do let s ← decodeVersionValue; pure (.str s)
  | .integerValue => do let n ← decodeIntegerValue; pure (.int n)
  | .textString => do let s ← decodeTextString; pure (.str s)
  | .fieldName => M.throw .attributeError
  | .shortInteger => do let n ← decodeShortInteger; pure (.int n)
  | .constrainedEncoding => decodeConstrainedEncoding
  | .deltaSecondsValue => do let n ← decodeDeltaSecondsValue; pure (.int n)
  | .noValue => decodeNoValue
  | .textValue => do let s ← decodeTextValue; pure (.str s)
  | .dateValue => do let d ← decodeDateValue; pure (.dt d)

/-- wsp_pdu.py:953-999 `decode_well_known_parameter` -/
def decodeWellKnownParameter (version : Str) : D (Str × PType) := do
  let n ← decodeIntegerValue
  let t ← M.lift (getWellKnownParameters version)
  match lookupNum t n with
  | some e => pure e
  | none => M.throw .decodeError

/-- wsp_pdu.py:880-908 `decode_typed_parameter` (exceptions of the value decoder are re-raised unchanged) -/
def decodeTypedParameter : D (Str × Val) := do
  let (token, valueType) ← decodeWellKnownParameter (py! "1.2")
  let v ← decodeTyped valueType
  pure (token, v)

/-- wsp_pdu.py:933-950 `decode_untyped_value` -/
def decodeUntypedValue : D Val :=
  orDecodeError
    (do let n ← decodeIntegerValue; pure (.int n))
    (do let s ← decodeTextValue; pure (.str s))

/-- wsp_pdu.py:911-930 `decode_untyped_parameter` -/
def decodeUntypedParameter : D (Str × Val) := do
  let token ← decodeTokenText
  let value ← decodeUntypedValue
  pure (token, value)

/-- wsp_pdu.py:864-877 `decode_parameter` -/
def decodeParameter : D (Str × Val) := orDecodeError decodeTypedParameter decodeUntypedParameter

/-- wsp_pdu.py:853-859: read parameters until StopIteration.  `fuel` bounds the number of iterations; the caller
passes more than the number of octets, and `C50_params` proves that it is never exhausted. -/
def paramLoop : Nat → Dict Val → D (Dict Val)
  | 0, _ => M.throw .diverge
  | fuel + 1, params => fun s =>
    match decodeParameter s with
    | .ok (p, v) s' => paramLoop fuel (params.set p v) s'
    | .err .stopIteration s' => .ok params s'
    | .err e s' => .err e s'

/-- run a decoder on a fresh `PreviewIterator` over `bytes`, as wsp_pdu.py:849 and mms_pdu.py:188 do -/
def onFresh {α : Type} (bytes : List Nat) (m : D α) : D α := fun s =>
  match m (It.new bytes) with
  | .ok a _ => .ok a s
  | .err e _ => .err e s

/-- wsp_pdu.py:851-861: the part of `decode_content_general_form` that reads from `ct_iter` -/
def generalFormInner (bytes : List Nat) : D (Str × Dict Val) := do
  let media ← decodeMediaType
  let params ← paramLoop (bytes.length + 1) []
  pure (media, params)

/-- wsp_pdu.py:820-861 `decode_content_general_form` -/
def decodeContentGeneralForm : D (Str × Dict Val) := do
  let valueLength ← decodeValueLength
  xrangeCheck valueLength
  let bytes ← nextN valueLength
  onFresh bytes (generalFormInner bytes)

/-- wsp_pdu.py:692-722 `decode_content_type_value` -/
def decodeContentTypeValue : D (Str × Dict Val) :=
  orDecodeError (do let m ← decodeConstrainedMedia; pure (m, [])) decodeContentGeneralForm

/-- wsp_pdu.py:1034-1064 `decode_compact_value` -/
def decodeCompactValue : D Val :=
  orDecodeError
    (do let n ← decodeIntegerValue; pure (.int n))
    (do let s ← decodeUriValue; pure (.str s))

/-- wsp_pdu.py:1004-1029 `decode_typed_value` -/
def decodeTypedValue : D Val :=
  orDecodeError decodeCompactValue (do let s ← decodeTextValue; pure (.str s))

/-- wsp_pdu.py:1228-1238: the tail of `decode_accept_value` -/
def acceptTail (media : Str) : D Str := do
  let byte ← preview
  if byte = 128 then do
    let _ ← next
    let _ ← decodeQValue
    orDecodeError (do let _ ← decodeParameter; pure ()) (pure ())
    resetPreview
    pure media
  else do
    resetPreview
    pure media

/-- wsp_pdu.py:1197-1240 `decode_accept_value` -/
def decodeAcceptValue : D Str :=
  orDecodeError decodeConstrainedMedia (do
    let _ ← decodeValueLength
    let media ← orDecodeError decodeWellKnownMedia decodeExtensionMedia
    acceptTail media)

/-- wsp_pdu.py:1243-1271 `decode_pragma_value` -/
def decodePragmaValue : D (Str × Val) := do
  let byte ← preview
  if byte = 0x80 then do
    let _ ← next
    pure (py! "Cache-control", .str (py! "No-cache"))
  else do
    resetPreview
    let _ ← decodeValueLength
    decodeParameter

/-- wsp_pdu.py:1331-1345: the value of a well-known header (`header_field_encodings`, line 221) -/
def decodeWapValue (name : Str) : D HVal :=
  if name = py! "Accept" then do let s ← decodeAcceptValue; pure (.v (.str s))
  else if name = py! "Pragma" then do let (n, v) ← decodePragmaValue; pure (.tup n v)
  else do let s ← decodeTextString; pure (.v (.str s))

/-- wsp_pdu.py:1303-1347 `decode_well_known_header` -/
def decodeWellKnownHeader : D (Str × HVal) := do
  let n ← decodeShortInteger
  let names ← M.lift (getHeaderFieldNames (py! "1.2"))
  match names[n]? with
  | none => M.throw .decodeError
  | some name => do
    let v ← decodeWapValue name
    pure (name, v)

/-- wsp_pdu.py:1350-1375 `decode_application_header` -/
def decodeApplicationHeader : D (Str × HVal) := do
  let name ← orDecodeError decodeTokenText decodeTextString
  let value ← decodeTextString
  pure (name, .v (.str value))

/-- wsp_pdu.py:1378-1402 `decode_header` -/
def decodeWspHeader : D (Str × HVal) := orDecodeError decodeWellKnownHeader decodeApplicationHeader

end Verif.Mms

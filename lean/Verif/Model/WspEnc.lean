import Verif.Model.WspTables
/-!
# Model of `messaging/mms/wsp_pdu.py`, class `Encoder`

Encoders return Python lists.  Lists of ints are `List Int`; where the code can put a string or a nested list in
the result, `List Item`.
-/
set_option autoImplicit false

namespace Verif.Mms

/-- an element of a list returned by an encoder -/
inductive Item
  | int (n : Int) | str (s : Str) | list (l : List Int)
  deriving DecidableEq, Repr

/-- a list of ints as items -/
def ints (l : List Int) : List Item := l.map Item.int

/-- wsp_pdu.py:1409-1420 `encode_uint_8` (`x & 0xff` is `x mod 256` for every Python int) -/
def encodeUint8 (uint : Int) : List Int := [uint % 256]

/-- wsp_pdu.py:1448-1450: the loop of `encode_uint_var`; the result is inserted in front of what is there
(`x & 0x7f`, `x >> 7` are `x mod 128`, `x div 128`; `0x80 | y` is `128 + y` for `y < 128`) -/
def uintVarEncLoop (uint : Nat) (uintVar : List Int) : List Int :=
  if 0 < uint then uintVarEncLoop (uint / 128) (((128 + uint % 128 : Nat) : Int) :: uintVar) else uintVar
termination_by uint

/-- wsp_pdu.py:1423-1452 `encode_uint_var`.  A negative number is negative after the shift, so the loop does not
run; `Int.toNat` gives 0 then. -/
def encodeUintVar (uint : Int) : List Int := uintVarEncLoop (uint / 128).toNat [uint % 128]

/-- `[ord(c) for c in string] + [0]` for a `str` or `unicode` -/
def textOctets (s : Str) : List Int := s.map (fun c : Nat => (c : Int)) ++ [0]

/-- wsp_pdu.py:1455-1470 `encode_text_string`; values that are not strings are not iterable -/
def encodeTextString : Val → Py (List Int)
  | .str s => .ok (textOctets s)
  | .uni s => .ok (textOctets s)
  | _ => .error .typeError

/-- wsp_pdu.py:1455-1470 `encode_text_string` on a whole header value.  A tuple is iterable; `ord` accepts its
elements only if they are strings of length one. -/
def encodeTextStringH : HVal → Py (List Int)
  | .v x => encodeTextString x
  | .tup [a] (.str [b]) => .ok [a, b, 0]
  | .tup [a] (.uni [b]) => .ok [a, b, 0]
  | .tup _ _ => .error .typeError
  | .ct _ _ => .error .typeError

/-- the int behind an `int` or `bool` value -/
def intOf : Val → Option Int
  | .int n => some n
  | .bool b => some (if b then 1 else 0)
  | _ => none

/-- wsp_pdu.py:1473-1499 `encode_short_integer` on an int (`n | 0x80` is `n + 128` in this range) -/
def encodeShortInteger (integer : Int) : Py (List Int) :=
  if integer < 0 ∨ integer > 127 then .error .encodeError else .ok [integer + 128]

/-- wsp_pdu.py:1473-1499 `encode_short_integer` on any value.  Strings compare above every int and `None` below, and
formatting the message with `%d` then fails with TypeError; a float in range fails in `|` and one out of range is
formatted; a datetime cannot be compared. -/
def encodeShortIntegerV (x : Val) : Py (List Int) :=
  match intOf x with
  | some n => encodeShortInteger n
  | none =>
    match x with
    | .flt num den => if num < 0 ∨ num > 127 * den then .error .encodeError else .error .typeError
    | _ => .error .typeError

/-- wsp_pdu.py:1529-1532: the loop of `encode_long_integer` -/
def longIntEncLoop (longInt : Nat) (acc : List Int) : List Int :=
  if 0 < longInt then longIntEncLoop (longInt / 256) (acc ++ [((longInt % 256 : Nat) : Int)]) else acc
termination_by longInt

/-- wsp_pdu.py:1502-1540 `encode_long_integer` on an int -/
def encodeLongInteger (integer : Int) : Py (List Int) :=
  if !isPyInt integer then .error .encodeError
  else
    let encoded := longIntEncLoop integer.toNat []
    if encoded.length > 30 then .error .encodeError
    else .ok ((encoded.length : Int) :: encoded)

/-- wsp_pdu.py:1523: values of other types -/
def encodeLongIntegerV (x : Val) : Py (List Int) :=
  match intOf x with
  | some n => encodeLongInteger n
  | none => .error .encodeError

/-- `s.split('.')` -/
def splitDot : Str → List Str
  | [] => [[]]
  | c :: cs =>
    if c = 46 then [] :: splitDot cs
    else match splitDot cs with
      | [] => [[c]]
      | x :: xs => (c :: x) :: xs

/-- a non-empty digit string as a number -/
def digitsVal (s : Str) : Option Nat :=
  if s.isEmpty || s.any (fun c => !(48 ≤ c && c ≤ 57)) then none
  else some (s.foldl (fun a c => 10 * a + (c - 48)) 0)

/-- `int(s)` (CPython 2): white space around, an optional sign, which white space may follow (`PyOS_strtol`), digits -/
def pyIntStr (s : Str) : Py Int :=
  match strip s with
  | 43 :: r => match digitsVal (lstrip r) with
    | some n => .ok n
    | none => .error .valueError
  | 45 :: r => match digitsVal (lstrip r) with
    | some n => .ok (-(n : Int))
    | none => .error .valueError
  | r => match digitsVal r with
    | some n => .ok n
    | none => .error .valueError

/-- wsp_pdu.py:1568-1582: the body of the `try` in `encode_version_value` -/
def versionTry (version : Str) : Py (List Int) :=
  match splitDot version with
  | [a] => do
    let major ← pyIntStr a
    if major < 1 ∨ major > 7 then .error .valueError
    else encodeShortInteger (16 * major + 15)
  | [a, b] => do
    let major ← pyIntStr a
    if major < 1 ∨ major > 7 then .error .valueError
    else do
      let minor ← pyIntStr b
      if minor < 0 ∨ minor > 14 then .error .valueError
      else encodeShortInteger (16 * major + minor)
  | _ => .ok []

/-- wsp_pdu.py:1543-1588 `encode_version_value` (`major << 4 | minor` is `16 * major + minor` in these ranges) -/
def encodeVersionValue : Val → Py (List Int)
  | .str version =>
    match versionTry version with
    | .ok l => .ok l
    | .error _ => .ok (textOctets version)
  | _ => .error .typeError

/-- `l.index(x)` after `x in l` -/
def indexOf (l : List Str) (x : Str) : Option Nat :=
  match l with
  | [] => none
  | y :: r => if y = x then some 0 else (indexOf r x).map (· + 1)

/-- wsp_pdu.py:1591-1616 `encode_media_type`: a list with one nested list -/
def encodeMediaType (contentType : Str) : Py (List Item) :=
  match indexOf wellKnownContentTypes contentType with
  | some i => do
    let val ← encodeShortInteger i
    .ok [.list val]
  | none => .ok [.list (textOctets contentType)]

/-- wsp_pdu.py:1693-1710 `encode_token_text` -/
def encodeTokenText (text : Str) : Py (List Int) :=
  if separators.any (fun c => text.contains c) then .error .encodeError else .ok (textOctets text)

/-- wsp_pdu.py:1713-1738 `encode_integer_value` -/
def encodeIntegerValue (x : Val) : Py (List Int) :=
  match intOf x with
  | none => .error .encodeError
  | some n =>
    if !isPyInt n then .error .encodeError
    else match encodeShortInteger n with
      | .ok l => .ok l
      | .error .encodeError => encodeLongInteger n
      | .error e => .error e

/-- wsp_pdu.py:1741-1743 `encode_text_value` -/
def encodeTextValue (x : Val) : Py (List Int) := encodeTextString x

/-- wsp_pdu.py:1746-1760 `encode_no_value` -/
def encodeNoValue : List Int := [0]

/-- wsp_pdu.py:1929-1934: `encode_extension_media` on a string -/
def encodeExtensionMedia : Str → Py (List Int)
  | [] => .error .indexError
  | c :: cs => if c < 32 ∨ c = 127 then .error .encodeError else .ok (textOctets (c :: cs))

/-- wsp_pdu.py:1869-1900 `encode_constrained_encoding` (with 1923-1928 of `encode_extension_media`).  The message of
the EncodeError on lines 1897-1898 is made with `str(value)`, which fails for `unicode` that is not ASCII.  The text of a
float or `datetime` is left open, see `strOther`. -/
def encodeConstrainedEncoding : Val → Py (List Int)
  | .int n =>
    if isPyInt n then encodeShortInteger n
    else encodeExtensionMedia (intStr n)
  | .bool b => encodeShortInteger (if b then 1 else 0)
  | .str s => encodeExtensionMedia s
  | .uni s =>
    match encodeExtensionMedia s with
    | .error .encodeError => if s.any (127 < ·) then .error .unicodeError else .error .encodeError
    | r => r
  | .none => encodeExtensionMedia (py! "None")
  | .flt a b => encodeExtensionMedia (strOther (.v (.flt a b)))
  | .dt d => encodeExtensionMedia (strOther (.v (.dt d)))

/-- wsp_pdu.py:1842-1866 `encode_constrained_media` -/
def encodeConstrainedMedia (mediaType : Str) : Py (List Int) :=
  match indexOf wellKnownContentTypes mediaType with
  | some i => encodeConstrainedEncoding (.int i)
  | none => encodeConstrainedEncoding (.str mediaType)

/-- wsp_pdu.py:1664 `getattr(Encoder, 'encode_%s' % expected_type)(parameter_value)`; the missing methods give
AttributeError -/
def encodeTyped (t : PType) (x : Val) : Py (List Int) :=
  match t with
  | .versionValue => encodeVersionValue x
  | .integerValue => encodeIntegerValue x
  | .textString => encodeTextString x
  | .shortInteger => encodeShortIntegerV x
  | .constrainedEncoding => encodeConstrainedEncoding x
  | .noValue => .ok encodeNoValue
  | .textValue => encodeTextValue x
  | .qValue | .wellKnownCharset | .fieldName | .deltaSecondsValue | .dateValue => .error .attributeError

/-- wsp_pdu.py:1654-1657: the entry with the highest assigned number that has this name -/
def findParam (t : List (Nat × Str × PType)) (name : Str) : Option (Nat × PType) :=
  match t.reverse.find? (fun e => e.2.1 = name) with
  | some e => some (e.1, e.2.2)
  | none => none

/-- wsp_pdu.py:1619-1688 `encode_parameter` (the table is sorted by assigned number) -/
def encodeParameter (name : Str) (x : Val) (version : Str) : Py (List Int) := do
  let t ← getWellKnownParameters version
  match findParam t name with
  | some (n, ty) => do
    let a ← encodeShortInteger n
    let b ← encodeTyped ty x
    .ok (a ++ b)
  | none => do
    let a ← encodeTokenText name
    let b ← match encodeIntegerValue x with
      | .ok l => Except.ok l
      | .error .encodeError => encodeTextString x
      | .error e => .error e
    .ok (a ++ b)

/-- wsp_pdu.py:1999-2015 `encode_short_length` -/
def encodeShortLength (length : Int) : Py (List Int) :=
  if length < 0 ∨ length > 30 then .error .encodeError else .ok [length]

/-- wsp_pdu.py:1967-1996 `encode_value_length` -/
def encodeValueLength (length : Int) : List Int :=
  match encodeShortLength length with
  | .ok l => l
  | .error _ => 31 :: encodeUintVar length

/-- wsp_pdu.py:1955-1956: the list of encoded parameters -/
def encodeParameters : Dict Val → Py (List (List Int))
  | [] => .ok []
  | (n, x) :: r => do
    let p ← encodeParameter n x (py! "1.2")
    let ps ← encodeParameters r
    .ok (p :: ps)

/-- wsp_pdu.py:1937-1964 `encode_content_general_form` -/
def encodeContentGeneralForm (mediaType : Str) (parameters : Dict Val) : Py (List Item) := do
  let m ← encodeMediaType mediaType
  let ps ← encodeParameters parameters
  .ok (ints (encodeValueLength ((m.length : Int) + ps.length)) ++ m ++ ps.map Item.list)

/-- wsp_pdu.py:1814-1839 `encode_content_type_value` -/
def encodeContentTypeValue (mediaType : Str) (parameters : Dict Val) : Py (List Item) :=
  if parameters.length ≠ 0 then encodeContentGeneralForm mediaType parameters
  else match encodeConstrainedMedia mediaType with
    | .ok l => .ok (ints l)
    | .error .encodeError => encodeContentGeneralForm mediaType parameters
    | .error e => .error e

/-- mms_pdu.py:698-700 and 782-783: `name, params = v` and then `encode_content_type_value(name, params)`.  A string of two
characters can be unpacked; parameters without `len()`, and a string of parameters unless empty, give TypeError. -/
def encodeCtPair : HVal → Py (List Item)
  | .ct name params => encodeContentTypeValue name params
  | .tup name (.str []) | .tup name (.uni []) => encodeContentTypeValue name []
  | .tup _ _ => .error .typeError
  | .v (.str s) | .v (.uni s) => if s.length = 2 then .error .typeError else .error .valueError
  | .v _ => .error .typeError

/-- wsp_pdu.py:2041-2053: Accept-general-form, when `encode_constrained_encoding` has refused a string -/
def encodeAcceptGeneral (s : Str) : Py (List Item) := do
  let m ← encodeMediaType s
  .ok (ints (encodeValueLength m.length) ++ m)

/-- wsp_pdu.py:2018-2055 `encode_accept_value`: a string, or what `encode_constrained_encoding` makes of another value (an
integer that is no short integer then gives TypeError in `encode_text_string`).  The text of a tuple is left open, see
`strOther`. -/
def encodeAcceptValue : HVal → Py (List Item)
  | .v (.str s) =>
    match encodeConstrainedMedia s with
    | .ok l => .ok (ints l)
    | .error .encodeError => encodeAcceptGeneral s
    | .error e => .error e
  | .v (.uni s) =>
    match indexOf wellKnownContentTypes s with
    | some i => do
      let l ← encodeConstrainedEncoding (.int i)
      .ok (ints l)
    | none =>
      match encodeConstrainedEncoding (.uni s) with
      | .ok l => .ok (ints l)
      | .error .encodeError => encodeAcceptGeneral s
      | .error e => .error e
  | .v x =>
    match encodeConstrainedEncoding x with
    | .ok l => .ok (ints l)
    | .error .encodeError => .error .typeError
    | .error e => .error e
  | .tup n x => do
    let l ← encodeExtensionMedia (strOther (.tup n x))
    .ok (ints l)
  | .ct m ps => do
    let l ← encodeExtensionMedia (strOther (.ct m ps))
    .ok (ints l)

/-- wsp_pdu.py:1797-1809: the value in `encode_header`; there is no `encode_pragma_value` -/
def encodeWapValue (name : Str) (value : HVal) : Py (List Item) :=
  if name = py! "Accept" then encodeAcceptValue value
  else if name = py! "Pragma" then .error .attributeError
  else do
    let l ← encodeTextStringH value
    .ok (ints l)

/-- wsp_pdu.py:1763-1811 `encode_header` -/
def encodeWspHeader (name : Str) (value : HVal) : Py (List Item) := do
  let names ← getHeaderFieldNames (py! "1.2")
  let a ← match indexOf names name with
    | some i => encodeShortInteger i
    | none => encodeTokenText name
  let b ← encodeWapValue name value
  .ok (ints a ++ b)

end Verif.Mms

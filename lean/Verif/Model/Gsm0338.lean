import Verif.Model.Py
/-!
# Model of `messaging/sms/gsm0338.py`
-/
set_option autoImplicit false

namespace Verif.Gsm

/-- gsm0338.py:23-155 `def_regular_decode_dict` (septet, code point) -/
def regularDecode : List (Nat × Nat) :=
  [(0x00, 0x0040), (0x01, 0x00a3), (0x02, 0x0024), (0x03, 0x00a5), (0x04, 0x00e8), (0x05, 0x00e9),
   (0x06, 0x00f9), (0x07, 0x00ec), (0x08, 0x00f2), (0x09, 0x00c7), (0x0a, 0x000a), (0x0b, 0x00d8),
   (0x0c, 0x00f8), (0x0d, 0x000d), (0x0e, 0x00c5), (0x0f, 0x00e5), (0x10, 0x0394), (0x11, 0x005f),
   (0x12, 0x03a6), (0x13, 0x0393), (0x14, 0x039b), (0x15, 0x03a9), (0x16, 0x03a0), (0x17, 0x03a8),
   (0x18, 0x03a3), (0x19, 0x0398), (0x1a, 0x039e), (0x1c, 0x00c6), (0x1d, 0x00e6), (0x1e, 0x00df),
   (0x1f, 0x00c9), (0x20, 0x0020), (0x21, 0x0021), (0x22, 0x0022), (0x23, 0x0023), (0x24, 0x00a4),
   (0x25, 0x0025), (0x26, 0x0026), (0x27, 0x0027), (0x28, 0x0028), (0x29, 0x0029), (0x2a, 0x002a),
   (0x2b, 0x002b), (0x2c, 0x002c), (0x2d, 0x002d), (0x2e, 0x002e), (0x2f, 0x002f), (0x30, 0x0030),
   (0x31, 0x0031), (0x32, 0x0032), (0x33, 0x0033), (0x34, 0x0034), (0x35, 0x0035), (0x36, 0x0036),
   (0x37, 0x0037), (0x38, 0x0038), (0x39, 0x0039), (0x3a, 0x003a), (0x3b, 0x003b), (0x3c, 0x003c),
   (0x3d, 0x003d), (0x3e, 0x003e), (0x3f, 0x003f), (0x40, 0x00a1), (0x41, 0x0041), (0x42, 0x0042),
   (0x43, 0x0043), (0x44, 0x0044), (0x45, 0x0045), (0x46, 0x0046), (0x47, 0x0047), (0x48, 0x0048),
   (0x49, 0x0049), (0x4a, 0x004a), (0x4b, 0x004b), (0x4c, 0x004c), (0x4d, 0x004d), (0x4e, 0x004e),
   (0x4f, 0x004f), (0x50, 0x0050), (0x51, 0x0051), (0x52, 0x0052), (0x53, 0x0053), (0x54, 0x0054),
   (0x55, 0x0055), (0x56, 0x0056), (0x57, 0x0057), (0x58, 0x0058), (0x59, 0x0059), (0x5a, 0x005a),
   (0x5b, 0x00c4), (0x5c, 0x00d6), (0x5d, 0x00d1), (0x5e, 0x00dc), (0x5f, 0x00a7), (0x60, 0x00bf),
   (0x61, 0x0061), (0x62, 0x0062), (0x63, 0x0063), (0x64, 0x0064), (0x65, 0x0065), (0x66, 0x0066),
   (0x67, 0x0067), (0x68, 0x0068), (0x69, 0x0069), (0x6a, 0x006a), (0x6b, 0x006b), (0x6c, 0x006c),
   (0x6d, 0x006d), (0x6e, 0x006e), (0x6f, 0x006f), (0x70, 0x0070), (0x71, 0x0071), (0x72, 0x0072),
   (0x73, 0x0073), (0x74, 0x0074), (0x75, 0x0075), (0x76, 0x0076), (0x77, 0x0077), (0x78, 0x0078),
   (0x79, 0x0079), (0x7a, 0x007a), (0x7b, 0x00e4), (0x7c, 0x00f6), (0x7d, 0x00f1), (0x7e, 0x00fc),
   (0x7f, 0x00e0)]

/-- gsm0338.py:158-169 `def_escape_decode_dict` -/
def escapeDecode : List (Nat × Nat) :=
  [(0x0a, 0x000c), (0x14, 0x005e), (0x28, 0x007b), (0x29, 0x007d), (0x2f, 0x005c), (0x3c, 0x005b),
   (0x3d, 0x007e), (0x3e, 0x005d), (0x40, 0x007c), (0x65, 0x20ac)]

/-- gsm0338.py:175-192 `def_replace_encode_dict` (code point, septet) -/
def replaceEncode : List (Nat × Nat) :=
  [(0x00e7, 0x09), (0x0391, 0x41), (0x0392, 0x42), (0x0395, 0x45), (0x0397, 0x48), (0x0399, 0x49),
   (0x039a, 0x4b), (0x039c, 0x4d), (0x039d, 0x4e), (0x039f, 0x4f), (0x03a1, 0x50), (0x03a4, 0x54),
   (0x03a7, 0x58), (0x03a5, 0x59), (0x0396, 0x5a)]

/-- dictionary lookup `d[c]` / `c in d` / `d.get(c)` -/
def lookup (d : List (Nat × Nat)) (c : Nat) : Option Nat := (d.find? (fun p => p.1 == c)).map (·.2)

/-- gsm0338.py:197-198 `def_regular_encode_dict`: the inverted table (no code point occurs twice, see
`Verif.Gsm.regular_nodup`, so dict iteration order is irrelevant) -/
def regularEncode : List (Nat × Nat) := regularDecode.map (fun p => (p.2, p.1))

/-- gsm0338.py:201-202 `def_escape_encode_dict` -/
def escapeEncode : List (Nat × Nat) := escapeDecode.map (fun p => (p.2, p.1))

/-- the `errors` argument -/
inductive Errors
  | strict | replace | ignore | other
  deriving DecidableEq, Repr

/-- The dictionaries have `unicode` keys: a `str` character above 0x7f never equals such a key (Python 2). -/
def lookupU (uni : Bool) (d : List (Nat × Nat)) (c : Nat) : Option Nat :=
  if uni || c < 128 then lookup d c else none

/-- gsm0338.py:213-229: what one character contributes -/
def encodeChar (uni : Bool) (errors : Errors) (c : Nat) : Py Str :=
  match lookupU uni regularEncode c with
  | some g => .ok [g]
  | none =>
    match lookupU uni escapeEncode c with
    | some g => .ok [0x1b, g]
    | none =>
      match errors with
      | .strict => .error .unicodeError
      | .replace => .ok [(lookupU uni replaceEncode c).getD 0x3f]
      | .ignore => .ok []
      | .other => .error .unicodeError

/-- gsm0338.py:205-232 `encode` (first component of the result; the second is its length) -/
def encodeLoop (uni : Bool) (errors : Errors) : Str → Py Str
  | [] => .ok []
  | c :: cs => do
    let x ← encodeChar uni errors c
    let xs ← encodeLoop uni errors cs
    .ok (x ++ xs)

/-- `text.encode('gsm0338', errors)` -/
def encode (text : PyStr) (errors : Errors := .strict) : Py Str := encodeLoop text.uni errors text.s

/-- gsm0338.py:235-268 `decode` (the keys are ASCII characters, so `str` and `unicode` input behave alike) -/
def decode (errors : Errors := .strict) : Str → Py Str
  | [] => .ok []
  | c :: rest =>
    if c == 0x1b then
      match rest with
      | [] => .ok [0xa0]
      | c' :: rest' => do
        let xs ← decode errors rest'
        .ok ((lookup escapeDecode c').getD 0xa0 :: xs)
    else
      match lookup regularDecode c with
      | some u => do
        let xs ← decode errors rest
        .ok (u :: xs)
      | none =>
        match errors with
        | .strict => .error .unicodeError
        | .replace => do
          let xs ← decode errors rest
          .ok (63 :: xs)
        | .ignore => decode errors rest
        | .other => .error .unicodeError

/-- gsm0338.py:282-292 `is_gsm_text` (text objects only) -/
def isGsmText (text : PyStr) : Bool :=
  match encode text with
  | .ok _ => true
  | .error _ => false

end Verif.Gsm

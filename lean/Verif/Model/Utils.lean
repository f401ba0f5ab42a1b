import Verif.Model.Py
/-!
# Model of `messaging/utils.py`
-/
set_option autoImplicit false

namespace Verif

/-- `timedelta(minutes=m)` in minutes: OverflowError beyond 999999999 days -/
def timedeltaMinutes (m : Int) : Py Int :=
  if -999999999 ≤ m / 1440 ∧ m / 1440 ≤ 999999999 then .ok m else .error .overflowError

/-- utils.py:18-35 `FixedOffset.from_timezone`, returning `.offset` in minutes.  Line 33's
`timedelta(days=-1, minutes=m)` is transcribed literally. -/
def fromTimezone (tz : Str) : Py Int :=
  if tz.isEmpty then .ok 0
  else do
    let sign : Int := if tz.contains 43 then 1 else -1
    let offset := (tz.filter (· != 43)).filter (· != 45)
    let hours ← pyInt10 (offset.take 2)
    let minutes ← pyInt10 (offset.drop 2)
    let minutes := minutes + hours * 60
    if sign == 1 then timedeltaMinutes (minutes : Int)
    else timedeltaMinutes (-1440 + (minutes : Int))

/-- utils.py:54-55 `to_array`: IndexError cannot occur; a negative int (e.g. "-7") makes `array('B', ..)`
raise OverflowError.  All ints are parsed before the array is built. -/
def parseHexPairs : Str → Py (List Int)
  | [] => .ok []
  | [a] => do
    let x ← pyInt16 [a]
    .ok [x]
  | a :: b :: rest => do
    let x ← pyInt16 [a, b]
    let xs ← parseHexPairs rest
    .ok (x :: xs)

/-- utils.py:55 `array('B', ints)` (each int is at most 255 because it came from two hex digits) -/
def toArray (pdu : Str) : Py (List Nat) := do
  let xs ← parseHexPairs pdu
  if xs.any (· < 0) then .error .overflowError else .ok (xs.map Int.toNat)

/-- utils.py:71-77 `swap`: exchange positions (0,1), (2,3), ... -/
def swapPairs : Str → Str
  | a :: b :: rest => b :: a :: swapPairs rest
  | [a] => [a]
  | [] => []

/-- utils.py:80-82 `swap_number`: drop every 'f' (0x66) first, then swap. -/
def swapNumber (n : Str) : Str := swapPairs (n.filter (· != 102))

/-- utils.py:85-86 `clean_number` -/
def cleanNumber (n : Str) : Str := (strip n).filter (· != 32)

/-- utils.py:89-91 `encode_str` and 94-95 `encode_bytes` (same function on ordinals) -/
def encodeStr (s : Str) : Str := s.flatMap hex02

/-- utils.py:109-117 (and 129-137): the packing loop; `k` steps remain, `n` is the loop variable,
`c`/`shift` the running variables.  Python's `txt[c]` raises IndexError out of range. -/
def packLoop (txt : Str) : Nat → Nat → Nat → Nat → Py (List Nat)
  | 0, _, _, _ => .ok []
  | k + 1, n, c, shift => do
    let c := if shift == 6 then c + 1 else c
    let shift := n % 7
    let t0 ← pyIdx txt c
    let t1 ← pyIdx txt (c + 1)
    let lb := t0 >>> shift
    let hb := (t1 <<< (7 - shift)) &&& 255
    let rest ← packLoop txt k (n + 1) (c + 1) shift
    .ok ((lb + hb) :: rest)

/-- utils.py:139-140: `for i, char in enumerate(udh): op[i] = ord(char)`; IndexError if `op` is too short -/
def overwrite : List Nat → Str → Py (List Nat)
  | op, [] => .ok op
  | [], _ :: _ => .error .indexError
  | _ :: op, c :: udh => do
    let r ← overwrite op udh
    .ok (c :: r)

/-- `''.join(map(chr, op))`: ValueError if an element is not a byte -/
def chrAll : List Nat → Py Str
  | [] => .ok []
  | x :: xs => do
    let c ← pyChr x
    let cs ← chrAll xs
    .ok (c :: cs)

/-- utils.py:98-144 `pack_8bits_to_7bits` (`bytes_to_str`, utils.py:47-51, is the identity on Python 2) -/
def pack7 (message : Str) (udh : Option Str) : Py Str :=
  match udh with
  | none => do
    let tl := message.length
    let txt := message ++ [0]
    let msgl := txt.length * 7 / 8
    let op ← packLoop txt msgl 0 0 0
    let h ← pyChr tl
    let b ← chrAll op
    .ok (encodeStr (h :: b))
  | some udh => do
    let txt := [0, 0, 0, 0, 0, 0] ++ message
    let tl := txt.length
    let txt := txt ++ [0]
    let msgl := txt.length * 7 / 8
    let op ← packLoop txt msgl 0 0 0
    let op ← overwrite op udh
    let h ← pyChr tl
    let b ← chrAll op
    .ok (encodeStr (h :: b))

/-- `a + b` where `a` is a `str` and `b` has the given type: implicit ASCII decoding of `a` when `b` is
`unicode` (Python 2 data model). -/
def concatStr (a : Str) (b : PyStr) : Py PyStr :=
  if b.uni && a.any (128 ≤ ·) then .error .unicodeError
  else .ok { uni := b.uni, s := a ++ b.s }

/-- `u + b` where `u` is `unicode`: implicit ASCII decoding of `b` when it is a `str`. -/
def concatUni (u : Str) (b : PyStr) : Py Str :=
  if !b.uni && b.s.any (128 ≤ ·) then .error .unicodeError
  else .ok (u ++ b.s)

/-- utils.py:147-154 `pack_8bits_to_8bit`; note that `message`, not `text`, is emitted at line 153. -/
def pack8 (message : PyStr) (udh : Option Str) : Py Str := do
  let text ← match udh with
    | none => .ok message.s
    | some u => concatUni u message
  let mlen := text.length
  let h ← pyChr mlen
  let m ← concatStr [h] message
  .ok (encodeStr m.s)

/-- utils.py:165-166: each character becomes `chr(ord >> 8) + chr(ord & 0xFF)` -/
def ucs2Bytes : Str → Py Str
  | [] => .ok []
  | n :: rest => do
    let hi ← pyChr (n >>> 8)
    let lo ← pyChr (n &&& 255)
    let r ← ucs2Bytes rest
    .ok (hi :: lo :: r)

/-- utils.py:157-170 `pack_8bits_to_ucs2` -/
def packUcs2 (message : PyStr) (udh : Option Str) : Py Str := do
  let text ← match udh with
    | none => .ok message.s
    | some u => concatUni u message
  let nmesg ← ucs2Bytes text
  let h ← pyChr (text.length * 2)
  .ok (encodeStr (h :: nmesg))

/-- utils.py:204-217: the loop of `unpack_msg2` (and, on parsed octets, of `unpack_msg` 179-193) with its
running `count`, `last` and `result`. -/
def unpackLoop : List Nat → Nat → Nat → List Nat → List Nat
  | [], _, _, result => result
  | byte :: bytes, count, last, result =>
    let mask := 0x7F >>> count
    let out := ((byte &&& mask) <<< count) + last
    let last := byte >>> (7 - count)
    let result := result ++ [out]
    if result.length ≥ 0xa0 then result
    else
      let (result, last) := if count == 6 then (result ++ [last], 0) else (result, last)
      unpackLoop bytes ((count + 1) % 7) last result

/-- utils.py:198-219 `unpack_msg2` (`to_bytes`, utils.py:58-62, maps `unichr` over values below 256, i.e. the identity) -/
def unpackMsg2 (pdu : List Nat) : Str := unpackLoop pdu 0 0 []

/-- utils.py:179-193: `unpack_msg` works on the hex string, parsing two characters at a time and stopping
before parsing further once 160 septets are there.  Negative ints ("-7") are excluded by `.overflowError`
here; in Python they would give unspecified values (simplification, unreachable from the library, which only
passes `encode_bytes` output). -/
def unpackHexLoop : Str → Nat → Nat → List Nat → Py (List Nat)
  | [], _, _, result => .ok result
  | a :: rest, count, last, result => do
    let x ← pyInt16 (match rest with | [] => [a] | b :: _ => [a, b])
    if x < 0 then .error .overflowError
    else
      let byte := x.toNat
      let mask := 0x7F >>> count
      let out := ((byte &&& mask) <<< count) + last
      let last := byte >>> (7 - count)
      let result := result ++ [out]
      if result.length ≥ 0xa0 then .ok result
      else
        let (result, last) := if count == 6 then (result ++ [last], 0) else (result, last)
        match rest with
        | [] => .ok result
        | _ :: rest' => unpackHexLoop rest' ((count + 1) % 7) last result

/-- utils.py:173-195 `unpack_msg` -/
def unpackMsg (pdu : Str) : Py Str := unpackHexLoop pdu 0 0 []

/-- A `timedelta` as its exact number of microseconds; `.days`/`.seconds` as Python normalises them. -/
structure TimeDelta where
  us : Int
  deriving DecidableEq, Repr

/-- `timedelta.days` -/
def TimeDelta.days (t : TimeDelta) : Int := t.us / 86400000000
/-- `timedelta.seconds` -/
def TimeDelta.seconds (t : TimeDelta) : Int := t.us % 86400000000 / 1000000

/-- utils.py:222-250 `timedelta_to_relative_validity` (`/` is integer division on Python 2 ints, so `floor`
and `int` are identities).  Falling off the end (returning None) is impossible after the second test. -/
def relativeValidity (t : TimeDelta) : Py Int :=
  if t.us < 5 * 60000000 then .error .valueError
  else if t.us > 63 * 7 * 86400000000 then .error .valueError
  else if t.us ≤ 12 * 3600000000 then .ok (t.seconds / (60 * 5) - 1)
  else if t.us ≤ 24 * 3600000000 then
    let t' : TimeDelta := ⟨t.us - 12 * 3600000000⟩
    .ok (t'.seconds / (60 * 30) + 143)
  else if t.us ≤ 30 * 86400000000 then .ok (t.days + 166)
  else .ok (t.days / 7 + 192)

/-- A `datetime` with an optional `utcoffset()` in minutes (Python 2 only allows whole minutes with
absolute value below 1440).  Microseconds are not modelled: no code looks at them. -/
structure DateTime where
  year : Nat
  month : Nat
  day : Nat
  hour : Nat
  minute : Nat
  second : Nat
  off : Option Int := none
  deriving DecidableEq, Repr

/-- `d.strftime("%z")` (Python 2 datetimemodule.c `format_utcoffset`): empty for naive datetimes, else sign,
two digits of hours, two digits of minutes. -/
def strftimeZ (off : Option Int) : Str :=
  match off with
  | none => []
  | some o =>
    let m := o.natAbs
    (if o < 0 then 45 else 43) :: (dec02 (m / 60) ++ dec02 (m % 60))

/-- utils.py:7-16 `FixedOffset`: an offset from UTC in minutes and a name -/
structure FixedOffset where
  offset : Int
  name : Str
  deriving DecidableEq, Repr

namespace FixedOffset

/-- utils.py:18-35 `from_timezone` -/
def from_ (tz name : Str) : Py FixedOffset := do
  let off ← fromTimezone tz
  .ok ⟨off, name⟩

/-- utils.py:37-38 `utcoffset`, as `datetime` calls it: what is not less than a day is a ValueError -/
def utcoffset (z : FixedOffset) : Py Int := if z.offset.natAbs < 1440 then .ok z.offset else .error .valueError

/-- utils.py:40-41 `tzname` -/
def tzname (z : FixedOffset) : Str := z.name

/-- utils.py:43-44 `dst` -/
def dst (_ : FixedOffset) : Int := 0

/-- `d.strftime("%z")` of a `datetime` with this zone -/
def text (z : FixedOffset) : Py Str := do
  let o ← z.utcoffset
  .ok (strftimeZ (some o))

end FixedOffset

/-- utils.py:253-267 `datetime_to_absolute_validity`.  `strftime` raises ValueError for years before 1900
(Python 2). -/
def absoluteValidity (d : DateTime) : Py (List Int) :=
  if d.year < 1900 then .error .valueError
  else do
    let offset ← fromTimezone (strftimeZ d.off)
    let td : TimeDelta := ⟨offset * 60000000⟩
    let q := (td.seconds / (60 * 15)).toNat
    let s := dec02 q
    let s := if td.days < 0 then hex02 ((q / 10) <<< 4 ||| q % 10 ||| 0x80) else s
    let n := [dec02 (d.year % 100), dec02 d.month, dec02 d.day, dec02 d.hour, dec02 d.minute,
      dec02 d.second, s]
    n.mapM (fun c => pyInt16 c.reverse)

end Verif

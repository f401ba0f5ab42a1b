import Verif.Spec.MmsParts
/-!
# Specification: what becomes of the name of a file

The base name of a file is sent as a Content-Location that the library itself does not read back.  A recipient with this
library drops it, or takes a piece of it for a header of its own.
-/
set_option autoImplicit false

namespace Verif.Spec.Names
open Verif Verif.Mms Verif.Spec.MmsEnc

/-- the octets that end a token: control characters and the separators of RFC 2616 but the quotation mark -/
def ends (c : Nat) : Bool := c ≤ 31 || [32, 40, 41, 44, 47, 58, 59, 60, 61, 62, 63, 64, 91, 92, 93, 123, 125].contains c

/-- names that start with a printable character, a DEL or the first octet of a letter beyond ASCII (UTF-8 or Latin-1) -/
def Nameable (t : List Nat) : Prop := 0 ∉ t ∧ (∀ c ∈ t, c < 256) ∧ ∃ c, t.head? = some c ∧ (32 ≤ c ∧ c < 128 ∨ 184 ≤ c)

/-- the first octet of a letter beyond ASCII is lost -/
def seen : List Nat → List Nat
  | [] => []
  | c :: r => if 128 ≤ c then r else c :: r

/-- a Quote in front is taken off -/
def unquote : List Nat → List Nat
  | 127 :: r => r
  | r => r

/-- the stray header: a name that is not a token, but starts like one, is taken for a header up to where the token ends,
and its value from there on -/
def stray (t : List Nat) : Option (List Nat × List Nat) :=
  match t.takeWhile (fun c => !ends c), t.dropWhile (fun c => !ends c) with
  | [], _ => none
  | _, [] => none
  | k, _ :: v => some (k, unquote v)

/-- a part made from a file: a content type without parameters and a location -/
structure NamedPart (env : Env) (part : DataPart) (media data t : List Nat) : Prop where
  keys : part.headers.Ok
  ct : part.headers.get CT = some (.ct media [])
  sends : Spec.MmsEnc.Sends media
  loc : part.headers.get (py! "Content-Location") = some (.v (.str t))
  name : Nameable t
  only : ∀ n, n ≠ CT → n ≠ py! "Content-Location" → part.headers.get n = none
  read : part.readData env = .ok data
  len : part.len env = .ok data.length
  small : (part.headers.map entrySize).sum < 2 ^ 63 ∧ data.length < 2 ^ 63

/-- the headers of a part made from a file, as they are read: its content type and the stray header -/
def namedHeader (media t n : List Nat) : Option HVal :=
  match stray (seen t) with
  | some (k, v) => if n = k then some (.v (.str v)) else if n = CT then some (.ct media []) else none
  | none => if n = CT then some (.ct media []) else none

end Verif.Spec.Names

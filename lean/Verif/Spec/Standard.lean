import Verif.Spec.MmsParts
/-!
# Specification: the headers, content types and parts that the library writes as WAP-209 and WAP-230 have them

The encodings themselves are those of `Spec/Mms.lean`; only the Python value types, and the data types of messages and parts
with the public `data` and `len` of a part, are taken from the model.
-/
set_option autoImplicit false

namespace Verif.Spec.Standard
open Verif.Mms (Val HVal Dict DataPart Env CT)
open Verif.Spec.Wsp Verif.Spec.Mms Verif.Spec.MmsEnc

/-- the headers of a message that are written as WAP-209 has them: these and no others -/
inductive Standard : List Nat → HVal → Prop
  | text (f : StrField) (s : List Nat) (h : PlainText s) : Standard f.name (.v (.str s))
  | sender (s : List Nat) (h : PlainText s) (hs : s ≠ []) : Standard (py! "From") (.v (.str s))
  | messageId (s : List Nat) (h : PlainText s) : Standard (py! "Message-ID") (.v (.str s))
  | transactionId (s : List Nat) (h : PlainText s) : Standard (py! "Transaction-Id") (.v (.str s))
  | type (s : List Nat) (h : s ∈ typeNames) : Standard (py! "Message-Type") (.v (.str s))
  | version (a b : Nat) (h : 1 ≤ a ∧ a ≤ 7 ∧ b ≤ 14) : Standard (py! "MMS-Version") (.v (.str (dotted a b)))
  | versionMajor (a : Nat) (h : 1 ≤ a ∧ a ≤ 7) : Standard (py! "MMS-Version") (.v (.str (dec a)))
  | status (s : List Nat) (h : s ∈ statusNames) : Standard (py! "Status") (.v (.str s))
  | size (o : List Nat) (h : Palindrome o) : Standard (py! "Message-Size") (.v (.int (beVal o)))
  | app (n s : List Nat) (hn : IsToken n) (hf : n ∉ fieldNames) (h : PlainText s) : Standard n (.v (.str s))

/-- `l` is the encoding of the header `n` with the value `v` -/
def Written (n : List Nat) (v : HVal) (l : List Nat) : Prop := ∃ h : Hdr, h.Conf ∧ h.name = n ∧ h.value = v ∧ h.enc = l

/-- `l` is the encoding of the media type `m` without parameters -/
def WrittenMedia (m l : List Nat) : Prop := ∃ c : CType, c.Conf ∧ c.media = m ∧ c.params = [] ∧ c.enc = l

/-- the same for a header of a part -/
def WrittenPart (n s l : List Nat) : Prop := ∃ h : PHdr, h.Conf ∧ h.name = n ∧ h.value = s ∧ h.enc = l

/-- the media types that are written as WAP-230 has them: all that can be sent but one, a misspelling that has a number -/
def StandardMedia (m : List Nat) : Prop := Sends m ∧ m ≠ py! "multipart/byterantes"

/-- the headers of a part that are written as WAP-230 has them -/
inductive StandardP : List Nat → List Nat → Prop
  | location (s : List Nat) (h : PlainText s) : StandardP (py! "Content-Location") s
  | app (n s : List Nat) (hn : IsToken n) (hw : n ∉ wspNames) (h : PlainText s) : StandardP n s

/-- a part that is written as WAP-230 has it -/
structure StandardPart (env : Env) (part : DataPart) (media data : List Nat) : Prop where
  keys : Verif.Mms.Dict.Ok part.headers
  ct : part.headers.get CT = some (.ct media [])
  media : StandardMedia media
  headers : ∀ n v, part.headers.get n = some v → n ≠ CT → ∃ s, v = .v (.str s) ∧ StandardP n s
  read : part.readData env = .ok data
  len : part.len env = .ok data.length
  small : (part.headers.map entrySize).sum < 2 ^ 63 ∧ data.length < 2 ^ 63

/-- `p` says what the part has to say: the media type, the other headers, the data -/
def Says (env : Env) (part : DataPart) (p : Part) : Prop :=
  part.headers.get CT = some (.ct p.ctype.media []) ∧ p.ctype.params = [] ∧ part.readData env = .ok p.data ∧
    (p.headers.map PHdr.name).Nodup ∧ CT ∉ p.headers.map PHdr.name ∧
    ∀ n, n ≠ CT → part.headers.get n = (lastPartValue p.headers n).map fun s => .v (.str s)

end Verif.Spec.Standard

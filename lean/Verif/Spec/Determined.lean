import Verif.Spec.MmsParts
/-!
# Specification: parts whose octets say everything about them

Only the data types of the library (parts, dicts) and the public `data` and `len` of a part are taken from the model.
-/
set_option autoImplicit false

namespace Verif.Spec.Determined
open Verif Verif.Mms Verif.Spec.Wsp Verif.Spec.Mms Verif.Spec.MmsEnc

/-- text that can end with NUL -/
def Closed (s : List Nat) : Prop := 0 ∉ s ∧ ∀ c ∈ s, c < 256

/-- A header of a part that is written down in full: text under a name of one's own, text under any registered name
(Content-Location included; Pragma, which takes a parameter, is not), a media type under Accept.  Wider than `Kept`: the
library need not be able to read the header. -/
inductive Written : List Nat → HVal → Prop
  | app (n s : List Nat) (hn : IsToken n) (hw : n ∉ wspNames) (h : Closed s) : Written n (.v (.str s))
  | numbered (n s : List Nat) (hn : n ∈ wspNames) (h1 : n ≠ py! "Accept") (h2 : n ≠ py! "Pragma") (h : Closed s) :
      Written n (.v (.str s))
  | accept (s : List Nat) (h : Sends s) : Written (py! "Accept") (.v (.str s))

/-- a part with a content type without parameters, any number of headers that are written down, and any data -/
structure WrittenPart (env : Env) (part : DataPart) : Prop where
  keys : part.headers.Ok
  ct : ∃ media, part.headers.get CT = some (.ct media []) ∧ Sends media
  headers : ∀ n v, part.headers.get n = some v → n ≠ CT → Written n v
  data : ∃ data, part.readData env = .ok data ∧ part.len env = .ok data.length

end Verif.Spec.Determined

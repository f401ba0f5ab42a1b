import Verif.Spec.MmsEnc
import Verif.Model.Message
/-!
# Specification: whole MMS messages that can be sent and read back

Only the data types of the library (messages, slides, parts, dicts) and the public `data` and `len` of a part are taken
from the model.
-/
set_option autoImplicit false

namespace Verif.Mms
open Verif.Spec.Wsp Verif.Spec.Mms Verif.Spec.MmsEnc

/-- the keys of a dict are distinct (always so in Python) -/
def Dict.Ok {α : Type} (d : Dict α) : Prop := (d.map Prod.fst).Nodup

/-! the header names with a role of their own, and the aliases the encoder accepts for the first three -/

def MT : Str := py! "Message-Type"
def TI : Str := py! "Transaction-Id"
def MV : Str := py! "MMS-Version"
def CT : Str := py! "Content-Type"
def XT : Str := py! "X-Mms-Message-Type"
def XI : Str := py! "X-Mms-Transaction-Id"
def XV : Str := py! "X-Mms-Version"

/-- Headers the encoder has nothing to add to: type, transaction id and version are set under their proper names, and a
type m-send-req comes with a To or Cc recipient. -/
structure Settled (d : Dict HVal) : Prop where
  type : ∃ v, d.get MT = some v
  transaction : ∃ v, d.get TI = some v
  version : ∃ v, d.get MV = some v
  aliases : d.get XT = none ∧ d.get XI = none ∧ d.get XV = none
  recipient : d.get MT = some (.v (.str (py! "m-send-req"))) ∨ d.get MT = some (.v (.uni (py! "m-send-req"))) →
    (∃ v, d.get (py! "To") = some v) ∨ ∃ v, d.get (py! "Cc") = some v

/-- the parts of the slides, in order: image, audio, text of each -/
def partsOf (pages : List Page) : List DataPart :=
  pages.flatMap fun p => ([p.image, p.audio, p.text].filterMap id).map fun t => t.1

/-- a part whose headers survive: a content type without parameters and headers as described by `Kept` -/
structure PlainPart (env : Env) (part : DataPart) (media data : List Nat) : Prop where
  keys : part.headers.Ok
  ct : part.headers.get CT = some (.ct media [])
  sends : Sends media
  app : ∀ n v, part.headers.get n = some v → n ≠ CT → Kept n v
  read : part.readData env = .ok data
  len : part.len env = .ok data.length
  small : (part.headers.map entrySize).sum < 2 ^ 63 ∧ data.length < 2 ^ 63

/-- a part made from a file: a content type without parameters and a location -/
structure FilePart (env : Env) (part : DataPart) (media data : List Nat) : Prop where
  keys : part.headers.Ok
  ct : part.headers.get CT = some (.ct media [])
  sends : Sends media
  loc : ∃ t, part.headers.get (py! "Content-Location") = some (.v (.str t)) ∧ IsToken t
  only : ∀ n, n ≠ CT → n ≠ py! "Content-Location" → part.headers.get n = none
  read : part.readData env = .ok data
  len : part.len env = .ok data.length
  small : (part.headers.map entrySize).sum < 2 ^ 63 ∧ data.length < 2 ^ 63

/-- what is read for a part: its data and its headers, but no Content-Location -/
def readPart (part : DataPart) (data : List Nat) (q : DataPart) : Prop :=
  q.ctParams = [] ∧ q.filename = none ∧ q.data = some data ∧
    ∀ n, q.headers.get n = if n = py! "Content-Location" then none else part.headers.get n

end Verif.Mms

import Verif.Model.Dicts
import Verif.Spec.Dicts
/-!
# A program that works with parts and messages

The calls and statements of `Model/Dicts.lean`, one after the other.
-/
set_option autoImplicit false

namespace Verif.Mms
open Verif Verif.Spec.Dicts

/-- a call of a method of part `r` (message.py:447-533), or a statement that changes a dictionary of it -/
def stepPart (r : Nat) : PartAct → M Store Unit
  | .setData data ct ps => setDataD r data ct ps
  | .setText t => setTextD r t
  | .fromFile env f => fromFileD env r f
  | .setContentType ct => setContentTypeD r ct
  | .setHeader n v => fun s => setItemD (s.parts r).headers n v s
  | .delHeader n => fun s => delItemD (s.parts r).headers n s
  | .headerParam n k v => fun s => setParamD (s.parts r).headers n k v s
  | .ctParam k v => setCtParamD r k v
  | .ctParams ps => newCtParamsD r ps

/-- `add_page` of message `m` (message.py:59-70), or a statement that changes its headers -/
def stepMsg (m : Nat) : MsgAct → M Store Unit
  | .setHeader n v => fun s => setItemD (s.msgs m) n v s
  | .delHeader n => fun s => delItemD (s.msgs m) n s
  | .headerParam n k v => fun s => setParamD (s.msgs m) n k v s
  | .addPage => addPageD m

/-- the store after a statement, and the exception -/
def outcome {α : Type} : Res Store α → Store × Option PyErr
  | .ok _ s => (s, none)
  | .err e s => (s, some e)

/-- a deed of a program (message.py:30-70, 241-252, 447-533); a part or message that does not exist cannot be named -/
def stepD (s : Store) : Deed → Store × Option PyErr
  | .newPart => outcome (newPartD s)
  | .newPartFile env f => outcome (newPartFileD env f s)
  | .newMsg => outcome (newMsgD s)
  | .receive data => outcome (receiveD data s)
  | .part r a => if r < s.nParts then outcome (stepPart r a s) else (s, none)
  | .msg m a => if m < s.nMsgs then outcome (stepMsg m a s) else (s, none)

/-- a program that goes on after an exception -/
def runD (deeds : List Deed) : Store := deeds.foldl (fun s d => (stepD s d).1) Store.empty

/-- message.py:241-252: what `from_data` makes of the octets, for `act` -/
def received (data : List Nat) : Py (Dict HVal × List Own) :=
  match decodeDataT data with
  | .error e => .error e
  | .ok (h, ps) => .ok (h, ps.map fun p => ⟨p.1, p.2⟩)

/-- the world after a program, every part and message having dictionaries of its own -/
def worldAfter (deeds : List Deed) : World := deeds.foldl (fun w d => (act received w d).1) ⟨[], []⟩

end Verif.Mms

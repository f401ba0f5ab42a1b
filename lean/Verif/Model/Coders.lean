import Verif.Model.MmsPdu
/-!
# Model of `MMSDecoder` and `MMSEncoder` objects

In `Model/MmsPdu.lean` decoding and encoding are functions.  In the code they are methods of objects that keep the message
they work on, and a decoder fills that message in place.
-/
set_option autoImplicit false

namespace Verif.Mms

/-- all messages, decoders (`_mms_data`, `_mms_message`; `_parts` is never used, mms_pdu.py:74) and encoders
(`_mms_message`); messages are numbered in the order of their creation -/
structure Coders where
  msgs : List Msg
  decoders : List (List Nat × Nat)
  encoders : List Nat

/-- code that reads from an iterator and fills a message -/
abbrev Fill := M (It × Msg)

/-- code that only reads -/
def reading {α : Type} (m : D α) : Fill α := fun s =>
  match m s.1 with
  | .ok a i => .ok a (i, s.2)
  | .err e i => .err e (i, s.2)

/-- mms_pdu.py:135-151: the loop of `decode_message_header`; the headers are set in the message one by one -/
def headerLoopO : Nat → Fill Unit
  | 0 => M.throw .diverge
  | fuel + 1 => fun s =>
    match decodeHeader s.1 with
    | .ok (h, v) i =>
      if h = py! "Content-Type" then .ok () (i, { s.2 with headers := s.2.headers.set h v })
      else headerLoopO fuel (i, { s.2 with headers := s.2.headers.set h v })
    | .err .stopIteration i => .ok () (i, s.2)
    | .err e i => .err e (i, s.2)

/-- mms_pdu.py:178-211: the loop over the parts, which are added to the message one by one (message.py:85-90) -/
def partLoopO : Nat → Fill Unit
  | 0 => pure ()
  | n + 1 => do
    let p ← reading decodePart
    M.modify (fun s => (s.1, { s.2 with dataParts := s.2.dataParts ++ [p] }))
    partLoopO n

/-- mms_pdu.py:155-211 `decode_message_body` -/
def bodyO : Fill Unit := fun s =>
  match decodeUintVar s.1 with
  | .err .stopIteration i => .ok () (i, s.2)
  | .err e i => .err e (i, s.2)
  | .ok n i =>
    (do
      reading (xrangeCheck n)
      partLoopO n) (i, s.2)

/-- mms_pdu.py:112-153 `decode_message_header` -/
def headerO : Fill Unit := fun s => headerLoopO (s.1.rem.length + 1) s

/-- mms_pdu.py:66-74 `MMSDecoder(filename)`: the file is not looked at -/
def newDecoder (_filename : Option Str) : M Coders Nat := fun s =>
  .ok s.decoders.length { s with msgs := s.msgs ++ [Msg.new], decoders := s.decoders ++ [([], s.msgs.length)] }

/-- mms_pdu.py:96-110 `decode_data` of decoder `k`: fills a new message, which is returned.  What was filled in stays when an
exception is raised. -/
def decodeDataO (k : Nat) (data : List Nat) : M Coders Nat := fun s =>
  let s1 := { s with msgs := s.msgs ++ [Msg.new], decoders := s.decoders.set k (data, s.msgs.length) }
  match (do headerO; bodyO : Fill Unit) (It.new data, Msg.new) with
  | .ok _ f => .ok s.msgs.length { s1 with msgs := s.msgs ++ [f.2] }
  | .err e f => .err e { s1 with msgs := s.msgs ++ [f.2] }

/-- mms_pdu.py:76-94 `decode_file` of decoder `k` -/
def decodeFileO (env : Env) (k : Nat) (filename : Str) : M Coders Nat := fun s =>
  match env.files filename with
  | none => .err .osError s
  | some d => decodeDataO k d s

/-- mms_pdu.py:592-593 `MMSEncoder()` -/
def newEncoder : M Coders Nat := fun s =>
  .ok s.encoders.length { s with msgs := s.msgs ++ [Msg.new], encoders := s.encoders ++ [s.msgs.length] }

/-- mms_pdu.py:595-608 `encode` of encoder `k` on message `m`, which is changed in place (see C48).  A message that does not
exist cannot be named. -/
def encodeO (env : Env) (ord : Dict HVal → Dict HVal) (rnd : Nat) (k m : Nat) : M Coders (List Nat) := fun s =>
  match s.msgs[m]? with
  | none => .err .typeError s
  | some msg =>
    let s1 := { s with encoders := s.encoders.set k m }
    match encode env ord rnd msg with
    | .ok l msg' => .ok l { s1 with msgs := s.msgs.set m msg' }
    | .err e msg' => .err e { s1 with msgs := s.msgs.set m msg' }

end Verif.Mms

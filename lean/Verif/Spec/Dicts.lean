import Verif.Model.Accessors
/-!
# Specification: parts and messages that own their dictionaries

What a program can do with parts and messages as long as it hands over no dictionary that something else already has, and
what that does if every part and every message has dictionaries of its own.  Only for a received part the attribute
`content_type_parameters` and the parameters in the Content-Type header are one dictionary, until either is replaced
(`same`).
-/
set_option autoImplicit false

namespace Verif.Spec.Dicts
open Verif Verif.Mms

/-- what can be done with a part: `set_data`, `set_text`, `from_file`, assigning `content_type`, `headers[n] = v`,
`del headers[n]`, `headers[n][1][k] = v`, `content_type_parameters[k] = v`, `content_type_parameters = {...}` -/
inductive PartAct
  | setData (data ct : Str) (params : Option (Dict Val))
  | setText (t : Str)
  | fromFile (env : Env) (f : Str)
  | setContentType (ct : Str)
  | setHeader (n : Str) (v : HVal)
  | delHeader (n : Str)
  | headerParam (n k : Str) (v : Val)
  | ctParam (k : Str) (v : Val)
  | ctParams (ps : Dict Val)

/-- what can be done with the headers of a message: `headers[n] = v`, `del headers[n]`, `headers[n][1][k] = v`, `add_page` -/
inductive MsgAct
  | setHeader (n : Str) (v : HVal)
  | delHeader (n : Str)
  | headerParam (n k : Str) (v : Val)
  | addPage

/-- what a program can do; parts and messages are numbered in the order of their creation -/
inductive Deed
  | newPart
  | newPartFile (env : Env) (f : Str)
  | newMsg
  | receive (data : List Nat)
  | part (r : Nat) (a : PartAct)
  | msg (m : Nat) (a : MsgAct)

/-- a part, and whether `content_type_parameters` is the dictionary in the Content-Type header -/
structure Own where
  part : DataPart
  same : Bool

/-- `headers[n][1][k] = v` on a value -/
def paramOf (h : Dict HVal) (n k : Str) (v : Val) : Py (Dict HVal) :=
  match h.get n with
  | none => .error .keyError
  | some (.ct c ps) => .ok (h.set n (.ct c (ps.set k v)))
  | some (.tup _ _) => .error .typeError
  | some (.v (.str t)) | some (.v (.uni t)) => if t.length < 2 then .error .indexError else .error .typeError
  | some (.v _) => .error .typeError

/-- the part after an act, or the exception -/
def actPart (o : Own) : PartAct → Py Own
  | .setData data ct ps => .ok ⟨{ o.part with
      headers := [(py! "Content-Type", .ct ct (match ps with | some ps => ps | none => []))], filename := none, data := some data }, false⟩
  | .setText t => .ok ⟨{ o.part with
      headers := [(py! "Content-Type", .ct (py! "text/plain") [])], filename := none, data := some t }, false⟩
  | .fromFile env f =>
    match env.files f with
    | none => .error .osError
    | some _ => .ok ⟨{ o.part with
        headers := [(py! "Content-Location", .v (.str (f.reverse.takeWhile (· ≠ 47)).reverse)),
          (py! "Content-Type", .ct (match env.mime f with | some t => t | none => py! "application/octet-stream") [])],
        filename := some f, data := none }, false⟩
  | .setContentType ct => .ok ⟨{ o.part with headers := o.part.headers.set (py! "Content-Type") (.ct ct []) }, false⟩
  | .setHeader n v => .ok ⟨{ o.part with headers := o.part.headers.set n v }, o.same && n != py! "Content-Type"⟩
  | .delHeader n =>
    match o.part.headers.get n with
    | none => .error .keyError
    | some _ => .ok ⟨{ o.part with headers := o.part.headers.del n }, o.same && n != py! "Content-Type"⟩
  | .headerParam n k v =>
    match paramOf o.part.headers n k v with
    | .error e => .error e
    | .ok h => .ok ⟨{ o.part with
        headers := h, ctParams := if o.same && n == py! "Content-Type" then o.part.ctParams.set k v else o.part.ctParams }, o.same⟩
  | .ctParam k v => .ok ⟨{ o.part with
      ctParams := o.part.ctParams.set k v
      headers :=
        if o.same then
          match o.part.headers.get (py! "Content-Type") with
          | some (.ct c _) => o.part.headers.set (py! "Content-Type") (.ct c (o.part.ctParams.set k v))
          | _ => o.part.headers
        else o.part.headers }, o.same⟩
  | .ctParams ps => .ok ⟨{ o.part with ctParams := ps }, false⟩

/-- the headers of a message after an act, or the exception -/
def actMsg (h : Dict HVal) : MsgAct → Py (Dict HVal)
  | .setHeader n v => .ok (h.set n v)
  | .delHeader n =>
    match h.get n with
    | none => .error .keyError
    | some _ => .ok (h.del n)
  | .headerParam n k v => paramOf h n k v
  | .addPage =>
    match h.get (py! "Content-Type") with
    | none => .error .keyError
    | some x =>
      match x.first with
      | .error e => .error e
      | .ok t =>
        .ok (if t = py! "application/vnd.wap.multipart.related" then h
             else h.set (py! "Content-Type") (.ct (py! "application/vnd.wap.multipart.related") []))

/-- all parts and the headers of all messages, in the order of their creation -/
structure World where
  parts : List Own
  msgs : List (Dict HVal)

/-- a new part -/
def freshPart : DataPart :=
  { ctParams := [], headers := [(py! "Content-Type", .ct (py! "application/octet-stream") [])], filename := none, data := none }

/-- the headers of a new message -/
def freshMsg : Dict HVal :=
  [(py! "Message-Type", .v (.str (py! "m-send-req"))), (py! "Transaction-Id", .v (.str (py! "1234"))),
   (py! "MMS-Version", .v (.str (py! "1.0"))), (py! "Content-Type", .ct (py! "application/vnd.wap.multipart.mixed") [])]

/-- a deed and the exception it raises, if any; parts and messages that do not exist cannot be named.  `decode` is what
`from_data` makes of the octets: the headers, and the parts with `same`. -/
def act (decode : List Nat → Py (Dict HVal × List Own)) (w : World) : Deed → World × Option PyErr
  | .newPart => ({ w with parts := w.parts ++ [⟨freshPart, false⟩] }, none)
  | .newPartFile env f =>
    match actPart ⟨freshPart, false⟩ (.fromFile env f) with
    | .error e => (w, some e)
    | .ok o => ({ w with parts := w.parts ++ [o] }, none)
  | .newMsg => ({ w with msgs := w.msgs ++ [freshMsg] }, none)
  | .receive data =>
    match decode data with
    | .error e => (w, some e)
    | .ok (h, ps) => ({ parts := w.parts ++ ps, msgs := w.msgs ++ [h] }, none)
  | .part r a =>
    match w.parts[r]? with
    | none => (w, none)
    | some o =>
      match actPart o a with
      | .error e => (w, some e)
      | .ok o' => ({ w with parts := w.parts.set r o' }, none)
  | .msg m a =>
    match w.msgs[m]? with
    | none => (w, none)
    | some h =>
      match actMsg h a with
      | .error e => (w, some e)
      | .ok h' => ({ w with msgs := w.msgs.set m h' }, none)

/-- a message without the attributes `content_type_parameters` -/
def bare (m : Msg) : Msg :=
  let part (p : DataPart) : DataPart := { p with ctParams := [] }
  let slot (x : Option (DataPart × Int × Int)) := x.map fun t => (part t.1, t.2)
  { m with
    dataParts := m.dataParts.map part
    pages := m.pages.map fun g => { g with image := slot g.image, audio := slot g.audio, text := slot g.text } }

end Verif.Spec.Dicts

import Verif.Model.Accessors
import Verif.Model.MmsPdu
/-!
# Model of the dictionaries of parts and messages as objects

`headers` and `content_type_parameters` of a part, `headers` of a message, and the dictionary of parameters inside a
Content-Type value are Python dictionaries: objects that can be reached in several ways and changed in place.  In the rest
of the model they are values.  Here they are references into a store (numbers); the slides are left out, they hold no
dictionaries (`Model/Heap.lean` has the sharing of slides and parts).
-/
set_option autoImplicit false

namespace Verif.Mms

/-- a header value: the parameters of a content type are a reference -/
inductive RVal
  | v (x : Val)
  | tup (name : Str) (x : Val)
  | ct (media : Str) (params : Nat)
  deriving DecidableEq, Repr

/-- message.py:453-460 a part: `content_type_parameters` and `headers` are references -/
structure PartRef where
  ctParams : Nat
  headers : Nat
  filename : Option Str
  data : Option Str
  deriving DecidableEq, Repr

/-- all dictionaries, parts and messages (of which only `headers`, message.py:35-40, is kept); those from `n...` on do not
exist yet -/
structure Store where
  params : Nat → Dict Val
  headers : Nat → Dict RVal
  parts : Nat → PartRef
  msgs : Nat → Nat
  nParams : Nat
  nHeaders : Nat
  nParts : Nat
  nMsgs : Nat

namespace Store

/-- a program that has done nothing yet -/
def empty : Store :=
  { params := fun _ => [], headers := fun _ => [], parts := fun _ => ⟨0, 0, none, none⟩, msgs := fun _ => 0,
    nParams := 0, nHeaders := 0, nParts := 0, nMsgs := 0 }

/-- `d[k] = v` and the like: change a dictionary of parameters in place -/
def setParams (s : Store) (d : Nat) (x : Dict Val) : Store := { s with params := fun i => if i = d then x else s.params i }

/-- change a dictionary of headers in place -/
def setHeaders (s : Store) (d : Nat) (x : Dict RVal) : Store := { s with headers := fun i => if i = d then x else s.headers i }

/-- assign to attributes of a part -/
def setPart (s : Store) (r : Nat) (x : PartRef) : Store := { s with parts := fun i => if i = r then x else s.parts i }

/-- a new dictionary of parameters (a display `{...}`) -/
def addParams (s : Store) (x : Dict Val) : Store := { s.setParams s.nParams x with nParams := s.nParams + 1 }

/-- a new dictionary of headers -/
def addHeaders (s : Store) (x : Dict RVal) : Store := { s.setHeaders s.nHeaders x with nHeaders := s.nHeaders + 1 }

/-- a new part -/
def addPart (s : Store) (x : PartRef) : Store := { s.setPart s.nParts x with nParts := s.nParts + 1 }

/-- a new message with these headers -/
def addMsg (s : Store) (x : Nat) : Store :=
  { s with msgs := fun i => if i = s.nMsgs then x else s.msgs i, nMsgs := s.nMsgs + 1 }

/-- a header value, its parameters (if any) being a new dictionary -/
def newVal (s : Store) : HVal → RVal × Store
  | .v x => (.v x, s)
  | .tup n x => (.tup n x, s)
  | .ct c ps => (.ct c s.nParams, s.addParams ps)

/-- header values one after the other, with a new dictionary each -/
def newVals (s : Store) : Dict HVal → Dict RVal × Store
  | [] => ([], s)
  | (n, x) :: r =>
    let a := s.newVal x
    let b := a.2.newVals r
    ((n, a.1) :: b.1, b.2)

/-- the value behind the references -/
def val (s : Store) : RVal → HVal
  | .v x => .v x
  | .tup n x => .tup n x
  | .ct c d => .ct c (s.params d)

/-- the dictionary of headers behind the references -/
def dict (s : Store) (l : Dict RVal) : Dict HVal := l.map fun e => (e.1, s.val e.2)

/-- what a part shows -/
def part (s : Store) (r : Nat) : DataPart :=
  { ctParams := s.params (s.parts r).ctParams, headers := s.dict (s.headers (s.parts r).headers),
    filename := (s.parts r).filename, data := (s.parts r).data }

/-- the headers a message shows -/
def msg (s : Store) (m : Nat) : Dict HVal := s.dict (s.headers (s.msgs m))

end Store

/-! ### parts -/

/-- message.py:447-460 `DataPart()`: three new dictionaries -/
def newPartD : M Store Nat := fun s =>
  let s1 := s.addParams []
  let s2 := s1.addParams []
  let s3 := s2.addHeaders [(py! "Content-Type", .ct (py! "application/octet-stream") s1.nParams)]
  .ok s.nParts (s3.addPart { ctParams := s.nParams, headers := s2.nHeaders, filename := none, data := none })

/-- message.py:501-521 `set_data`; `d` is the dictionary `ct_parameters` -/
def setDataWith (r : Nat) (data contentType : Str) (d : Nat) : M Store Unit := fun s =>
  let s1 := s.addHeaders [(py! "Content-Type", .ct contentType d)]
  .ok () (s1.setPart r { s.parts r with headers := s.nHeaders, filename := none, data := some data })

/-- message.py:501-521 `set_data`, with no parameters (then there is a new dictionary, line 518) or a new dictionary of
parameters -/
def setDataD (r : Nat) (data contentType : Str) (ctParameters : Option (Dict Val)) : M Store Unit := fun s =>
  match ctParameters with
  | none => setDataWith r data contentType s.nParams (s.addParams [])
  | some ps => setDataWith r data contentType s.nParams (s.addParams ps)

/-- message.py:523-533 `set_text` -/
def setTextD (r : Nat) (text : Str) : M Store Unit := setDataD r text (py! "text/plain") none

/-- message.py:478-499 `from_file` -/
def fromFileD (env : Env) (r : Nat) (filename : Str) : M Store Unit := fun s =>
  match env.files filename with
  | none => .err .osError s
  | some _ =>
    let s1 := s.addParams []
    let s2 := s1.addHeaders [(py! "Content-Location", .v (.str (DataPart.basename filename))),
      (py! "Content-Type", .ct ((env.mime filename).getD (py! "application/octet-stream")) s.nParams)]
    .ok () (s2.setPart r { s.parts r with headers := s.nHeaders, filename := some filename, data := none })

/-- message.py:447-460 `DataPart(filename)`: no part if `from_file` raises -/
def newPartFileD (env : Env) (filename : Str) : M Store Nat := fun s =>
  match env.files filename with
  | none => .err .osError s
  | some _ => (do
      let r ← newPartD
      fromFileD env r filename
      pure r) s

/-- `headers[name] = value` for a dictionary of headers; a content type has a new dictionary of parameters -/
def setItemD (d : Nat) (name : Str) (v : HVal) : M Store Unit := fun s =>
  let a := s.newVal v
  .ok () (a.2.setHeaders d ((s.headers d).set name a.1))

/-- `del headers[name]` -/
def delItemD (d : Nat) (name : Str) : M Store Unit := fun s =>
  match (s.headers d).get name with
  | none => .err .keyError s
  | some _ => .ok () (s.setHeaders d ((s.headers d).del name))

/-- `headers[name][1][k] = v`: KeyError without such a header; a string has at most characters, a tuple has a value, which
cannot be changed -/
def setParamD (d : Nat) (name k : Str) (v : Val) : M Store Unit := fun s =>
  match (s.headers d).get name with
  | none => .err .keyError s
  | some (.ct _ p) => .ok () (s.setParams p ((s.params p).set k v))
  | some (.tup _ _) => .err .typeError s
  | some (.v (.str t)) | some (.v (.uni t)) => if t.length < 2 then .err .indexError s else .err .typeError s
  | some (.v _) => .err .typeError s

/-- message.py:472-474 setting `content_type` -/
def setContentTypeD (r : Nat) (value : Str) : M Store Unit := fun s =>
  setItemD (s.parts r).headers (py! "Content-Type") (.ct value []) s

/-- `part.content_type_parameters[k] = v` (message.py:455) -/
def setCtParamD (r : Nat) (k : Str) (v : Val) : M Store Unit := fun s =>
  let d := (s.parts r).ctParams
  .ok () (s.setParams d ((s.params d).set k v))

/-- `part.content_type_parameters = {...}` -/
def newCtParamsD (r : Nat) (ps : Dict Val) : M Store Unit := fun s =>
  .ok () ((s.addParams ps).setPart r { s.parts r with ctParams := s.nParams })

/-- `part.headers = other.headers`: two parts with one dictionary -/
def takeHeadersD (r r' : Nat) : M Store Unit := fun s =>
  .ok () (s.setPart r { s.parts r with headers := (s.parts r').headers })

/-! ### messages -/

/-- message.py:30-44 `MMSMessage()` -/
def newMsgD : M Store Nat := fun s =>
  let a := s.newVals Msg.new.headers
  .ok s.nMsgs ((a.2.addHeaders a.1).addMsg s.nHeaders)

/-- message.py:59-70 `add_page`: what it does to the headers -/
def addPageD (m : Nat) : M Store Unit := fun s =>
  match (s.headers (s.msgs m)).get (py! "Content-Type") with
  | none => .err .keyError s
  | some x =>
    match (s.val x).first with
    | .error e => .err e s
    | .ok t =>
      if t ≠ py! "application/vnd.wap.multipart.related" then
        setItemD (s.msgs m) (py! "Content-Type") (.ct (py! "application/vnd.wap.multipart.related") []) s
      else .ok () s

/-! ### received messages -/

/-- mms_pdu.py:195-200: the headers of a part, and whether one of them was another Content-Type (which replaces the entry made
at mms_pdu.py:191) -/
def partHeaderLoopT : Nat → Dict HVal → Bool → D (Dict HVal × Bool)
  | 0, _, _ => M.throw .diverge
  | fuel + 1, hdrs, b => fun s =>
    match decodeHeader s with
    | .ok (h, v) s' => partHeaderLoopT fuel (hdrs.set h v) (b || decide (h = py! "Content-Type")) s'
    | .err .stopIteration s' => .ok (hdrs, b) s'
    | .err e s' => .err e s'

/-- mms_pdu.py:188-200: what is read from `ct_iter`, and whether the headers still hold the first content type, that is, the
dictionary that becomes `content_type_parameters` (mms_pdu.py:209) -/
def partHeadersT (bytes : List Nat) : D (Str × Dict Val × Dict HVal × Bool) := do
  let (ctype, params) ← decodeContentTypeValue
  let (hdrs, other) ← partHeaderLoopT (bytes.length + 1) [(py! "Content-Type", .ct ctype params)] false
  pure (ctype, params, hdrs, !other)

/-- mms_pdu.py:179-211: one iteration of the loop over the parts; see `partHeadersT` for the second component -/
def decodePartT : D (DataPart × Bool) := do
  let headersLen ← decodeUintVar
  let dataLen ← decodeUintVar
  xrangeCheck headersLen
  let ctBytes ← nextN headersLen
  let (_, params, hdrs, same) ← onFresh ctBytes (partHeadersT ctBytes)
  xrangeCheck dataLen
  let data ← nextN dataLen
  pure ({ ctParams := params, headers := hdrs, filename := none, data := some data }, same)

/-- mms_pdu.py:178-211: the loop over the parts -/
def partLoopT : Nat → List (DataPart × Bool) → D (List (DataPart × Bool))
  | 0, acc => pure acc
  | n + 1, acc => do
    let p ← decodePartT
    partLoopT n (acc ++ [p])

/-- mms_pdu.py:155-211 `decode_message_body` -/
def decodeMessageBodyT : D (List (DataPart × Bool)) := fun s =>
  match decodeUintVar s with
  | .err .stopIteration s' => .ok [] s'
  | .err e s' => .err e s'
  | .ok n s' =>
    (do
      xrangeCheck n
      partLoopT n []) s'

/-- mms_pdu.py:96-110 `decode_data`: headers of the message, and the parts -/
def decodeDataT (data : List Nat) : Py (Dict HVal × List (DataPart × Bool)) :=
  match (do
      let hdrs ← decodeMessageHeader
      let parts ← decodeMessageBodyT
      pure (hdrs, parts) : D (Dict HVal × List (DataPart × Bool))) (It.new data) with
  | .ok m _ => .ok m
  | .err e _ => .error e

namespace Store

/-- mms_pdu.py:188-211: a received part in the store.  With `same`, the parameters in the Content-Type header are the
dictionary `content_type_parameters`. -/
def addReceived (s : Store) (p : DataPart × Bool) : Store :=
  let s1 := s.addParams p.1.ctParams
  let a := s1.newVals p.1.headers
  let l :=
    if p.2 then
      match a.1.get (py! "Content-Type") with
      | some (.ct c _) => a.1.set (py! "Content-Type") (.ct c s.nParams)
      | _ => a.1
    else a.1
  (a.2.addHeaders l).addPart { ctParams := s.nParams, headers := s.nHeaders, filename := p.1.filename, data := p.1.data }

end Store

/-- message.py:241-252 `from_data`: a new message and its parts, which get the next numbers in order -/
def receiveD (data : List Nat) : M Store Nat := fun s =>
  match decodeDataT data with
  | .error e => .err e s
  | .ok (hdrs, parts) =>
    let a := s.newVals hdrs
    .ok s.nMsgs (parts.foldl Store.addReceived ((a.2.addHeaders a.1).addMsg s.nHeaders))

end Verif.Mms

import Verif.Model.Cache
/-!
# Model of `smil`, `encode` and `from_file` of `messaging/mms/message.py` and `messaging/mms/mms_pdu.py` while files change

In `Model/Cache.lean` the files stay as they are during a call, and all of them can be read.  Here every access to a file
(`os.stat`, `open` with `read`) happens at a moment of its own, and what it finds is whatever the disk has at that moment:
other programs may write, replace, remove or protect files at any time.  `C111_agrees` relates the two.
-/
set_option autoImplicit false

namespace Verif.Mms

/-- What can be found out about the files at one moment: `os.stat(f)[6]`, if it succeeds, and what `open(f, 'r').read()`
gives, if it succeeds.  Nothing relates the two: the file may change in between, be of a kind that has no size, or be one
that may not be read. -/
structure Disk where
  size : Str → Option Nat
  content : Str → Option Str

/-- the disk at every moment; each access to a file takes one moment -/
abbrev World := Nat → Disk

/-- message.py:543-555 the `data` property -/
def getDataT (w : World) : M (DataPart × Nat) Str := fun s =>
  match s.1.data with
  | some d => .ok d s
  | none =>
    match s.1.filename with
    | some f =>
      match (w s.2).content f with
      | some c => .ok c ({ s.1 with data := some c }, s.2 + 1)
      | none => .err .ioError (s.1, s.2 + 1)
    | none => .ok [] s

/-- message.py:535-540 `__len__` -/
def lenT (w : World) : M (DataPart × Nat) Nat := fun s =>
  match s.1.filename with
  | some f =>
    match (w s.2).size f with
    | some n => .ok n (s.1, s.2 + 1)
    | none => .err .osError (s.1, s.2 + 1)
  | none =>
    match getDataT w s with
    | .ok d s' => .ok d.length s'
    | .err e s' => .err e s'

/-- run code on the part in a slot and put the part back (see `onSlot`) -/
def onSlotT {α : Type} (put : Page → Option (DataPart × Int × Int) → Page) (x : DataPart × Int × Int)
    (f : M (DataPart × Nat) α) : M (Page × Nat) α := fun s =>
  match f (x.1, s.2) with
  | .ok a (part, t) => .ok a (put s.1 (some (part, x.2)), t)
  | .err e (part, t) => .err e (put s.1 (some (part, x.2)), t)

/-- message.py:152-157 and 188-193: the `src` of an image or audio clip (see `srcOf`) -/
def srcOfT (w : World) : M (DataPart × Nat) Str := fun s =>
  match s.1.headers.get (py! "Content-Location") with
  | some x => M.lift (srcText x) s
  | none =>
    match s.1.headers.get (py! "Content-ID") with
    | some x => M.lift (srcText x) s
    | none => getDataT w s

/-- message.py:149-169: the image of a page -/
def smilImageT (w : World) (uid : Nat) : M (Page × Nat) (List MediaNode) := do
  let s ← M.get
  match s.1.image with
  | none => pure []
  | some x => do
    let src ← onSlotT Page.putImage x (srcOfT w)
    pure [{ uid := uid, tag := py! "img",
            attrs := [(py! "src", src), (py! "region", py! "Image")] ++ timing s.1.duration x.2.1 x.2.2 }]

/-- message.py:171-184: the text of a page -/
def smilTextT (w : World) (uid : Nat) : M (Page × Nat) (Option MediaNode) := do
  let s ← M.get
  match s.1.text with
  | none => pure none
  | some x => do
    let src ← onSlotT Page.putText x (getDataT w)
    pure (some { uid := uid, tag := py! "text",
                 attrs := [(py! "src", src), (py! "region", py! "Text")] ++ timing s.1.duration x.2.1 x.2.2 })

/-- message.py:145-207: one page (see `smilPage`) -/
def smilPageT (w : World) (st : SmilSt) : M (Page × Nat) SmilSt := do
  let img ← smilImageT w st.uid
  let txt ← smilTextT w (st.uid + 1)
  let s ← M.get
  let textNode := match txt with | some t => some t | none => st.textNode
  let kids := img ++ (match txt with | some t => [t] | none => [])
  match s.1.audio with
  | none => pure { pars := st.pars ++ [⟨s.1.duration, kids⟩], textNode := textNode, uid := st.uid + 3 }
  | some x => do
    let src ← onSlotT Page.putAudio x (srcOfT w)
    let audio : MediaNode :=
      { uid := st.uid + 2, tag := py! "audio", attrs := [(py! "src", src)] ++ timing s.1.duration x.2.1 x.2.2 }
    match textNode with
    | none => M.throw .nameError
    | some t =>
      let pars := st.pars.map (fun p => { p with kids := removeNode t.uid p.kids })
      let kids := removeNode t.uid kids ++ [t, audio]
      pure { pars := pars ++ [⟨s.1.duration, kids⟩], textNode := textNode, uid := st.uid + 3 }

/-- a loop over the pages that may change each of them (see `eachPage`) -/
def eachPageT {β : Type} (f : β → M (Page × Nat) β) : β → List Page → Nat → Res (List Page × Nat) β
  | b, [], t => .ok b ([], t)
  | b, p :: ps, t =>
    match f b (p, t) with
    | .err e (p', t') => .err e (p' :: ps, t')
    | .ok b' (p', t') =>
      match eachPageT f b' ps t' with
      | .ok r (ps', t'') => .ok r (p' :: ps', t'')
      | .err e (ps', t'') => .err e (p' :: ps', t'')

/-- message.py:107-210 `smil` -/
def smilT (w : World) : M (Msg × Nat) Str := fun s =>
  match eachPageT (smilPageT w) { pars := [], textNode := none, uid := 0 } s.1.pages s.2 with
  | .err e (pages, t) => .err e ({ s.1 with pages := pages }, t)
  | .ok st (pages, t) =>
    .ok ((Xml.elem (py! "smil") [] [s.1.smilHead, .elem (py! "body") [] (st.pars.map ParNode.toXml)]).write [])
      ({ s.1 with pages := pages }, t)

/-- mms_pdu.py:781-803: one part (see `encodePart`).  Line 796 asks for the length of the data, line 802 for the data. -/
def encodePartT (w : World) (ord : Dict HVal → Dict HVal) : M (DataPart × Nat) (List Nat) := do
  let s ← M.get
  let v ← M.lift (s.1.headers.index (py! "Content-Type"))
  let ct ← M.lift (encodeCtPair v)
  let hs ← M.lift (encodePartHeaders (ord s.1.headers))
  let a ← M.lift (toOctets (ints (encodeUintVar ((ct.length : Int) + hs.length))))
  let n ← lenT w
  let b ← M.lift (toOctets (ints (encodeUintVar n)))
  let c ← M.lift (toOctets ct)
  let d ← M.lift (toOctets hs)
  let data ← getDataT w
  pure (a ++ b ++ c ++ d ++ data)

/-- mms_pdu.py:776-803: the part in a slot, if any -/
def encodeSlotT (w : World) (ord : Dict HVal → Dict HVal) (put : Page → Option (DataPart × Int × Int) → Page)
    (x : Option (DataPart × Int × Int)) : M (Page × Nat) (List Nat) :=
  match x with
  | none => pure []
  | some x => onSlotT put x (encodePartT w ord)

/-- mms_pdu.py:775-803: the parts of one page, after the octets `o` -/
def encodePageT (w : World) (ord : Dict HVal → Dict HVal) (o : List Nat) : M (Page × Nat) (List Nat) := do
  let s ← M.get
  let a ← encodeSlotT w ord Page.putImage s.1.image
  let b ← encodeSlotT w ord Page.putAudio s.1.audio
  let c ← encodeSlotT w ord Page.putText s.1.text
  pure (o ++ a ++ b ++ c)

/-- mms_pdu.py:705-805 `encode_message_body` (see `encodeMessageBody`).  The SMIL part holds its data: no file is read
for it. -/
def encodeMessageBodyT (w : World) (ord : Dict HVal → Dict HVal) : M (Msg × Nat) (List Nat) := do
  let s ← M.get
  let a ← M.lift (toOctets (ints (encodeUintVar (numEntries s.1))))
  let smil ← smilT w
  fun s =>
    match encodePartT w ord (smilPart smil, s.2) with
    | .err e (_, t) => .err e (s.1, t)
    | .ok b (_, t) =>
      match eachPageT (encodePageT w ord) (a ++ b) s.1.pages t with
      | .ok o (pages, t) => .ok o ({ s.1 with pages := pages }, t)
      | .err e (pages, t) => .err e ({ s.1 with pages := pages }, t)

/-- mms_pdu.py:595-608 `encode` (and message.py:212-223 `encode`).  The headers of the message need no file. -/
def encodeT (w : World) (ord : Dict HVal → Dict HVal) (rnd : Nat) : M (Msg × Nat) (List Nat) := do
  let h ← fun s =>
    match encodeMessageHeader ord rnd s.1 with
    | .ok a m => .ok a (m, s.2)
    | .err e m => .err e (m, s.2)
  let b ← encodeMessageBodyT w ord
  pure (h ++ b)

/-- what `decode_file` raises: EOFError (of `array.fromfile`), or one of the other exceptions -/
inductive FileErr
  | eofError
  | other (e : PyErr)
  deriving DecidableEq, Repr

/-- mms_pdu.py:76-94 `decode_file` (and message.py:255-266 `from_file`), beginning at the moment `t`.  Line 88 asks for the
size; lines 91-92 read as many octets, EOFError if there are fewer.  Opening the file and reading it are one access. -/
def decodeFileT (w : World) (filename : Str) (t : Nat) : Except FileErr Msg :=
  match (w t).size filename with
  | none => .error (.other .osError)
  | some n =>
    match (w (t + 1)).content filename with
    | none => .error (.other .ioError)
    | some c =>
      if c.length < n then .error .eofError
      else
        match decodeData (c.take n) with
        | .ok m => .ok m
        | .error e => .error (.other e)

end Verif.Mms

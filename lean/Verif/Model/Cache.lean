import Verif.Model.MmsPdu
/-!
# Model of `smil`, `encode` and `to_file` of `messaging/mms/message.py` and `messaging/mms/mms_pdu.py`, with the caching of
file contents in the parts

`Model/Message.lean` and `Model/MmsPdu.lean` give the same functions without the caching; `Proofs/Cache.lean` shows that
the octets and exceptions are the same.  Parts are values here: a page that was added to a message twice is two
pages.
-/
set_option autoImplicit false

namespace Verif.Mms

/-- run code on the part in a slot and put the part back -/
def onSlot {α : Type} (put : Page → Option (DataPart × Int × Int) → Page) (x : DataPart × Int × Int) (f : M DataPart α) :
    M Page α := fun p =>
  match f x.1 with
  | .ok a part => .ok a (put p (some (part, x.2)))
  | .err e part => .err e (put p (some (part, x.2)))

/-- `page.image = ...` -/
def Page.putImage (p : Page) (x : Option (DataPart × Int × Int)) : Page := { p with image := x }

/-- `page.audio = ...` -/
def Page.putAudio (p : Page) (x : Option (DataPart × Int × Int)) : Page := { p with audio := x }

/-- `page.text = ...` -/
def Page.putText (p : Page) (x : Option (DataPart × Int × Int)) : Page := { p with text := x }

/-- message.py:152-157 and 188-193: the `src` of an image or audio clip (see `srcOf`) -/
def srcOfC (env : Env) : M DataPart Str := fun part =>
  match part.headers.get (py! "Content-Location") with
  | some x => M.lift (srcText x) part
  | none =>
    match part.headers.get (py! "Content-ID") with
    | some x => M.lift (srcText x) part
    | none => DataPart.getData env part

/-- message.py:149-169: the image of a page -/
def smilImageC (env : Env) (uid : Nat) : M Page (List MediaNode) := do
  let page ← M.get
  match page.image with
  | none => pure []
  | some x => do
    let src ← onSlot Page.putImage x (srcOfC env)
    pure [{ uid := uid, tag := py! "img",
            attrs := [(py! "src", src), (py! "region", py! "Image")] ++ timing page.duration x.2.1 x.2.2 }]

/-- message.py:171-184: the text of a page -/
def smilTextC (env : Env) (uid : Nat) : M Page (Option MediaNode) := do
  let page ← M.get
  match page.text with
  | none => pure none
  | some x => do
    let src ← onSlot Page.putText x (DataPart.getData env)
    pure (some { uid := uid, tag := py! "text",
                 attrs := [(py! "src", src), (py! "region", py! "Text")] ++ timing page.duration x.2.1 x.2.2 })

/-- message.py:145-207: one page (see `smilPage`) -/
def smilPageC (env : Env) (st : SmilSt) : M Page SmilSt := do
  let img ← smilImageC env st.uid
  let txt ← smilTextC env (st.uid + 1)
  let page ← M.get
  let textNode := match txt with | some t => some t | none => st.textNode
  let kids := img ++ (match txt with | some t => [t] | none => [])
  match page.audio with
  | none => pure { pars := st.pars ++ [⟨page.duration, kids⟩], textNode := textNode, uid := st.uid + 3 }
  | some x => do
    let src ← onSlot Page.putAudio x (srcOfC env)
    let audio : MediaNode :=
      { uid := st.uid + 2, tag := py! "audio", attrs := [(py! "src", src)] ++ timing page.duration x.2.1 x.2.2 }
    match textNode with
    | none => M.throw .nameError
    | some t =>
      let pars := st.pars.map (fun p => { p with kids := removeNode t.uid p.kids })
      let kids := removeNode t.uid kids ++ [t, audio]
      pure { pars := pars ++ [⟨page.duration, kids⟩], textNode := textNode, uid := st.uid + 3 }

/-- a loop over the pages that may change each of them -/
def eachPage {β : Type} (f : β → M Page β) : β → List Page → Res (List Page) β
  | b, [] => .ok b []
  | b, p :: ps =>
    match f b p with
    | .err e p' => .err e (p' :: ps)
    | .ok b' p' =>
      match eachPage f b' ps with
      | .ok r ps' => .ok r (p' :: ps')
      | .err e ps' => .err e (p' :: ps')

/-- message.py:107-210 `smil` -/
def smilC (env : Env) : M Msg Str := fun m =>
  match eachPage (smilPageC env) { pars := [], textNode := none, uid := 0 } m.pages with
  | .err e pages => .err e { m with pages := pages }
  | .ok st pages =>
    .ok ((Xml.elem (py! "smil") [] [m.smilHead, .elem (py! "body") [] (st.pars.map ParNode.toXml)]).write [])
      { m with pages := pages }

/-- mms_pdu.py:781-803: one part (see `encodePart`) -/
def encodePartC (env : Env) (ord : Dict HVal → Dict HVal) : M DataPart (List Nat) := do
  let part ← M.get
  let v ← M.lift (part.headers.index (py! "Content-Type"))
  let ct ← M.lift (encodeCtPair v)
  let hs ← M.lift (encodePartHeaders (ord part.headers))
  let a ← M.lift (toOctets (ints (encodeUintVar ((ct.length : Int) + hs.length))))
  let n ← M.lift (part.len env)
  let b ← M.lift (toOctets (ints (encodeUintVar n)))
  let c ← M.lift (toOctets ct)
  let d ← M.lift (toOctets hs)
  let data ← DataPart.getData env
  pure (a ++ b ++ c ++ d ++ data)

/-- mms_pdu.py:776-803: the part in a slot, if any -/
def encodeSlotC (env : Env) (ord : Dict HVal → Dict HVal) (put : Page → Option (DataPart × Int × Int) → Page)
    (x : Option (DataPart × Int × Int)) : M Page (List Nat) :=
  match x with
  | none => pure []
  | some x => onSlot put x (encodePartC env ord)

/-- mms_pdu.py:775-803: the parts of one page, after the octets `o` -/
def encodePageC (env : Env) (ord : Dict HVal → Dict HVal) (o : List Nat) : M Page (List Nat) := do
  let page ← M.get
  let a ← encodeSlotC env ord Page.putImage page.image
  let b ← encodeSlotC env ord Page.putAudio page.audio
  let c ← encodeSlotC env ord Page.putText page.text
  pure (o ++ a ++ b ++ c)

/-- mms_pdu.py:705-805 `encode_message_body` (see `encodeMessageBody`) -/
def encodeMessageBodyC (env : Env) (ord : Dict HVal → Dict HVal) : M Msg (List Nat) := do
  let m ← M.get
  let a ← M.lift (toOctets (ints (encodeUintVar (numEntries m))))
  let smil ← smilC env
  let b ← M.lift (encodePart env ord (smilPart smil))
  fun m =>
    match eachPage (encodePageC env ord) (a ++ b) m.pages with
    | .ok o pages => .ok o { m with pages := pages }
    | .err e pages => .err e { m with pages := pages }

/-- mms_pdu.py:595-608 `encode` (and message.py:212-223 `encode`) -/
def encodeC (env : Env) (ord : Dict HVal → Dict HVal) (rnd : Nat) : M Msg (List Nat) := do
  let h ← encodeMessageHeader ord rnd
  let b ← encodeMessageBodyC env ord
  pure (h ++ b)

/-- the files after a regular file was written -/
def Env.write (env : Env) (filename content : Str) : Env :=
  { env with files := fun f => if f = filename then some content else env.files f }

/-- message.py:225-238 `to_file`.  `writable` tells which files `open(..., 'wb')` can open (IOError otherwise).  The file
is emptied by `open` before the message is encoded.  Simplified: one file has one name; writing does not fail once the
file is open.  The result is that of the method: `None`. -/
def toFile (ord : Dict HVal → Dict HVal) (rnd : Nat) (writable : Str → Bool) (filename : Str) :
    M (Msg × Env) (Option (List Nat)) :=
  fun s =>
    if writable filename = false then .err .ioError s
    else
      match encodeC (s.2.write filename []) ord rnd s.1 with
      | .err e m => .err e (m, s.2.write filename [])
      | .ok o m => .ok none (m, s.2.write filename o)

end Verif.Mms

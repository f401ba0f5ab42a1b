import Verif.Model.Cache
/-!
# Model of the objects of `messaging/mms/message.py` and their sharing

Messages, slides and parts are objects: a slide may be in several messages or several times in one, a part in several
slides, and all of them may be changed afterwards.  `Model/Cache.lean` gives the same functions for messages that own
their slides and parts.  References are numbers.  Simplified: dictionaries (headers and parameters) belong to one object.
-/
set_option autoImplicit false

namespace Verif.Mms

/-- message.py:280-284 a slide; a slot holds `(reference of the part, time_begin, time_end)` -/
structure PageObj where
  duration : Int
  image : Option (Nat × Int × Int)
  audio : Option (Nat × Int × Int)
  text : Option (Nat × Int × Int)
  deriving DecidableEq, Repr

/-- message.py:30-44 a message; slides and loose parts are references -/
structure MsgObj where
  pages : List Nat
  dataParts : List Nat
  metaTags : Dict Str
  headers : Dict HVal
  width : Int
  height : Int
  deriving DecidableEq, Repr

/-- all objects; those from `next...` on do not exist yet -/
structure Heap where
  parts : Nat → DataPart
  pages : Nat → PageObj
  msgs : Nat → MsgObj
  nextPart : Nat
  nextPage : Nat
  nextMsg : Nat

namespace Heap

/-- changing a part -/
def setPart (h : Heap) (r : Nat) (p : DataPart) : Heap := { h with parts := fun x => if x = r then p else h.parts x }

/-- changing a slide -/
def setPage (h : Heap) (r : Nat) (p : PageObj) : Heap := { h with pages := fun x => if x = r then p else h.pages x }

/-- changing a message -/
def setMsg (h : Heap) (r : Nat) (m : MsgObj) : Heap := { h with msgs := fun x => if x = r then m else h.msgs x }

/-- the slot with the part itself -/
def slot (h : Heap) (x : Option (Nat × Int × Int)) : Option (DataPart × Int × Int) := x.map (fun t => (h.parts t.1, t.2))

/-- the slide with the parts themselves -/
def page (h : Heap) (r : Nat) : Page :=
  { duration := (h.pages r).duration, image := h.slot (h.pages r).image, audio := h.slot (h.pages r).audio,
    text := h.slot (h.pages r).text }

/-- the message with the slides and parts themselves -/
def msg (h : Heap) (r : Nat) : Msg :=
  { pages := (h.msgs r).pages.map h.page, dataParts := (h.msgs r).dataParts.map h.parts, metaTags := (h.msgs r).metaTags,
    headers := (h.msgs r).headers, width := (h.msgs r).width, height := (h.msgs r).height }

end Heap

/-! ### what a program does with the objects -/

/-- run code on a part -/
def onPart {α : Type} (r : Nat) (f : M DataPart α) : M Heap α := fun h =>
  match f (h.parts r) with
  | .ok a p => .ok a (h.setPart r p)
  | .err e p => .err e (h.setPart r p)

/-- message.py:447-460 `DataPart()`; the result is the new object -/
def newPart : M Heap Nat := fun h =>
  .ok h.nextPart { (h.setPart h.nextPart DataPart.new) with nextPart := h.nextPart + 1 }

/-- message.py:447-460 `DataPart(filename)` -/
def newPartFromFile (env : Env) (filename : Str) : M Heap Nat := fun h =>
  match DataPart.ofFile env filename with
  | .error e => .err e h
  | .ok p => .ok h.nextPart { h.setPart h.nextPart p with nextPart := h.nextPart + 1 }

/-- message.py:280-284 `MMSMessagePage()` -/
def newPage : M Heap Nat := fun h =>
  let o : PageObj := { duration := 4000, image := none, audio := none, text := none }
  .ok h.nextPage { h.setPage h.nextPage o with nextPage := h.nextPage + 1 }

/-- message.py:30-44 `MMSMessage()` -/
def newMsg : M Heap Nat := fun h =>
  let o : MsgObj := { pages := [], dataParts := [], metaTags := [], headers := Msg.new.headers, width := Msg.new.width,
                      height := Msg.new.height }
  .ok h.nextMsg { h.setMsg h.nextMsg o with nextMsg := h.nextMsg + 1 }

/-- a new part, with its times, put in a slot of a slide -/
def putNew (put : PageObj → Option (Nat × Int × Int) → PageObj) (r : Nat) (x : Py (DataPart × Int × Int)) : M Heap Unit :=
  fun h =>
    match x with
    | .error e => .err e h
    | .ok (p, t) =>
      let h' := (h.setPart h.nextPart p).setPage r (put (h.pages r) (some (h.nextPart, t)))
      .ok () { h' with nextPart := h.nextPart + 1 }

/-- `page.image = ...` -/
def PageObj.putImage (p : PageObj) (x : Option (Nat × Int × Int)) : PageObj := { p with image := x }

/-- `page.audio = ...` -/
def PageObj.putAudio (p : PageObj) (x : Option (Nat × Int × Int)) : PageObj := { p with audio := x }

/-- `page.text = ...` -/
def PageObj.putText (p : PageObj) (x : Option (Nat × Int × Int)) : PageObj := { p with text := x }

/-- message.py:307-341 `add_image` -/
def addImageH (env : Env) (r : Nat) (filename timeBegin timeEnd : Val) : M Heap Unit :=
  putNew PageObj.putImage r (Page.fileSlot env filename timeBegin timeEnd)

/-- message.py:343-377 `add_audio` -/
def addAudioH (env : Env) (r : Nat) (filename timeBegin timeEnd : Val) : M Heap Unit :=
  putNew PageObj.putAudio r (Page.fileSlot env filename timeBegin timeEnd)

/-- message.py:379-411 `add_text` -/
def addTextH (r : Nat) (text timeBegin timeEnd : Val) : M Heap Unit :=
  putNew PageObj.putText r (Page.textSlot text timeBegin timeEnd)

/-- message.py:413-430 `set_duration` -/
def setDurationH (r : Nat) (duration : Val) : M Heap Unit := fun h =>
  match asPyInt duration with
  | none => .err .typeError h
  | some d => if d < 1 then .err .valueError h else .ok () (h.setPage r { h.pages r with duration := d })

/-- `page.image = (part, begin, end)` and the like: an existing part in a slot, which may be in other slots too -/
def assignSlot (put : PageObj → Option (Nat × Int × Int) → PageObj) (r : Nat) (x : Option (Nat × Int × Int)) : M Heap Unit :=
  fun h => .ok () (h.setPage r (put (h.pages r) x))

/-- message.py:59-70 `add_page` -/
def addPageH (m r : Nat) : M Heap Unit := fun h =>
  match (h.msg m).contentType with
  | .error e => .err e h
  | .ok ct =>
    let o := h.msgs m
    .ok () (h.setMsg m { o with
      headers :=
        if ct ≠ py! "application/vnd.wap.multipart.related" then
          o.headers.set (py! "Content-Type") (.ct (py! "application/vnd.wap.multipart.related") [])
        else o.headers
      pages := o.pages ++ [r] })

/-- message.py:77-90 `add_data_part` -/
def addDataPartH (m r : Nat) : M Heap Unit := fun h =>
  .ok () (h.setMsg m { h.msgs m with dataParts := (h.msgs m).dataParts ++ [r] })

/-- `message.headers[name] = value` -/
def setHeaderH (m : Nat) (name : Str) (v : HVal) : M Heap Unit := fun h =>
  .ok () (h.setMsg m { h.msgs m with headers := (h.msgs m).headers.set name v })

/-! ### `smil` and `encode` -/

/-- message.py:149-169: the image of slide `r` -/
def smilImageH (env : Env) (r uid : Nat) : M Heap (List MediaNode) := do
  let h ← M.get
  match (h.pages r).image with
  | none => pure []
  | some x => do
    let src ← onPart x.1 (srcOfC env)
    pure [{ uid := uid, tag := py! "img",
            attrs := [(py! "src", src), (py! "region", py! "Image")] ++ timing (h.pages r).duration x.2.1 x.2.2 }]

/-- message.py:171-184: the text of slide `r` -/
def smilTextH (env : Env) (r uid : Nat) : M Heap (Option MediaNode) := do
  let h ← M.get
  match (h.pages r).text with
  | none => pure none
  | some x => do
    let src ← onPart x.1 (DataPart.getData env)
    pure (some { uid := uid, tag := py! "text",
                 attrs := [(py! "src", src), (py! "region", py! "Text")] ++ timing (h.pages r).duration x.2.1 x.2.2 })

/-- message.py:186-207: the audio clip of slide `r`, and the end of the slide -/
def smilAudioH (env : Env) (r : Nat) (st : SmilSt) (img : List MediaNode) (txt : Option MediaNode) : M Heap SmilSt := do
  let h ← M.get
  let page := h.pages r
  let textNode := match txt with | some t => some t | none => st.textNode
  let kids := img ++ (match txt with | some t => [t] | none => [])
  match page.audio with
  | none => pure { pars := st.pars ++ [⟨page.duration, kids⟩], textNode := textNode, uid := st.uid + 3 }
  | some x => do
    let src ← onPart x.1 (srcOfC env)
    let audio : MediaNode :=
      { uid := st.uid + 2, tag := py! "audio", attrs := [(py! "src", src)] ++ timing page.duration x.2.1 x.2.2 }
    match textNode with
    | none => M.throw .nameError
    | some t =>
      let pars := st.pars.map (fun p => { p with kids := removeNode t.uid p.kids })
      let kids := removeNode t.uid kids ++ [t, audio]
      pure { pars := pars ++ [⟨page.duration, kids⟩], textNode := textNode, uid := st.uid + 3 }

/-- message.py:145-207: one slide (see `smilPage`) -/
def smilPageH (env : Env) (st : SmilSt) (r : Nat) : M Heap SmilSt := do
  let img ← smilImageH env r st.uid
  let txt ← smilTextH env r (st.uid + 1)
  smilAudioH env r st img txt

/-- message.py:144-207: all slides -/
def smilPagesH (env : Env) (st : SmilSt) : List Nat → M Heap SmilSt
  | [] => pure st
  | r :: rs => do
    let st ← smilPageH env st r
    smilPagesH env st rs

/-- message.py:107-210 `smil` -/
def smilH (env : Env) (m : Nat) : M Heap Str := do
  let h ← M.get
  let st ← smilPagesH env { pars := [], textNode := none, uid := 0 } (h.msgs m).pages
  pure ((Xml.elem (py! "smil") [] [(h.msg m).smilHead, .elem (py! "body") [] (st.pars.map ParNode.toXml)]).write [])

/-- mms_pdu.py:776-803: the part in a slot, if any -/
def encodeSlotH (env : Env) (ord : Dict HVal → Dict HVal) : Option (Nat × Int × Int) → M Heap (List Nat)
  | none => pure []
  | some x => onPart x.1 (encodePartC env ord)

/-- mms_pdu.py:775-803: the parts of one slide -/
def encodePageH (env : Env) (ord : Dict HVal → Dict HVal) (r : Nat) : M Heap (List Nat) := do
  let h ← M.get
  let a ← encodeSlotH env ord (h.pages r).image
  let b ← encodeSlotH env ord (h.pages r).audio
  let c ← encodeSlotH env ord (h.pages r).text
  pure (a ++ (b ++ c))

/-- mms_pdu.py:775-803: the parts of the slides -/
def encodePagesH (env : Env) (ord : Dict HVal → Dict HVal) : List Nat → M Heap (List Nat)
  | [] => pure []
  | r :: rs => do
    let a ← encodePageH env ord r
    let b ← encodePagesH env ord rs
    pure (a ++ b)

/-- mms_pdu.py:705-805 `encode_message_body` -/
def encodeMessageBodyH (env : Env) (ord : Dict HVal → Dict HVal) (m : Nat) : M Heap (List Nat) := do
  let h ← M.get
  let a ← M.lift (toOctets (ints (encodeUintVar (numEntries (h.msg m)))))
  let smil ← smilH env m
  let b ← M.lift (encodePart env ord (smilPart smil))
  let c ← encodePagesH env ord (h.msgs m).pages
  pure (a ++ (b ++ c))

/-- mms_pdu.py:610-703: the headers.  `encodeMessageHeader` reads and changes only the `headers` of the message. -/
def encodeMessageHeaderH (ord : Dict HVal → Dict HVal) (rnd m : Nat) : M Heap (List Nat) := fun h =>
  match encodeMessageHeader ord rnd (h.msg m) with
  | .ok a v => .ok a (h.setMsg m { h.msgs m with headers := v.headers })
  | .err e v => .err e (h.setMsg m { h.msgs m with headers := v.headers })

/-- mms_pdu.py:595-608 `encode` (and message.py:212-223 `encode`) of message `m` -/
def encodeH (env : Env) (ord : Dict HVal → Dict HVal) (rnd m : Nat) : M Heap (List Nat) := do
  let h ← encodeMessageHeaderH ord rnd m
  let b ← encodeMessageBodyH env ord m
  pure (h ++ b)

end Verif.Mms

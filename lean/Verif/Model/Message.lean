import Verif.Model.WspTables
/-!
# Model of `messaging/mms/message.py`
-/
set_option autoImplicit false

namespace Verif.Mms

/-- The outside world as the library sees it: the contents of the regular files, and `mimetypes.guess_type(f)[0]`, where
`none` is None or the empty text (message.py:496-497 has `or`).
Simplified: file names have no NUL octets (Python raises TypeError for those), and every regular file can be read. -/
structure Env where
  files : Str → Option Str
  mime : Str → Option Str

/-- message.py:433-555 a `DataPart` object.  `data` is `_data`; an `array('B')` and the `str` with the same octets are
not distinguished (the `data` property converts one into the other). -/
structure DataPart where
  ctParams : Dict Val
  headers : Dict HVal
  filename : Option Str
  data : Option Str
  deriving DecidableEq, Repr

namespace DataPart

/-- message.py:447-460 `DataPart()` -/
def new : DataPart :=
  { ctParams := [], headers := [(py! "Content-Type", .ct (py! "application/octet-stream") [])],
    filename := none, data := none }

/-- `os.path.basename` (POSIX): what follows the last slash -/
def basename (f : Str) : Str := (f.reverse.takeWhile (· ≠ 47)).reverse

/-- message.py:478-499 `from_file` -/
def fromFile (env : Env) (filename : Str) : M DataPart Unit :=
  match env.files filename with
  | none => M.throw .osError
  | some _ => M.modify (fun p => { p with
      headers := Dict.set (Dict.set [] (py! "Content-Location") (.v (.str (basename filename))))
        (py! "Content-Type") (.ct ((env.mime filename).getD (py! "application/octet-stream")) [])
      data := none
      filename := some filename })

/-- message.py:501-521 `set_data` -/
def setData (data : Str) (contentType : Str) (ctParameters : Dict Val) : M DataPart Unit :=
  M.modify (fun p => { p with
    headers := [(py! "Content-Type", .ct contentType ctParameters)], filename := none, data := some data })

/-- message.py:523-533 `set_text` -/
def setText (text : Str) : M DataPart Unit := setData text (py! "text/plain") []

/-- message.py:447-460 `DataPart(filename)` -/
def ofFile (env : Env) (filename : Str) : Py DataPart :=
  match fromFile env filename new with
  | .ok _ p => .ok p
  | .err e _ => .error e

/-- message.py:543-555: the value of the `data` property -/
def readData (env : Env) (p : DataPart) : Py Str :=
  match p.data with
  | some d => .ok d
  | none =>
    match p.filename with
    | some f =>
      match env.files f with
      | some c => .ok c
      | none => .error .ioError
    | none => .ok []

/-- message.py:543-555 the `data` property, with the caching of what was read -/
def getData (env : Env) : M DataPart Str := fun p =>
  match readData env p with
  | .error e => .err e p
  | .ok d =>
    if p.data.isNone && p.filename.isSome then .ok d { p with data := some d } else .ok d p

/-- message.py:535-540 `__len__` (the object is only changed by reading `self.data`, and then there is no file, so
nothing is cached) -/
def len (env : Env) (p : DataPart) : Py Nat :=
  match p.filename with
  | some f =>
    match env.files f with
    | some c => .ok c.length
    | none => .error .osError
  | none => do
    let d ← readData env p
    .ok d.length

end DataPart

/-- message.py:269-430 an `MMSMessagePage` object; a slot holds `(part, time_begin, time_end)` -/
structure Page where
  duration : Int
  image : Option (DataPart × Int × Int)
  audio : Option (DataPart × Int × Int)
  text : Option (DataPart × Int × Int)
  deriving DecidableEq, Repr

/-- `isinstance(x, int)` and the number -/
def asPyInt : Val → Option Int
  | .int n => if isPyInt n then some n else none
  | .bool b => some (if b then 1 else 0)
  | _ => none

namespace Page

/-- message.py:280-284 `MMSMessagePage()` -/
def new : Page := { duration := 4000, image := none, audio := none, text := none }

/-- message.py:286-290 `data_parts`: the slots in use (tuples, not parts) -/
def dataParts (p : Page) : List (DataPart × Int × Int) :=
  (match p.image with | some x => [x] | none => []) ++
  (match p.audio with | some x => [x] | none => []) ++
  (match p.text with | some x => [x] | none => [])

/-- message.py:292-303 `number_of_parts` -/
def numberOfParts (p : Page) : Nat :=
  (if p.image.isSome then 1 else 0) + (if p.audio.isSome then 1 else 0) + (if p.text.isSome then 1 else 0)

/-- message.py:329-341 and 366-377: the checks shared by `add_image` and `add_audio`, giving the new slot -/
def fileSlot (env : Env) (filename timeBegin timeEnd : Val) : Py (DataPart × Int × Int) :=
  match filename with
  | .str f =>
    match asPyInt timeBegin, asPyInt timeEnd with
    | some b, some e =>
      if (env.files f).isNone then .error .osError
      else if e > 0 ∧ e < b then .error .valueError
      else do
        let part ← DataPart.ofFile env f
        .ok (part, b, e)
    | _, _ => .error .typeError
  | _ => .error .typeError

/-- message.py:307-341 `add_image` -/
def addImage (env : Env) (filename timeBegin timeEnd : Val) : M Page Unit := do
  let slot ← M.lift (fileSlot env filename timeBegin timeEnd)
  M.modify (fun p => { p with image := some slot })

/-- message.py:343-377 `add_audio` -/
def addAudio (env : Env) (filename timeBegin timeEnd : Val) : M Page Unit := do
  let slot ← M.lift (fileSlot env filename timeBegin timeEnd)
  M.modify (fun p => { p with audio := some slot })

/-- message.py:399-411: the checks of `add_text`, giving the new slot -/
def textSlot (text timeBegin timeEnd : Val) : Py (DataPart × Int × Int) :=
  match text with
  | .str t =>
    match asPyInt timeBegin, asPyInt timeEnd with
    | some b, some e =>
      if e > 0 ∧ e < b then .error .valueError
      else match DataPart.setText t DataPart.new with
        | .ok _ part => .ok (part, b, e)
        | .err e _ => .error e
    | _, _ => .error .typeError
  | _ => .error .typeError

/-- message.py:379-411 `add_text` -/
def addText (text timeBegin timeEnd : Val) : M Page Unit := do
  let slot ← M.lift (textSlot text timeBegin timeEnd)
  M.modify (fun p => { p with text := some slot })

/-- message.py:413-430 `set_duration` -/
def setDuration (duration : Val) : M Page Unit :=
  match asPyInt duration with
  | none => M.throw .typeError
  | some d => if d < 1 then M.throw .valueError else M.modify (fun p => { p with duration := d })

end Page

/-- message.py:24-44 an `MMSMessage` object (`_mms_message`, `transactionID` and `subject` are never read or changed) -/
structure Msg where
  pages : List Page
  dataParts : List DataPart
  metaTags : Dict Str
  headers : Dict HVal
  width : Int
  height : Int
  deriving DecidableEq, Repr

/-- an element of the SMIL document (`xml.dom.minidom` Element without text children) -/
inductive Xml
  | elem (tag : Str) (attrs : Dict Str) (kids : List Xml)
  deriving Repr

/-- `_write_data` of `xml.dom.minidom`: escaping of an attribute value -/
def xmlEscape (s : Str) : Str :=
  s.flatMap (fun c =>
    if c = 38 then py! "&amp;" else if c = 60 then py! "&lt;" else if c = 34 then py! "&quot;"
    else if c = 62 then py! "&gt;" else [c])

/-- one attribute as written by `Element.writexml` -/
def xmlAttr (a : Str × Str) : Str := [32] ++ a.1 ++ [61, 34] ++ xmlEscape a.2 ++ [34]

/-- lexicographic order on strings -/
def strLe : Str → Str → Bool
  | [], _ => true
  | _ :: _, [] => false
  | a :: as, b :: bs => if a < b then true else if b < a then false else strLe as bs

/-- insertion into a sorted attribute list -/
def insertAttr (a : Str × Str) : Dict Str → Dict Str
  | [] => [a]
  | b :: r => if strLe a.1 b.1 then a :: b :: r else b :: insertAttr a r

/-- `a_names.sort()` -/
def sortAttrs : Dict Str → Dict Str
  | [] => []
  | a :: r => insertAttr a (sortAttrs r)

mutual
/-- `Element.writexml(writer, indent, '\t', '\n')` of `xml.dom.minidom` for elements without text -/
def Xml.write (indent : Str) : Xml → Str
  | .elem tag attrs kids =>
    indent ++ [60] ++ tag ++ (sortAttrs attrs).flatMap xmlAttr ++
      (match kids with
       | [] => [47, 62, 10]
       | k :: ks => [62, 10] ++ Xml.writeAll (indent ++ [9]) (k :: ks) ++ indent ++ [60, 47] ++ tag ++ [62, 10])
/-- the children, one after the other -/
def Xml.writeAll (indent : Str) : List Xml → Str
  | [] => []
  | x :: xs => Xml.write indent x ++ Xml.writeAll indent xs
end

/-- an `img`, `text` or `audio` element under construction; `uid` is its identity (DOM nodes are objects) -/
structure MediaNode where
  uid : Nat
  tag : Str
  attrs : Dict Str
  deriving DecidableEq, Repr

/-- a `par` element under construction -/
structure ParNode where
  duration : Int
  kids : List MediaNode
  deriving DecidableEq, Repr

/-- the local variables of `smil()`: the finished `par` nodes, `text_node` (None while unbound), next identity -/
structure SmilSt where
  pars : List ParNode
  textNode : Option MediaNode
  uid : Nat
  deriving DecidableEq, Repr

/-- message.py:152-157 and 188-193: the `src` of an image or audio clip.  A value that counts
as false is written as nothing (minidom `_write_data`); others that are no strings have no `replace` (AttributeError), or
one that takes no strings (`datetime`: TypeError).  Simplified: these errors come when the text is written, after all pages
are done; unicode values are not modelled (`exception`).  `Model/SmilExact.lean` has all this as it is; `C98_agrees` relates
the two. -/
def srcText : HVal → Py Str
  | .v (.str s) => .ok s
  | .v (.uni _) => .error .exception
  | .v (.int n) => if n = 0 then .ok [] else .error .attributeError
  | .v (.bool b) => if b then .error .attributeError else .ok []
  | .v (.flt n _) => if n = 0 then .ok [] else .error .attributeError
  | .v .none => .ok []
  | .v (.dt _) => .error .typeError
  | _ => .error .attributeError

/-- message.py:152-157 and 188-193: which value becomes the `src` of an image or audio clip -/
def srcOf (env : Env) (part : DataPart) : Py Str :=
  match part.headers.get (py! "Content-Location") with
  | some x => srcText x
  | none =>
    match part.headers.get (py! "Content-ID") with
    | some x => srcText x
    | none => part.readData env

/-- message.py:162-167, 177-182, 197-202: the timing attributes -/
def timing (duration begin_ end_ : Int) : Dict Str :=
  if begin_ > 0 ∨ end_ > 0 then
    [(py! "begin", intStr begin_), (py! "end", intStr (if end_ > duration then duration else end_))]
  else []

/-- DOM `appendChild` of an element that may already have a parent: it is first removed there -/
def removeNode (uid : Nat) (l : List MediaNode) : List MediaNode := l.filter (fun n => n.uid ≠ uid)

/-- message.py:149-169: the image of a page -/
def smilImage (env : Env) (page : Page) (uid : Nat) : Py (List MediaNode) :=
  match page.image with
  | none => .ok []
  | some (part, b, e) => do
    let src ← srcOf env part
    .ok [{ uid := uid, tag := py! "img",
           attrs := [(py! "src", src), (py! "region", py! "Image")] ++ timing page.duration b e }]

/-- message.py:171-184: the text of a page -/
def smilText (env : Env) (page : Page) (uid : Nat) : Py (Option MediaNode) :=
  match page.text with
  | none => .ok none
  | some (part, b, e) => do
    let src ← part.readData env
    .ok (some { uid := uid, tag := py! "text",
                attrs := [(py! "src", src), (py! "region", py! "Text")] ++ timing page.duration b e })

/-- message.py:145-207: one page.  Line 204 appends `text_node`, the one of this page or of the last page with a text;
UnboundLocalError (a NameError) if there was none. -/
def smilPage (env : Env) (st : SmilSt) (page : Page) : Py SmilSt := do
  let img ← smilImage env page st.uid
  let txt ← smilText env page (st.uid + 1)
  let textNode := match txt with | some t => some t | none => st.textNode
  let kids := img ++ (match txt with | some t => [t] | none => [])
  match page.audio with
  | none => .ok { pars := st.pars ++ [⟨page.duration, kids⟩], textNode := textNode, uid := st.uid + 3 }
  | some (part, b, e) => do
    let src ← srcOf env part
    let audio : MediaNode :=
      { uid := st.uid + 2, tag := py! "audio", attrs := [(py! "src", src)] ++ timing page.duration b e }
    match textNode with
    | none => .error .nameError
    | some t =>
      let pars := st.pars.map (fun p => { p with kids := removeNode t.uid p.kids })
      let kids := removeNode t.uid kids ++ [t, audio]
      .ok { pars := pars ++ [⟨page.duration, kids⟩], textNode := textNode, uid := st.uid + 3 }

/-- message.py:144-207: all pages -/
def smilPages (env : Env) (st : SmilSt) : List Page → Py SmilSt
  | [] => .ok st
  | p :: ps => do
    let st ← smilPage env st p
    smilPages env st ps

/-- a media element as XML -/
def MediaNode.toXml (n : MediaNode) : Xml := .elem n.tag n.attrs []

/-- a `par` element as XML -/
def ParNode.toXml (p : ParNode) : Xml := .elem (py! "par") [(py! "duration", intStr p.duration)] (p.kids.map MediaNode.toXml)

/-- message.py:127-137: the `region` elements -/
def regionXml (id left top width height : Str) : Xml :=
  .elem (py! "region") [(py! "id", id), (py! "left", left), (py! "top", top), (py! "width", width),
    (py! "height", height)] []

namespace Msg

/-- message.py:30-44 `MMSMessage()` -/
def new : Msg :=
  { pages := [], dataParts := [], metaTags := [],
    headers := [(py! "Message-Type", .v (.str (py! "m-send-req"))), (py! "Transaction-Id", .v (.str (py! "1234"))),
      (py! "MMS-Version", .v (.str (py! "1.0"))),
      (py! "Content-Type", .ct (py! "application/vnd.wap.multipart.mixed") [])],
    width := 176, height := 220 }

/-- message.py:46-57 `content_type` -/
def contentType (m : Msg) : Py Str := do
  let v ← m.headers.index (py! "Content-Type")
  v.first

/-- message.py:59-70 `add_page` -/
def addPage (page : Page) : M Msg Unit := do
  let m ← M.get
  let ct ← M.lift m.contentType
  if ct ≠ py! "application/vnd.wap.multipart.related" then
    M.modify (fun m => { m with
      headers := m.headers.set (py! "Content-Type") (.ct (py! "application/vnd.wap.multipart.related") [])
      pages := m.pages ++ [page] })
  else
    M.modify (fun m => { m with pages := m.pages ++ [page] })

/-- message.py:77-90 `add_data_part` -/
def addDataPart (part : DataPart) : M Msg Unit := M.modify (fun m => { m with dataParts := m.dataParts ++ [part] })

/-- message.py:109-140: the `head` element -/
def smilHead (m : Msg) : Xml :=
  .elem (py! "head") []
    (m.metaTags.map (fun t => .elem (py! "meta") [t] []) ++
     [.elem (py! "layout") []
       [.elem (py! "root-layout") [(py! "width", intStr m.width), (py! "height", intStr m.height)] [],
        regionXml (py! "Image") (py! "0") (py! "0") (py! "176") (py! "144"),
        regionXml (py! "Text") (py! "176") (py! "144") (py! "176") (py! "76")]])

/-- message.py:142-209: the `par` elements of the document -/
def smilBody (env : Env) (m : Msg) : Py (List ParNode) := do
  let st ← smilPages env { pars := [], textNode := none, uid := 0 } m.pages
  .ok st.pars

/-- message.py:107-209: the document -/
def smilDoc (env : Env) (m : Msg) : Py Xml := do
  let pars ← smilBody env m
  .ok (.elem (py! "smil") [] [smilHead m, .elem (py! "body") [] (pars.map ParNode.toXml)])

/-- message.py:107-210 `smil`.  Simplified: that reading `part.data` caches file contents in the part is not tracked here
but in `Model/Cache.lean` (the files do not change during the call). -/
def smil (env : Env) (m : Msg) : Py Str := do
  let doc ← smilDoc env m
  .ok (doc.write [])

/-- message.py:92-105 `data_parts`: with pages, line 101 reads an attribute of `None` after `smil()` succeeded -/
def allDataParts (env : Env) (m : Msg) : Py (List DataPart) :=
  if m.pages.length ≠ 0 then do
    let _ ← smil env m
    .error .attributeError
  else .ok m.dataParts

end Msg

end Verif.Mms

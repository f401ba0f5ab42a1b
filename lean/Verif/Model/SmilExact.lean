import Verif.Model.MmsPdu
/-!
# Model of `smil` and `encode` of `messaging/mms/message.py` and `messaging/mms/mms_pdu.py`, with labels of any type and
unicode data

`Model/Message.lean` has the same functions for labels (Content-Location, Content-ID) and data that are `str`.  Here attributes hold
any value, as in `xml.dom.minidom`: values are looked at when the text is written, after the document is complete, and
the text is `unicode` if one of them is.
-/
set_option autoImplicit false

namespace Verif.Mms

/-- a string of either type as a value -/
def strVal (t : PyStr) : HVal := .v (if t.uni then .uni t.s else .str t.s)

/-- message.py:543-555 `data` (see `DataPart.readData`), of a part whose `_data` are `unicode` if `uni`: neither `set_data` nor
`set_text` looks at the type.  What is read from a file is a `str`. -/
def readTyped (env : Env) (uni : Bool) (part : DataPart) : Py PyStr := do
  let d ← part.readData env
  .ok ⟨uni && part.data.isSome, d⟩

/-- message.py:152-157 and 188-193: the value that becomes the `src` of an image or audio clip -/
def srcValue (env : Env) (uni : Bool) (part : DataPart) : Py HVal :=
  match part.headers.get (py! "Content-Location") with
  | some x => .ok x
  | none =>
    match part.headers.get (py! "Content-ID") with
    | some x => .ok x
    | none => do
      let d ← readTyped env uni part
      .ok (strVal d)

/-- message.py:142-207: what `smil()` gets from a page: the values of the media, or the exceptions of reading them, with the
times -/
structure PageX where
  duration : Int
  image : Option (Py HVal × Int × Int)
  text : Option (Py PyStr × Int × Int)
  audio : Option (Py HVal × Int × Int)

/-- which media of a page hold `unicode` data -/
structure Kinds where
  image : Bool
  audio : Bool
  text : Bool
  deriving DecidableEq, Repr

/-- all data are `str` -/
def Kinds.str : Kinds := ⟨false, false, false⟩

/-- message.py:142-207: what `smil()` gets from this page -/
def Page.values (env : Env) (k : Kinds) (p : Page) : PageX :=
  { duration := p.duration
    image := p.image.map (fun x => (srcValue env k.image x.1, x.2))
    text := p.text.map (fun x => (readTyped env k.text x.1, x.2))
    audio := p.audio.map (fun x => (srcValue env k.audio x.1, x.2)) }

/-- message.py:144: the pages with the types of their data; `kinds i` are those of the page number `i` -/
def pagesX (env : Env) (kinds : Nat → Kinds) : List Page → List PageX
  | [] => []
  | p :: ps => p.values env (kinds 0) :: pagesX env (fun i => kinds (i + 1)) ps

/-- message.py:159, 174, 195: an `img`, `text` or `audio` element under construction; `src` is kept as it is, `attrs` are
the other attributes; `uid` is its identity -/
structure NodeX where
  uid : Nat
  tag : Str
  src : HVal
  attrs : Dict Str
  deriving DecidableEq, Repr

/-- message.py:146: a `par` element under construction -/
structure ParX where
  duration : Int
  kids : List NodeX
  deriving DecidableEq, Repr

/-- message.py:142-207: the local variables of `smil()`: the finished `par` nodes, `text_node` (None while unbound), next
identity -/
structure SmilX where
  pars : List ParX
  textNode : Option NodeX
  uid : Nat
  deriving DecidableEq, Repr

/-- message.py:204: DOM `appendChild` of an element that may already have a parent: it is first removed there -/
def removeNodeX (uid : Nat) (l : List NodeX) : List NodeX := l.filter (fun n => n.uid ≠ uid)

/-- message.py:149-169: the image of a page -/
def smilImageX (page : PageX) (uid : Nat) : Py (List NodeX) :=
  match page.image with
  | none => .ok []
  | some (r, b, e) => do
    let src ← r
    .ok [{ uid := uid, tag := py! "img", src := src,
           attrs := (py! "region", py! "Image") :: timing page.duration b e }]

/-- message.py:171-184: the text of a page -/
def smilTextX (page : PageX) (uid : Nat) : Py (Option NodeX) :=
  match page.text with
  | none => .ok none
  | some (r, b, e) => do
    let src ← r
    .ok (some { uid := uid, tag := py! "text", src := strVal src,
                attrs := (py! "region", py! "Text") :: timing page.duration b e })

/-- message.py:145-207: one page (see `smilPage`) -/
def smilPageX (st : SmilX) (page : PageX) : Py SmilX := do
  let img ← smilImageX page st.uid
  let txt ← smilTextX page (st.uid + 1)
  let textNode := match txt with | some t => some t | none => st.textNode
  let kids := img ++ (match txt with | some t => [t] | none => [])
  match page.audio with
  | none => .ok { pars := st.pars ++ [⟨page.duration, kids⟩], textNode := textNode, uid := st.uid + 3 }
  | some (r, b, e) => do
    let src ← r
    let audio : NodeX := { uid := st.uid + 2, tag := py! "audio", src := src, attrs := timing page.duration b e }
    match textNode with
    | none => .error .nameError
    | some t =>
      let pars := st.pars.map (fun p => { p with kids := removeNodeX t.uid p.kids })
      let kids := removeNodeX t.uid kids ++ [t, audio]
      .ok { pars := pars ++ [⟨page.duration, kids⟩], textNode := textNode, uid := st.uid + 3 }

/-- message.py:144-207: all pages -/
def smilPagesX (st : SmilX) : List PageX → Py SmilX
  | [] => .ok st
  | p :: ps => do
    let st ← smilPageX st p
    smilPagesX st ps

/-- message.py:210: what the `StringIO` of `toprettyxml` collects -/
inductive Chunk
  | str (s : Str)
  | uni (s : Str)
  deriving DecidableEq, Repr

/-- message.py:210: `_write_data` of `xml.dom.minidom`: nothing for a value that counts as false; else `replace` four times.
Values without `replace` give AttributeError; that of `datetime` takes no strings (TypeError). -/
def writeData : HVal → Py (List Chunk)
  | .v (.str s) => .ok (if s.isEmpty then [] else [.str (xmlEscape s)])
  | .v (.uni s) => .ok (if s.isEmpty then [] else [.uni (xmlEscape s)])
  | .v (.int n) => if n = 0 then .ok [] else .error .attributeError
  | .v (.bool b) => if b then .error .attributeError else .ok []
  | .v (.flt n _) => if n = 0 then .ok [] else .error .attributeError
  | .v .none => .ok []
  | .v (.dt _) => .error .typeError
  | _ => .error .attributeError

/-- message.py:210: `toprettyxml` of a media element, on a line of its own.  Attributes are sorted by name, and `src` comes
last. -/
def NodeX.write (indent : Str) (n : NodeX) : Py (List Chunk) := do
  let d ← writeData n.src
  .ok ([.str (indent ++ [60] ++ n.tag ++ (sortAttrs n.attrs).flatMap xmlAttr ++ py! " src=\"")] ++ d ++
    [.str (py! "\"/>\n")])

/-- message.py:210: media elements one after the other -/
def writeNodes (indent : Str) : List NodeX → Py (List Chunk)
  | [] => .ok []
  | n :: ns => do
    let a ← n.write indent
    let b ← writeNodes indent ns
    .ok (a ++ b)

/-- message.py:210: `toprettyxml` of a `par` element -/
def ParX.write (indent : Str) (p : ParX) : Py (List Chunk) := do
  let open_ := indent ++ [60] ++ py! "par" ++ xmlAttr (py! "duration", intStr p.duration)
  match p.kids with
  | [] => .ok [.str (open_ ++ py! "/>\n")]
  | k :: ks => do
    let c ← writeNodes (indent ++ [9]) (k :: ks)
    .ok ([.str (open_ ++ py! ">\n")] ++ c ++ [.str (indent ++ py! "</par>\n")])

/-- message.py:210: `par` elements one after the other -/
def writePars (indent : Str) : List ParX → Py (List Chunk)
  | [] => .ok []
  | p :: ps => do
    let a ← p.write indent
    let b ← writePars indent ps
    .ok (a ++ b)

/-- message.py:210: `toprettyxml` of the `body` element -/
def writeBody (indent : Str) : List ParX → Py (List Chunk)
  | [] => .ok [.str (indent ++ py! "<body/>\n")]
  | p :: ps => do
    let c ← writePars (indent ++ [9]) (p :: ps)
    .ok ([.str (indent ++ py! "<body>\n")] ++ c ++ [.str (indent ++ py! "</body>\n")])

/-- the characters of a chunk -/
def Chunk.chars : Chunk → Str
  | .str s | .uni s => s

/-- a chunk of type `unicode` -/
def Chunk.isUni : Chunk → Bool
  | .str _ => false
  | .uni _ => true

/-- message.py:210: `StringIO.getvalue`: `''.join(...)` makes `unicode` of everything if one of them is, which fails for
octets that are not ASCII -/
def joinChunks (l : List Chunk) : Py PyStr :=
  if l.any Chunk.isUni then
    if l.any (fun c => !c.isUni && c.chars.any (127 < ·)) then .error .unicodeError
    else .ok ⟨true, l.flatMap Chunk.chars⟩
  else .ok ⟨false, l.flatMap Chunk.chars⟩

/-- message.py:107-210 `smil`.  Meta tags and sizes are as in `Msg`: `str` and integers. -/
def Msg.smilU (env : Env) (kinds : Nat → Kinds) (m : Msg) : Py PyStr := do
  let st ← smilPagesX { pars := [], textNode := none, uid := 0 } (pagesX env kinds m.pages)
  let body ← writeBody [9] st.pars
  joinChunks ([.str (py! "<smil>\n" ++ Xml.write [9] m.smilHead)] ++ body ++ [.str (py! "</smil>\n")])

/-- message.py:107-210 `smil`, all data being `str` -/
def Msg.smilX (env : Env) (m : Msg) : Py PyStr := m.smilU env (fun _ => .str)

/-- mms_pdu.py:776-778: the part of a medium, if there is one, with the type of its data -/
def slotPart (u : Bool) (o : Option (DataPart × Int × Int)) : List (Bool × DataPart) := (o.map (fun x => (u, x.1))).toList

/-- mms_pdu.py:775-778: the parts of the slides, with the types of their data -/
def typedParts (kinds : Nat → Kinds) : List Page → List (Bool × DataPart)
  | [] => []
  | p :: ps =>
    slotPart (kinds 0).image p.image ++ slotPart (kinds 0).audio p.audio ++ slotPart (kinds 0).text p.text ++
    typedParts (fun i => kinds (i + 1)) ps

/-- mms_pdu.py:780-803: one part.  Line 803 appends the characters one by one: OverflowError for those that are no octets
(in a `str` all are). -/
def encodePartU (env : Env) (ord : Dict HVal → Dict HVal) (uni : Bool) (part : DataPart) : Py (List Nat) := do
  let a ← encodePart env ord part
  let d ← readTyped env uni part
  if d.uni ∧ ∃ c ∈ d.s, 255 < c then .error .overflowError
  else .ok a

/-- mms_pdu.py:780-803: the loop over the parts -/
def encodePartsU (env : Env) (ord : Dict HVal → Dict HVal) : List (Bool × DataPart) → Py (List Nat)
  | [] => .ok []
  | p :: ps => do
    let a ← encodePartU env ord p.1 p.2
    let b ← encodePartsU env ord ps
    .ok (a ++ b)

/-- mms_pdu.py:705-805 `encode_message_body` (see `encodeMessageBody`).  The text of `smil()` may be `unicode`. -/
def encodeMessageBodyU (env : Env) (ord : Dict HVal → Dict HVal) (kinds : Nat → Kinds) (m : Msg) : Py (List Nat) := do
  let a ← toOctets (ints (encodeUintVar (numEntries m)))
  let smil ← m.smilU env kinds
  let b ← encodePartsU env ord ((smil.uni, smilPart smil.s) :: typedParts kinds m.pages)
  .ok (a ++ b)

/-- mms_pdu.py:595-608 `encode` (and message.py:212-223 `encode`) -/
def encodeU (env : Env) (ord : Dict HVal → Dict HVal) (rnd : Nat) (kinds : Nat → Kinds) : M Msg (List Nat) := do
  let h ← encodeMessageHeader ord rnd
  let m ← M.get
  let b ← M.lift (encodeMessageBodyU env ord kinds m)
  pure (h ++ b)

/-- mms_pdu.py:595-608 `encode`, all data being `str` -/
def encodeX (env : Env) (ord : Dict HVal → Dict HVal) (rnd : Nat) : M Msg (List Nat) := encodeU env ord rnd (fun _ => .str)

end Verif.Mms

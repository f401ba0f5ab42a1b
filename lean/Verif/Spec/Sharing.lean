import Verif.Model.Heap
import Verif.Spec.Files
/-!
# Specification: messages, slides and parts that are shared
-/
set_option autoImplicit false

namespace Verif.Spec.Sharing
open Verif Verif.Mms Verif.Spec.Files

/-- part `r` is in a slot of slide `q` -/
def InSlide (h : Heap) (q r : Nat) : Prop :=
  ∃ t, (h.pages q).image = some (r, t) ∨ (h.pages q).audio = some (r, t) ∨ (h.pages q).text = some (r, t)

/-- part `r` is in a slot of a slide of message `m` -/
def InMessage (h : Heap) (m r : Nat) : Prop := ∃ q ∈ (h.msgs m).pages, InSlide h q r

/-- the objects after the contents of the parts in the slides of message `m` were read, and the headers of `m` became
`hd`: nothing else has changed -/
structure Read (env : Env) (m : Nat) (hd : Dict HVal) (h h' : Heap) : Prop where
  pages : h'.pages = h.pages
  msgs : ∀ n, n ≠ m → h'.msgs n = h.msgs n
  msg : h'.msgs m = { h.msgs m with headers := hd }
  inside : ∀ r, InMessage h m r → h'.parts r = loaded env (h.parts r)
  outside : ∀ r, ¬ InMessage h m r → h'.parts r = h.parts r

/-- the same if only some of the parts have been read -/
structure PartlyRead (env : Env) (m : Nat) (hd : Dict HVal) (h h' : Heap) : Prop where
  pages : h'.pages = h.pages
  msgs : ∀ n, n ≠ m → h'.msgs n = h.msgs n
  msg : h'.msgs m = { h.msgs m with headers := hd }
  inside : ∀ r, Maybe env (h.parts r) (h'.parts r)
  outside : ∀ r, ¬ InMessage h m r → h'.parts r = h.parts r

/-- all references are to objects that exist -/
structure Wf (h : Heap) : Prop where
  slides : ∀ q, q < h.nextPage → ∀ r, InSlide h q r → r < h.nextPart
  pages : ∀ m, m < h.nextMsg → ∀ q ∈ (h.msgs m).pages, q < h.nextPage
  loose : ∀ m, m < h.nextMsg → ∀ r ∈ (h.msgs m).dataParts, r < h.nextPart

/-- what a call returns or raises -/
def outcome {σ α : Type} : Res σ α → Py α
  | .ok a _ => .ok a
  | .err e _ => .error e

/-- the objects after a call -/
def after {σ α : Type} : Res σ α → σ
  | .ok _ s => s
  | .err _ s => s

/-- no objects yet -/
def empty : Heap :=
  { parts := fun _ => DataPart.new, pages := fun _ => { duration := 4000, image := none, audio := none, text := none }
    msgs := fun _ => { pages := [], dataParts := [], metaTags := [], headers := [], width := 0, height := 0 }
    nextPart := 0, nextPage := 0, nextMsg := 0 }

/-- what a program does next, with objects it has -/
inductive Step : Heap → Heap → Prop
  | newPart (h : Heap) : Step h (after (newPart h))
  | newPartFromFile (env : Env) (f : Str) (h : Heap) : Step h (after (newPartFromFile env f h))
  | newPage (h : Heap) : Step h (after (newPage h))
  | newMsg (h : Heap) : Step h (after (newMsg h))
  | changePart (h : Heap) (r : Nat) (p : DataPart) (hr : r < h.nextPart) : Step h (h.setPart r p)
  | addImage (h : Heap) (env : Env) (r : Nat) (f b e : Val) (hr : r < h.nextPage) : Step h (after (addImageH env r f b e h))
  | addAudio (h : Heap) (env : Env) (r : Nat) (f b e : Val) (hr : r < h.nextPage) : Step h (after (addAudioH env r f b e h))
  | addText (h : Heap) (r : Nat) (t b e : Val) (hr : r < h.nextPage) : Step h (after (addTextH r t b e h))
  | setDuration (h : Heap) (r : Nat) (d : Val) (hr : r < h.nextPage) : Step h (after (setDurationH r d h))
  | assignImage (h : Heap) (r : Nat) (x : Option (Nat × Int × Int)) (hr : r < h.nextPage) (hx : ∀ t, x = some t → t.1 < h.nextPart) :
    Step h (after (assignSlot PageObj.putImage r x h))
  | assignAudio (h : Heap) (r : Nat) (x : Option (Nat × Int × Int)) (hr : r < h.nextPage) (hx : ∀ t, x = some t → t.1 < h.nextPart) :
    Step h (after (assignSlot PageObj.putAudio r x h))
  | assignText (h : Heap) (r : Nat) (x : Option (Nat × Int × Int)) (hr : r < h.nextPage) (hx : ∀ t, x = some t → t.1 < h.nextPart) :
    Step h (after (assignSlot PageObj.putText r x h))
  | addPage (h : Heap) (m r : Nat) (hm : m < h.nextMsg) (hr : r < h.nextPage) : Step h (after (addPageH m r h))
  | addDataPart (h : Heap) (m r : Nat) (hm : m < h.nextMsg) (hr : r < h.nextPart) : Step h (after (addDataPartH m r h))
  | setHeader (h : Heap) (m : Nat) (n : Str) (v : HVal) (hm : m < h.nextMsg) : Step h (after (setHeaderH m n v h))
  | smil (h : Heap) (env : Env) (m : Nat) (hm : m < h.nextMsg) : Step h (after (smilH env m h))
  | encode (h : Heap) (env : Env) (ord : Dict HVal → Dict HVal) (rnd m : Nat) (hm : m < h.nextMsg) :
    Step h (after (encodeH env ord rnd m h))

/-- the objects a program can have -/
inductive Reach : Heap → Prop
  | start : Reach empty
  | step {h h' : Heap} (hh : Reach h) (s : Step h h') : Reach h'

end Verif.Spec.Sharing

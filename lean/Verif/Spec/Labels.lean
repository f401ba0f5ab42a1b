import Verif.Model.WspTables
/-!
# Specification: the presentation of a message whose media have labels of any type and data of both string types

Only the Python value types (`Val`, `HVal`, `Dict`, `PyStr`) and the exceptions are taken from the model.
-/
set_option autoImplicit false

namespace Verif.Spec.Labels
open Verif.Mms (Val HVal Dict)

/-- a slide: for image and audio the value they are referred to by, for the text its characters; or the exception that
reading them raises -/
structure Slide where
  image : Option (Py HVal)
  text : Option (Py PyStr)
  audio : Option (Py HVal)

/-- the exception of reading a medium -/
def unread {α : Type} : Option (Py α) → Option PyErr
  | some (.error e) => some e
  | _ => none

/-- the value of a medium that can be read -/
def read {α : Type} : Option (Py α) → List α
  | some (.ok v) => [v]
  | _ => []

/-- slides that cannot be laid out: a medium cannot be read, or there is an audio clip before any text.  The first one in
the order of the slides, within a slide image, text, audio, decides. -/
def layoutFails (text : Bool) : List Slide → Option PyErr
  | [] => none
  | s :: r =>
    match unread s.image, unread s.text, unread s.audio with
    | some e, _, _ => some e
    | _, some e, _ => some e
    | _, _, some e => some e
    | _, _, _ =>
      if s.audio.isSome ∧ ¬ (text = true ∨ s.text.isSome) then some .nameError
      else layoutFails (text || s.text.isSome) r

/-- labels that cannot be written: strings and all that counts as false can -/
def labelFails : HVal → Option PyErr
  | .v (.str _) | .v (.uni _) | .v .none => none
  | .v (.int n) => if n = 0 then none else some .attributeError
  | .v (.bool b) => if b = false then none else some .attributeError
  | .v (.flt n _) => if n = 0 then none else some .attributeError
  | .v (.dt _) => some .typeError
  | .tup .. | .ct .. => some .attributeError

/-- the labels of the media, in the order of the slides, image before audio -/
def labels (slides : List Slide) : List HVal := slides.flatMap (fun s => read s.image ++ read s.audio)

/-- the texts -/
def texts (slides : List Slide) : List PyStr := slides.flatMap (fun s => read s.text)

/-- there is a unicode label or text -/
def HasUnicode (slides : List Slide) : Prop :=
  (∃ s, .v (.uni s) ∈ labels slides ∧ s ≠ []) ∨ ∃ t ∈ texts slides, t.uni = true ∧ t.s ≠ []

/-- there are octets that are not ASCII: in a label, a text, or the meta tags -/
def HasOctets (tags : Dict (List Nat)) (slides : List Slide) : Prop :=
  (∃ s, .v (.str s) ∈ labels slides ∧ ∃ c ∈ s, 127 < c) ∨ (∃ t ∈ texts slides, t.uni = false ∧ ∃ c ∈ t.s, 127 < c) ∨
  ∃ t ∈ tags, (∃ c ∈ t.1, 127 < c) ∨ ∃ c ∈ t.2, 127 < c

/-- the exception of asking for the presentation -/
inductive Fails (tags : Dict (List Nat)) (slides : List Slide) : Option PyErr → Prop
  | layout (e : PyErr) (h : layoutFails false slides = some e) : Fails tags slides (some e)
  | label (e : PyErr) (h : layoutFails false slides = none) (hl : (labels slides).findSome? labelFails = some e) :
      Fails tags slides (some e)
  | mixed (h : layoutFails false slides = none) (hl : (labels slides).findSome? labelFails = none)
      (hu : HasUnicode slides) (ho : HasOctets tags slides) : Fails tags slides (some .unicodeError)
  | fine (h : layoutFails false slides = none) (hl : (labels slides).findSome? labelFails = none)
      (hu : ¬ (HasUnicode slides ∧ HasOctets tags slides)) : Fails tags slides none

end Verif.Spec.Labels

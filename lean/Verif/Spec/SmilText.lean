import Verif.Spec.Slides
/-!
# Specification: the text of a SMIL presentation, character by character
-/
set_option autoImplicit false

namespace Verif.Spec.SmilText
open Verif Verif.Spec.Slides

/-- an attribute value: the four characters that need it are replaced by entities -/
def escaped : List Nat → List Nat
  | [] => []
  | 38 :: r => py! "&amp;" ++ escaped r
  | 60 :: r => py! "&lt;" ++ escaped r
  | 62 :: r => py! "&gt;" ++ escaped r
  | 34 :: r => py! "&quot;" ++ escaped r
  | c :: r => c :: escaped r

/-- ` name="value"` -/
def attr (name value : List Nat) : List Nat := py! " " ++ name ++ py! "=\"" ++ escaped value ++ py! "\""

/-- begin and end of a medium, if either is set -/
def times (duration : Int) (m : Medium) : List Nat :=
  if 0 < m.begin_ ∨ 0 < m.end_ then
    attr (py! "begin") (decimal m.begin_) ++ attr (py! "end") (decimal (min m.end_ duration))
  else []

/-- a line for a medium -/
def mediumLine (tag region : List Nat) (duration : Int) : Option Medium → List Nat
  | none => []
  | some m => py! "\t\t\t<" ++ tag ++ times duration m ++ region ++ attr (py! "src") m.src ++ py! "/>\n"

/-- the lines for the media of a slide; attributes are in alphabetical order -/
def mediaLines (s : Slide) : List Nat :=
  mediumLine (py! "img") (py! " region=\"Image\"") s.duration s.image ++
  mediumLine (py! "text") (py! " region=\"Text\"") s.duration s.text ++
  mediumLine (py! "audio") [] s.duration s.audio

/-- the lines for a slide -/
def slideLines (s : Slide) : List Nat :=
  if s.image.isNone ∧ s.text.isNone ∧ s.audio.isNone then
    py! "\t\t<par" ++ attr (py! "duration") (decimal s.duration) ++ py! "/>\n"
  else
    py! "\t\t<par" ++ attr (py! "duration") (decimal s.duration) ++ py! ">\n" ++ mediaLines s ++ py! "\t\t</par>\n"

/-- a line for a meta tag -/
def metaLine (t : List Nat × List Nat) : List Nat := py! "\t\t<meta" ++ attr t.1 t.2 ++ py! "/>\n"

/-- the text of a presentation -/
def document (metaTags : List (List Nat × List Nat)) (width height : Int) (slides : List Slide) : List Nat :=
  py! "<smil>\n\t<head>\n" ++ metaTags.flatMap metaLine ++
  py! "\t\t<layout>\n\t\t\t<root-layout" ++ attr (py! "height") (decimal height) ++ attr (py! "width") (decimal width) ++
  py! "/>\n\t\t\t<region height=\"144\" id=\"Image\" left=\"0\" top=\"0\" width=\"176\"/>\n" ++
  py! "\t\t\t<region height=\"76\" id=\"Text\" left=\"176\" top=\"144\" width=\"176\"/>\n\t\t</layout>\n\t</head>\n" ++
  (if slides.isEmpty then py! "\t<body/>\n" else py! "\t<body>\n" ++ slides.flatMap slideLines ++ py! "\t</body>\n") ++
  py! "</smil>\n"

end Verif.Spec.SmilText

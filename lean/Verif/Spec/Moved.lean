import Verif.Spec.Slides
/-!
# Specification: where the texts of slides are shown when there are slides with audio and no text
-/
set_option autoImplicit false

namespace Verif.Spec.Slides

/-- of the slides up to `j`, slide `i` is the last that has a text -/
def LastText (slides : List Slide) (j i : Nat) : Prop :=
  i ≤ j ∧ (∃ s, slides[i]? = some s ∧ s.text.isSome) ∧ ∀ k s, i < k → k ≤ j → slides[k]? = some s → s.text = none

/-- the text of slide `i` is shown with slide `j`: it stays with its slide, unless slides with audio and without text of
their own follow before the next text; then it is shown with the last of these -/
def TextShown (slides : List Slide) (j i : Nat) : Prop :=
  LastText slides j i ∧ (i = j ∨ ∃ s, slides[j]? = some s ∧ s.audio.isSome) ∧
    ∀ k s, j < k → slides[k]? = some s → LastText slides k i → s.audio = none

def Slide.imageElems (s : Slide) : List Elem :=
  s.image.toList.map fun m => (py! "img", [(py! "src", m.src), (py! "region", py! "Image")] ++ timeAttrs s.duration m.begin_ m.end_)

def Slide.textElems (s : Slide) : List Elem :=
  s.text.toList.map fun m => (py! "text", [(py! "src", m.src), (py! "region", py! "Text")] ++ timeAttrs s.duration m.begin_ m.end_)

def Slide.audioElems (s : Slide) : List Elem :=
  s.audio.toList.map fun m => (py! "audio", (py! "src", m.src) :: timeAttrs s.duration m.begin_ m.end_)

/-- the elements shown with slide `j`, which is `s`: its image, the text shown with it (with the times it has in its own
slide), its audio -/
def Arranged (slides : List Slide) (j : Nat) (s : Slide) (es : List Elem) : Prop :=
  ∃ t, es = s.imageElems ++ t ++ s.audioElems ∧
    (∀ i si, TextShown slides j i → slides[i]? = some si → t = si.textElems) ∧ ((∀ i, ¬ TextShown slides j i) → t = [])

/-- every slide with audio has a text, or a slide before it has -/
def AudioTexts (slides : List Slide) : Prop :=
  ∀ (j : Nat) (s : Slide), slides[j]? = some s → s.audio.isSome → ∃ i, LastText slides j i

end Verif.Spec.Slides

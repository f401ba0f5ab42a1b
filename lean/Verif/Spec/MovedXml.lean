import Verif.Spec.Xml
/-!
# Specification: the document of a presentation with these `par` elements
-/
set_option autoImplicit false

namespace Verif.Spec.Xml

/-- a presentation: the meta tags, the size of the screen, and for each slide its duration and its elements -/
def presentationOf (metaTags : List (List Nat × List Nat)) (width height : Int) (pars : List (Int × List Slides.Elem)) : Tree :=
  .node (py! "smil") [] [
    .node (py! "head") [] (metaTags.map (fun t => .node (py! "meta") [t] []) ++ [
      .node (py! "layout") [] [
        .node (py! "root-layout") [(py! "width", Slides.decimal width), (py! "height", Slides.decimal height)] [],
        .node (py! "region") [(py! "id", py! "Image"), (py! "left", py! "0"), (py! "top", py! "0"),
          (py! "width", py! "176"), (py! "height", py! "144")] [],
        .node (py! "region") [(py! "id", py! "Text"), (py! "left", py! "176"), (py! "top", py! "144"),
          (py! "width", py! "176"), (py! "height", py! "76")] []]]),
    .node (py! "body") [] (pars.map fun p =>
      .node (py! "par") [(py! "duration", Slides.decimal p.1)] (p.2.map fun e => .node e.1 e.2 []))]

end Verif.Spec.Xml

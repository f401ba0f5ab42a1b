import Verif.Spec.Slides
/-!
# Specification: reading an XML document (XML 1.0, the part that matters for SMIL)

A recursive descent reader of documents made of elements with attributes and no text.  Text other than white space
between elements, comments, processing instructions, declarations and numeric character references are not read
(`none`); octets from 128 on, which belong to characters of more than one octet, are taken as they are.
-/
set_option autoImplicit false

namespace Verif.Spec.Xml

/-- an element: name, attributes, children -/
inductive Tree
  | node (tag : List Nat) (attrs : List (List Nat × List Nat)) (kids : List Tree)
  deriving Repr

/-- white space: space, tab, newline, carriage return -/
def isWs (c : Nat) : Bool := c == 32 || c == 9 || c == 10 || c == 13

def skipWs : List Nat → List Nat
  | [] => []
  | c :: r => if isWs c then skipWs r else c :: r

def isNameStart (c : Nat) : Bool := (65 ≤ c && c ≤ 90) || (97 ≤ c && c ≤ 122) || c == 95 || c == 58

def isNameChar (c : Nat) : Bool := isNameStart c || (48 ≤ c && c ≤ 57) || c == 45 || c == 46

/-- a name and what follows it -/
def name (s : List Nat) : Option (List Nat × List Nat) :=
  match s with
  | [] => none
  | c :: _ => if isNameStart c then some (s.takeWhile isNameChar, s.dropWhile isNameChar) else none

/-- the predefined entities, without the ampersand -/
def entities : List (List Nat × Nat) :=
  [(py! "amp;", 38), (py! "lt;", 60), (py! "gt;", 62), (py! "quot;", 34), (py! "apos;", 39)]

/-- what follows a carriage return, without the newline that belongs to it -/
def dropLf (s : List Nat) : List Nat :=
  match s with
  | 10 :: r => r
  | s => s

theorem dropLf_le (s : List Nat) : (dropLf s).length ≤ s.length := by
  unfold dropLf
  split <;> simp

/-- what an attribute value between quotes stands for: references are replaced; a line break (newline, carriage return
or both) and a tab count as a space; other control characters, '<' and other uses of '&' are errors -/
def expand : List Nat → Option (List Nat)
  | [] => some []
  | c :: r =>
    if c = 38 then
      match entities.find? (fun e => e.1.isPrefixOf r) with
      | some e => (expand (r.drop e.1.length)).map (e.2 :: ·)
      | none => none
    else if c = 60 then none
    else if c = 13 then
      (expand (dropLf r)).map (32 :: ·)
    else if c = 10 ∨ c = 9 then (expand r).map (32 :: ·)
    else if c < 32 then none
    else (expand r).map (c :: ·)
termination_by s => s.length
decreasing_by all_goals (simp only [List.length_cons, List.length_drop]; have := dropLf_le r; omega)

/-- the part before the quotation mark `q`, and what follows it -/
def quoted (q : Nat) (s : List Nat) : Option (List Nat × List Nat) :=
  match s.dropWhile (· ≠ q) with
  | [] => none
  | _ :: rest => (expand (s.takeWhile (· ≠ q))).map (·, rest)

/-- `= "value"` and what follows -/
def eqValue (s : List Nat) : Option (List Nat × List Nat) :=
  match skipWs s with
  | 61 :: s =>
    match skipWs s with
    | 34 :: s => quoted 34 s
    | 39 :: s => quoted 39 s
    | _ => none
  | _ => none

/-- `name = "value"` and what follows -/
def attr (s : List Nat) : Option ((List Nat × List Nat) × List Nat) :=
  (name s).bind fun p => (eqValue p.2).map fun v => ((p.1, v.1), v.2)

/-- the attributes, each after white space, up to the end of the tag, which remains -/
def attrs : Nat → List Nat → Option (List (List Nat × List Nat) × List Nat)
  | 0, _ => none
  | n + 1, s =>
    match skipWs s with
    | [] => none
    | c :: r =>
      if c = 47 ∨ c = 62 then some ([], c :: r)
      else if skipWs s = s then none
      else (attr (c :: r)).bind fun a => (attrs n a.2).bind fun l =>
        if l.1.any (fun b => b.1 == a.1.1) then none else some (a.1 :: l.1, l.2)

mutual
/-- an element and what follows; the number bounds the steps (the length of the document is enough) -/
def elem : Nat → List Nat → Option (Tree × List Nat)
  | 0, _ => none
  | n + 1, s =>
    match s with
    | 60 :: s => (name s).bind fun p => (attrs n p.2).bind fun q =>
      match q.2 with
      | 47 :: 62 :: s => some (.node p.1 q.1 [], s)
      | 62 :: s => (content n s).bind fun k => (name k.2).bind fun e =>
        match skipWs e.2 with
        | 62 :: s => if e.1 = p.1 then some (.node p.1 q.1 k.1, s) else none
        | _ => none
      | _ => none
    | _ => none
/-- elements up to and including the `</` of the end tag -/
def content : Nat → List Nat → Option (List Tree × List Nat)
  | 0, _ => none
  | n + 1, s =>
    match skipWs s with
    | 60 :: 47 :: s => some ([], s)
    | s => (elem n s).bind fun t => (content n t.2).bind fun ts => some (t.1 :: ts.1, ts.2)
end

/-- a document: one element -/
def parse (s : List Nat) : Option Tree :=
  match elem (s.length + 1) (skipWs s) with
  | some (t, rest) => if rest.all isWs then some t else none
  | none => none

mutual
/-- the same document: the order of attributes does not matter -/
def Same : Tree → Tree → Prop
  | .node t a k, .node t' a' k' => t = t' ∧ a.Perm a' ∧ SameAll k k'
def SameAll : List Tree → List Tree → Prop
  | [], [] => True
  | x :: xs, y :: ys => Same x y ∧ SameAll xs ys
  | _, _ => False
end

/-- a presentation: the meta tags, the size of the screen, the slides -/
def presentation (metaTags : List (List Nat × List Nat)) (width height : Int) (slides : List Slides.Slide) : Tree :=
  .node (py! "smil") [] [
    .node (py! "head") [] (metaTags.map (fun t => .node (py! "meta") [t] []) ++ [
      .node (py! "layout") [] [
        .node (py! "root-layout") [(py! "width", Slides.decimal width), (py! "height", Slides.decimal height)] [],
        .node (py! "region") [(py! "id", py! "Image"), (py! "left", py! "0"), (py! "top", py! "0"),
          (py! "width", py! "176"), (py! "height", py! "144")] [],
        .node (py! "region") [(py! "id", py! "Text"), (py! "left", py! "176"), (py! "top", py! "144"),
          (py! "width", py! "176"), (py! "height", py! "76")] []]]),
    .node (py! "body") [] (slides.map fun s =>
      .node (py! "par") [(py! "duration", Slides.decimal s.duration)] (s.elems.map fun e => .node e.1 e.2 []))]

/-- an XML name -/
def IsName (s : List Nat) : Prop := ∃ c r, s = c :: r ∧ isNameStart c = true ∧ ∀ x ∈ r, isNameChar x = true

/-- characters that may occur in XML -/
def Chars (s : List Nat) : Prop := ∀ c ∈ s, 32 ≤ c ∨ c = 9 ∨ c = 10 ∨ c = 13

/-- characters that XML leaves alone in attribute values -/
def Plain (s : List Nat) : Prop := ∀ c ∈ s, 32 ≤ c

/-- an attribute value as an application sees it: line breaks and tabs have become spaces -/
def normal : List Nat → List Nat
  | [] => []
  | c :: r =>
    if c = 13 then
      32 :: normal (dropLf r)
    else (if c = 10 ∨ c = 9 then 32 else c) :: normal r
termination_by s => s.length
decreasing_by all_goals (simp only [List.length_cons]; have := dropLf_le r; omega)

end Verif.Spec.Xml

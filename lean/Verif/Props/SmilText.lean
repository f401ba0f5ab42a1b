import Verif.Props.Slides
import Verif.Spec.SmilText
/-!
# C69: the SMIL text, character by character
-/
set_option autoImplicit false

namespace Verif.Props
open Verif Verif.Mms
open Verif.Spec.Slides Verif.Spec.SmilText

theorem escape_eq (s : Str) : xmlEscape s = escaped s := by
  induction s with
  | nil => rfl
  | cons c r ih =>
    have hx : xmlEscape (c :: r) = (if c = 38 then py! "&amp;" else if c = 60 then py! "&lt;" else if c = 34 then py! "&quot;"
      else if c = 62 then py! "&gt;" else [c]) ++ xmlEscape r := by simp [xmlEscape]
    rw [hx, ih]
    by_cases h1 : c = 38
    · subst h1; rfl
    by_cases h2 : c = 60
    · subst h2; rfl
    by_cases h3 : c = 62
    · subst h3; rfl
    by_cases h4 : c = 34
    · subst h4; rfl
    rw [if_neg h1, if_neg h2, if_neg h4, if_neg h3]
    conv => rhs; unfold escaped
    split <;> simp_all

theorem attr_eq (k v : Str) : xmlAttr (k, v) = attr k v := by
  unfold xmlAttr attr
  rw [escape_eq]

theorem writeAll_map (ind : Str) (l : List Xml) : Xml.writeAll ind l = l.flatMap (Xml.write ind) := by
  induction l with
  | nil => simp [Xml.writeAll]
  | cons x l ih => simp [Xml.writeAll, ih]

theorem write_empty (ind tag : Str) (attrs : Dict Str) :
    Xml.write ind (.elem tag attrs []) = ind ++ [60] ++ tag ++ (sortAttrs attrs).flatMap xmlAttr ++ [47, 62, 10] := by
  simp only [Xml.write]

theorem write_full (ind tag : Str) (attrs : Dict Str) (kids : List Xml) (h : kids ≠ []) :
    Xml.write ind (.elem tag attrs kids) = ind ++ [60] ++ tag ++ (sortAttrs attrs).flatMap xmlAttr ++
      ([62, 10] ++ kids.flatMap (Xml.write (ind ++ [9])) ++ ind ++ [60, 47] ++ tag ++ [62, 10]) := by
  cases kids with
  | nil => exact absurd rfl h
  | cons k ks => simp only [Xml.write, writeAll_map]

theorem medium_text (tag : Str) (region : Dict Str) (rt : Str) (d : Int) (o : Option Medium)
    (hr : ∀ (src : Str) (ts : Dict Str), (ts = [] ∨ ∃ b e, ts = [(py! "begin", b), (py! "end", e)]) →
      (sortAttrs ((py! "src", src) :: region ++ ts)).flatMap xmlAttr = ts.flatMap xmlAttr ++ rt ++ xmlAttr (py! "src", src)) :
    (o.toList.map fun m => Xml.elem tag ((py! "src", m.src) :: region ++ timeAttrs d m.begin_ m.end_) []).flatMap
      (Xml.write [9, 9, 9]) = mediumLine tag rt d o := by
  cases o with
  | none => rfl
  | some m =>
    simp only [Option.toList_some, List.map_cons, List.map_nil, List.flatMap_cons, List.flatMap_nil, List.append_nil,
      write_empty, mediumLine]
    have ht : (timeAttrs d m.begin_ m.end_).flatMap xmlAttr = times d m := by
      unfold timeAttrs times
      split
      · simp only [List.flatMap_cons, List.flatMap_nil, attr_eq, List.append_nil]
      · rfl
    have hts : timeAttrs d m.begin_ m.end_ = [] ∨ ∃ b e, timeAttrs d m.begin_ m.end_ = [(py! "begin", b), (py! "end", e)] := by
      unfold timeAttrs
      split
      · exact .inr ⟨_, _, rfl⟩
      · exact .inl rfl
    rw [hr m.src _ hts, ht, attr_eq]
    simp only [List.append_assoc]
    rfl

theorem elems_text (s : Slide) : (s.elems.map fun e => Xml.elem e.1 e.2 []).flatMap (Xml.write [9, 9, 9]) = mediaLines s := by
  have h1 := medium_text (py! "img") [(py! "region", py! "Image")] (py! " region=\"Image\"") s.duration s.image (by
    rintro src ts (rfl | ⟨b, e, rfl⟩) <;> simp [sortAttrs, insertAttr, strLe, xmlAttr, xmlEscape])
  have h2 := medium_text (py! "text") [(py! "region", py! "Text")] (py! " region=\"Text\"") s.duration s.text (by
    rintro src ts (rfl | ⟨b, e, rfl⟩) <;> simp [sortAttrs, insertAttr, strLe, xmlAttr, xmlEscape])
  have h3 := medium_text (py! "audio") [] [] s.duration s.audio (by
    rintro src ts (rfl | ⟨b, e, rfl⟩) <;> simp [sortAttrs, insertAttr, strLe, xmlAttr, xmlEscape])
  unfold mediaLines
  rw [← h1, ← h2, ← h3]
  unfold Slide.elems
  simp only [List.map_append, List.flatMap_append, List.map_map, List.append_assoc]
  rfl

theorem slide_text (s : Slide) : Xml.write [9, 9] (.elem (py! "par") [(py! "duration", decimal s.duration)]
    (s.elems.map fun e => .elem e.1 e.2 [])) = slideLines s := by
  have hd : (sortAttrs [(py! "duration", decimal s.duration)]).flatMap xmlAttr = attr (py! "duration") (decimal s.duration) := by
    simp only [sortAttrs, insertAttr, List.flatMap_cons, List.flatMap_nil, List.append_nil, attr_eq]
  unfold slideLines
  split
  · next h =>
    obtain ⟨i, t, a⟩ := h
    have : s.elems = [] := by
      unfold Slide.elems
      rw [Option.isNone_iff_eq_none] at i t a
      rw [i, t, a]
      rfl
    rw [this, List.map_nil, write_empty, hd]
    rfl
  · next h =>
    have : (s.elems.map fun e => Xml.elem e.1 e.2 []) ≠ [] := by
      intro he
      apply h
      rw [List.map_eq_nil_iff] at he
      unfold Slide.elems at he
      simp only [List.append_eq_nil_iff, List.map_eq_nil_iff, Option.toList_eq_nil_iff] at he
      rw [he.1.1, he.1.2, he.2]
      exact ⟨rfl, rfl, rfl⟩
    rw [write_full _ _ _ _ this, hd]
    have he : ([9, 9] ++ [9] : Str) = [9, 9, 9] := rfl
    rw [he, elems_text]
    simp only [List.append_assoc]
    rfl

/-- C69: the text returned by `smil()`, character by character. -/
theorem C69_text (env : Env) (m : Msg) (slides : List Slide) (h : List.Forall₂ (PageIs env) m.pages slides)
    (ht : ∀ s ∈ slides, s.audio.isSome → s.text.isSome) :
    m.smil env = .ok (document m.metaTags m.width m.height slides) := by
  obtain ⟨head, pars, h1, h2, h3⟩ := C53_document_partial env m slides h ht
  have hs : m.smil env = .ok (Xml.write [] (.elem (py! "smil") [] [head, .elem (py! "body") [] pars])) := by
    unfold Msg.smil
    rw [h1]
    rfl
  rw [hs, write_full _ _ _ _ (by simp)]
  have hbody : Xml.write [9] (.elem (py! "body") [] pars) =
      if slides.isEmpty then py! "\t<body/>\n" else py! "\t<body>\n" ++ slides.flatMap slideLines ++ py! "\t</body>\n" := by
    cases hsl : slides with
    | nil => rw [h2, hsl]; rfl
    | cons s r =>
      rw [← hsl, write_full _ _ _ _ (by rw [h2, hsl]; simp), if_neg (by rw [hsl]; simp), h2, List.flatMap_map]
      have he : ([9] ++ [9] : Str) = [9, 9] := rfl
      rw [he]
      simp only [slide_text]
      simp only [List.append_assoc]
      rfl
  have hhead : Xml.write [9] head = py! "\t<head>\n" ++ m.metaTags.flatMap metaLine ++
      py! "\t\t<layout>\n\t\t\t<root-layout" ++ attr (py! "height") (decimal m.height) ++ attr (py! "width") (decimal m.width) ++
      py! "/>\n\t\t\t<region height=\"144\" id=\"Image\" left=\"0\" top=\"0\" width=\"176\"/>\n" ++
      py! "\t\t\t<region height=\"76\" id=\"Text\" left=\"176\" top=\"144\" width=\"176\"/>\n\t\t</layout>\n\t</head>\n" := by
    rw [h3, write_full _ _ _ _ (by simp)]
    have he : ([9] ++ [9] : Str) = [9, 9] := rfl
    have hm : ∀ t : Str × Str, Xml.write [9, 9] (.elem (py! "meta") [t] []) = metaLine t := by
      rintro ⟨k, v⟩
      rw [write_empty]
      simp only [sortAttrs, insertAttr, List.flatMap_cons, List.flatMap_nil, List.append_nil, attr_eq, metaLine]
      simp only [List.append_assoc]
      rfl
    have hl : Xml.write [9, 9, 9] (.elem (py! "root-layout") [(py! "width", decimal m.width), (py! "height", decimal m.height)] []) =
        py! "\t\t\t<root-layout" ++ attr (py! "height") (decimal m.height) ++ attr (py! "width") (decimal m.width) ++ py! "/>\n" := by
      rw [write_empty]
      have : sortAttrs [(py! "width", decimal m.width), (py! "height", decimal m.height)] =
        [(py! "height", decimal m.height), (py! "width", decimal m.width)] := rfl
      rw [this]
      simp only [List.flatMap_cons, List.flatMap_nil, List.append_nil, attr_eq]
      simp only [List.append_assoc]
      rfl
    have he2 : ([9, 9] ++ [9] : Str) = [9, 9, 9] := rfl
    rw [he, List.flatMap_append, List.flatMap_map]
    simp only [hm, List.flatMap_cons, List.flatMap_nil, List.append_nil]
    rw [write_full _ _ _ _ (by simp), he2]
    simp only [List.flatMap_cons, List.flatMap_nil, List.append_nil, hl]
    simp only [List.append_assoc]
    rfl
  have he : ([] ++ [9] : Str) = [9] := rfl
  rw [he]
  simp only [List.flatMap_cons, List.flatMap_nil, List.append_nil, hbody, hhead]
  unfold document
  simp only [List.append_assoc]
  rfl

/-- the hypotheses are met by the message with two slides of `Props/Slides.lean` -/
example : sampleMsg.smil sampleEnv = .ok (document sampleMsg.metaTags sampleMsg.width sampleMsg.height
    [textSlide (py! "Hi"), { textSlide (py! "Yo") with audio := audioSlide.audio }]) :=
  C69_text _ _ _ (.cons (textPage_is _ _) (.cons ⟨rfl, .none, .some _ _ _ _ rfl, .some _ _ _ _ (.location _ rfl)⟩ .nil)) (by
    intro s hs
    simp only [List.mem_cons, List.not_mem_nil, or_false] at hs
    rcases hs with rfl | rfl <;> simp [textSlide])
/-- a medium with times and characters that need to be escaped -/
example : mediumLine (py! "img") (py! " region=\"Image\"") 50 (some ⟨py! "a&b.jpg", 1, 90⟩) =
    py! "\t\t\t<img begin=\"1\" end=\"50\" region=\"Image\" src=\"a&amp;b.jpg\"/>\n" := by decide +kernel

end Verif.Props

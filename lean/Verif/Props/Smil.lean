import Verif.Props.Slides
import Verif.Proofs.XmlChars
/-!
# C69: the SMIL text
-/
set_option autoImplicit false

namespace Verif.Props
open Verif Verif.Mms
open Verif.Spec.Slides (Slide Medium)
open Verif.Spec.Xml (Chars Plain IsName Same parse presentation normal)

/-- the texts, file names and meta tags of a message consist of characters with this property -/
structure AllChars (P : List Nat → Prop) (m : Msg) (slides : List Slide) : Prop where
  metaTags : ∀ t ∈ m.metaTags, IsName t.1 ∧ P t.2
  slides : ∀ s ∈ slides, ∀ x : Medium, s.image = some x ∨ s.text = some x ∨ s.audio = some x → P x.src

/-- the text returned by `smil()` is an XML document, which says what the slides are -/
def C69_full : Prop := ∀ (env : Env) (m : Msg) (slides : List Slide), List.Forall₂ (PageIs env) m.pages slides →
  (∀ s ∈ slides, s.audio.isSome → s.text.isSome) → AllChars (fun _ => True) m slides →
  ∃ text t, m.smil env = .ok text ∧ parse text = some t ∧ Same t (presentation m.metaTags m.width m.height slides)

/-- with line breaks and tabs as spaces -/
def onOneLine (s : Slide) : Slide :=
  { s with
    image := s.image.map fun x => { x with src := normal x.src }
    text := s.text.map fun x => { x with src := normal x.src }
    audio := s.audio.map fun x => { x with src := normal x.src } }

theorem timeAttrs_tree (d b e : Int) : (Spec.Slides.timeAttrs d b e).map (fun a => (a.1, normal a.2)) = Spec.Slides.timeAttrs d b e := by
  unfold Spec.Slides.timeAttrs
  split
  · simp [normal_plain (decimal_plain _)]
  · rfl

theorem normal_lit (v : List Nat) (h : v.all (fun c => decide (32 ≤ c)) = true) : normal v = v :=
  normal_plain fun c hc => by simpa using List.all_eq_true.1 h c hc

theorem elems_tree (s : Slide) :
    s.elems.map (fun e => (e.1, e.2.map fun a => (a.1, normal a.2))) = (onOneLine s).elems := by
  have h1 := normal_lit (py! "Image") (by decide)
  have h2 := normal_lit (py! "Text") (by decide)
  rcases s with ⟨d, i, t, a⟩
  cases i <;> cases t <;> cases a <;>
    simp [Slide.elems, onOneLine, h1, h2, timeAttrs_tree]

theorem timeAttrs_ok (d b e : Int) : (∀ a ∈ Spec.Slides.timeAttrs d b e, IsName a.1 ∧ Chars a.2) ∧
    (Spec.Slides.timeAttrs d b e = [] ∨ (Spec.Slides.timeAttrs d b e).map (·.1) = [py! "begin", py! "end"]) := by
  unfold Spec.Slides.timeAttrs
  split
  · refine ⟨?_, .inr rfl⟩
    intro a ha
    simp only [List.mem_cons, List.not_mem_nil, or_false] at ha
    rcases ha with rfl | rfl
    · exact ⟨isName_dec _ rfl, plain_chars (decimal_plain _)⟩
    · exact ⟨isName_dec _ rfl, plain_chars (decimal_plain _)⟩
  · exact ⟨fun a ha => by simp at ha, .inl rfl⟩

theorem attrsOk_of (l : Dict Str) (d b e : Int) (h : ∀ a ∈ l, IsName a.1 ∧ Chars a.2)
    (hn : (l.map (·.1) ++ [py! "begin", py! "end"]).Nodup) : AttrsOk (l ++ Spec.Slides.timeAttrs d b e) := by
  obtain ⟨h1, h2⟩ := timeAttrs_ok d b e
  refine ⟨?_, ?_⟩
  · intro a ha
    rcases List.mem_append.1 ha with ha | ha
    · exact h a ha
    · exact h1 a ha
  · rw [List.map_append]
    rcases h2 with h2 | h2
    · rw [h2]
      simpa using (List.nodup_append.1 hn).1
    · rw [h2]; exact hn

theorem elems_good {s : Slide} (h : ∀ x : Medium, s.image = some x ∨ s.text = some x ∨ s.audio = some x → Chars x.src) :
    ∀ e ∈ s.elems, IsName e.1 ∧ AttrsOk e.2 := by
  intro e he
  unfold Slide.elems at he
  have lit : ∀ v : List Nat, v.all (fun c => decide (32 ≤ c)) = true → Chars v := fun v hv c hc =>
    .inl (by simpa using List.all_eq_true.1 hv c hc)
  rcases List.mem_append.1 he with he | he
  · rcases List.mem_append.1 he with he | he
    · obtain ⟨x, hx, rfl⟩ := List.mem_map.1 he
      refine ⟨isName_dec _ rfl, attrsOk_of _ _ _ _ ?_ (by simp)⟩
      intro a ha
      simp only [List.mem_cons, List.not_mem_nil, or_false] at ha
      rcases ha with rfl | rfl
      · exact ⟨isName_dec _ rfl, h x (.inl (by simpa using hx))⟩
      · exact ⟨isName_dec _ rfl, lit _ (by decide)⟩
    · obtain ⟨x, hx, rfl⟩ := List.mem_map.1 he
      refine ⟨isName_dec _ rfl, attrsOk_of _ _ _ _ ?_ (by simp)⟩
      intro a ha
      simp only [List.mem_cons, List.not_mem_nil, or_false] at ha
      rcases ha with rfl | rfl
      · exact ⟨isName_dec _ rfl, h x (.inr (.inl (by simpa using hx)))⟩
      · exact ⟨isName_dec _ rfl, lit _ (by decide)⟩
  · obtain ⟨x, hx, rfl⟩ := List.mem_map.1 he
    refine ⟨isName_dec _ rfl, attrsOk_of [_] _ _ _ ?_ (by simp)⟩
    intro a ha
    simp only [List.mem_cons, List.not_mem_nil, or_false] at ha
    subst ha
    exact ⟨isName_dec _ rfl, h x (.inr (.inr (by simpa using hx)))⟩

theorem attrsOk_lits (l : Dict Str) (h : ∀ a ∈ l, IsName a.1 ∧ Chars a.2) (hn : (l.map (·.1)).Nodup) : AttrsOk l := ⟨h, hn⟩

/-- C69 with the normalisation of XML: line breaks and tabs in texts and file names read as spaces.  Missing: texts with
other control characters, for which there is no XML document at all (`C69_control`). -/
theorem C69_normal_partial (env : Env) (m : Msg) (slides : List Slide) (h : List.Forall₂ (PageIs env) m.pages slides)
    (ht : ∀ s ∈ slides, s.audio.isSome → s.text.isSome) (hc : AllChars Chars m slides) :
    ∃ text t, m.smil env = .ok text ∧ parse text = some t ∧
      Same t (presentation (m.metaTags.map fun a => (a.1, normal a.2)) m.width m.height (slides.map onOneLine)) := by
  obtain ⟨head, pars, h1, h2, h3⟩ := C53_document_partial env m slides h ht
  have lit : ∀ v : List Nat, v.all (fun c => decide (32 ≤ c)) = true → Chars v := fun v hv c hc =>
    .inl (by simpa using List.all_eq_true.1 hv c hc)
  have nm : ∀ v : List Nat, (match v with | [] => false | c :: r => Spec.Xml.isNameStart c && r.all Spec.Xml.isNameChar) = true →
    IsName v := isName_dec
  have hgood : Good (.elem (py! "smil") [] [head, .elem (py! "body") [] pars]) := by
    simp only [Good, GoodAll]
    refine ⟨nm _ rfl, ⟨by simp, by simp⟩, ?_, ⟨nm _ rfl, ⟨by simp, by simp⟩, ?_⟩, trivial⟩
    · rw [h3]
      simp only [Good]
      refine ⟨nm _ rfl, ⟨by simp, by simp⟩, (goodAll_iff _).2 ?_⟩
      intro x hx
      rcases List.mem_append.1 hx with hx | hx
      · obtain ⟨t, ht, rfl⟩ := List.mem_map.1 hx
        simp only [Good]
        refine ⟨nm _ rfl, ⟨?_, by simp⟩, trivial⟩
        intro a ha
        simp only [List.mem_cons, List.not_mem_nil, or_false] at ha
        subst ha
        exact hc.metaTags a ht
      · simp only [List.mem_cons, List.not_mem_nil, or_false] at hx
        subst hx
        simp only [Good, GoodAll]
        refine ⟨nm _ rfl, ⟨by simp, by simp⟩, ⟨nm _ rfl, attrsOk_lits _ ?_ (by simp), trivial⟩,
          ⟨nm _ rfl, attrsOk_lits _ ?_ (by simp), trivial⟩,
          ⟨nm _ rfl, attrsOk_lits _ ?_ (by simp), trivial⟩, trivial⟩
        · intro a ha
          simp only [List.mem_cons, List.not_mem_nil, or_false] at ha
          rcases ha with rfl | rfl
          · exact ⟨nm _ rfl, plain_chars (decimal_plain _)⟩
          · exact ⟨nm _ rfl, plain_chars (decimal_plain _)⟩
        · intro a ha
          simp only [List.mem_cons, List.not_mem_nil, or_false] at ha
          rcases ha with rfl | rfl | rfl | rfl | rfl <;> exact ⟨nm _ rfl, lit _ (by decide)⟩
        · intro a ha
          simp only [List.mem_cons, List.not_mem_nil, or_false] at ha
          rcases ha with rfl | rfl | rfl | rfl | rfl <;> exact ⟨nm _ rfl, lit _ (by decide)⟩
    · rw [h2]
      refine (goodAll_iff _).2 ?_
      intro x hx
      obtain ⟨s, hs, rfl⟩ := List.mem_map.1 hx
      simp only [Good]
      refine ⟨nm _ rfl, attrsOk_lits _ ?_ (by simp), (goodAll_iff _).2 ?_⟩
      · intro a ha
        simp only [List.mem_cons, List.not_mem_nil, or_false] at ha
        subst ha
        exact ⟨nm _ rfl, plain_chars (decimal_plain _)⟩
      · intro x hx
        obtain ⟨e, he, rfl⟩ := List.mem_map.1 hx
        simp only [Good, GoodAll]
        obtain ⟨h4, h5⟩ := elems_good (hc.slides s hs) e he
        exact ⟨h4, h5, trivial⟩
  refine ⟨_, _, by unfold Msg.smil; rw [h1]; rfl, parse_write _ hgood, ?_⟩
  have hs := read_same (.elem (py! "smil") [] [head, .elem (py! "body") [] pars])
  have heq : Xml.tree (.elem (py! "smil") [] [head, .elem (py! "body") [] pars]) =
      presentation (m.metaTags.map fun a => (a.1, normal a.2)) m.width m.height (slides.map onOneLine) := by
    have hl := fun v hv => normal_lit v hv
    simp only [Xml.tree, trees_eq, List.map_cons, List.map_nil, h2, h3, presentation, List.map_append, List.map_map,
      normal_plain (decimal_plain _), hl (py! "Image") (by decide), hl (py! "Text") (by decide), hl (py! "0") (by decide),
      hl (py! "176") (by decide), hl (py! "144") (by decide), hl (py! "76") (by decide)]
    congr 3
    congr 1
    refine List.map_congr_left ?_
    intro s _
    simp only [Function.comp_apply, Xml.tree, trees_eq, List.map_cons, List.map_nil, normal_plain (decimal_plain _),
      List.map_map]
    rw [show (onOneLine s).duration = s.duration from rfl, ← elems_tree, List.map_map]
    rfl
  rw [← heq]
  exact hs

theorem onOneLine_plain {s : Slide} (h : ∀ x : Medium, s.image = some x ∨ s.text = some x ∨ s.audio = some x → Plain x.src) :
    onOneLine s = s := by
  rcases s with ⟨d, i, t, a⟩
  have key : ∀ o : Option Medium, (∀ x, o = some x → Plain x.src) → o.map (fun x => { x with src := normal x.src }) = o := by
    intro o ho
    cases o with
    | none => rfl
    | some x => simp [normal_plain (ho x rfl)]
  simp only [onOneLine]
  rw [key i fun x hx => h x (.inl hx), key t fun x hx => h x (.inr (.inl hx)), key a fun x hx => h x (.inr (.inr hx))]

/-- C69 for texts and file names without control characters.  Missing: the others, for which it is false. -/
theorem C69_partial (env : Env) (m : Msg) (slides : List Slide) (h : List.Forall₂ (PageIs env) m.pages slides)
    (ht : ∀ s ∈ slides, s.audio.isSome → s.text.isSome) (hc : AllChars Plain m slides) :
    ∃ text t, m.smil env = .ok text ∧ parse text = some t ∧ Same t (presentation m.metaTags m.width m.height slides) := by
  obtain ⟨text, t, h1, h2, h3⟩ := C69_normal_partial env m slides h ht
    ⟨fun t ht => ⟨(hc.metaTags t ht).1, plain_chars (hc.metaTags t ht).2⟩, fun s hs x hx => plain_chars (hc.slides s hs x hx)⟩
  refine ⟨text, t, h1, h2, ?_⟩
  have e1 : (m.metaTags.map fun a => (a.1, normal a.2)) = m.metaTags := by
    conv => rhs; rw [← List.map_id m.metaTags]
    refine List.map_congr_left fun a ha => ?_
    rw [normal_plain (hc.metaTags a ha).2]; rfl
  have e2 : slides.map onOneLine = slides := by
    conv => rhs; rw [← List.map_id slides]
    exact List.map_congr_left fun s hs => onOneLine_plain (hc.slides s hs)
  rw [e1, e2] at h3
  exact h3

/-- a slide with markup characters in its text, and one with a file name with an ampersand -/
example : ∃ text t, Msg.smil sampleEnv { Msg.new with pages := [textPage (py! "<a> & \"b\"")] } = .ok text ∧
    parse text = some t ∧ Same t (presentation [] 176 220 [textSlide (py! "<a> & \"b\"")]) :=
  C69_partial sampleEnv _ _ (.cons (textPage_is _ _) .nil) (by simp [textSlide])
    ⟨by intro t ht; (simp [Msg.new] at ht), by
      intro s hs x hx
      simp only [List.mem_cons, List.not_mem_nil, or_false] at hs
      subst hs
      simp only [textSlide, Option.some.injEq, reduceCtorEq, false_or, or_false] at hx
      subst hx
      unfold Plain
      decide⟩

/-- Whenever a text, a file name or a meta tag has a control character other than tab, newline and carriage return, the
result is not an XML document. -/
theorem C69_control (env : Env) (m : Msg) (slides : List Slide) (h : List.Forall₂ (PageIs env) m.pages slides)
    (ht : ∀ s ∈ slides, s.audio.isSome → s.text.isSome) (c : Nat) (hc : c < 32 ∧ c ≠ 9 ∧ c ≠ 10 ∧ c ≠ 13)
    (hin : (∃ t ∈ m.metaTags, c ∈ t.2) ∨
      ∃ s ∈ slides, ∃ x : Medium, (s.image = some x ∨ s.text = some x ∨ s.audio = some x) ∧ c ∈ x.src) :
    ∃ text, m.smil env = .ok text ∧ parse text = none := by
  obtain ⟨head, pars, h1, h2, h3⟩ := C53_document_partial env m slides h ht
  refine ⟨_, by unfold Msg.smil; rw [h1]; rfl, parse_ctl (c := c) (by omega) ?_⟩
  simp only [CtlIn, CtlInAll]
  right
  rcases hin with ⟨t, ht', hct⟩ | ⟨s, hs, x, hx, hcx⟩
  · left
    rw [h3]
    simp only [CtlIn]
    right
    rw [ctlInAll_iff]
    refine ⟨_, List.mem_append_left _ (List.mem_map.2 ⟨t, ht', rfl⟩), ?_⟩
    simp only [CtlIn]
    exact .inl ⟨t, by simp, hct⟩
  · right
    left
    right
    rw [ctlInAll_iff, h2]
    refine ⟨_, List.mem_map.2 ⟨s, hs, rfl⟩, ?_⟩
    simp only [CtlIn]
    right
    rw [ctlInAll_iff]
    rcases hx with hx | hx | hx
    · refine ⟨_, List.mem_map.2 ⟨(py! "img", [(py! "src", x.src), (py! "region", py! "Image")] ++
        Spec.Slides.timeAttrs s.duration x.begin_ x.end_), by simp [Slide.elems, hx], rfl⟩, ?_⟩
      simp only [CtlIn]
      exact .inl ⟨_, List.mem_append_left _ List.mem_cons_self, hcx⟩
    · refine ⟨_, List.mem_map.2 ⟨(py! "text", [(py! "src", x.src), (py! "region", py! "Text")] ++
        Spec.Slides.timeAttrs s.duration x.begin_ x.end_), by simp [Slide.elems, hx], rfl⟩, ?_⟩
      simp only [CtlIn]
      exact .inl ⟨_, List.mem_append_left _ List.mem_cons_self, hcx⟩
    · refine ⟨_, List.mem_map.2 ⟨(py! "audio", (py! "src", x.src) ::
        Spec.Slides.timeAttrs s.duration x.begin_ x.end_), by simp [Slide.elems, hx], rfl⟩, ?_⟩
      simp only [CtlIn]
      exact .inl ⟨_, List.mem_cons_self, hcx⟩

/-- the text with octet 1 -/
theorem control_sample : ∃ text, Msg.smil sampleEnv { Msg.new with pages := [textPage [1]] } = .ok text ∧ parse text = none :=
  C69_control sampleEnv _ [textSlide [1]] (.cons (textPage_is _ _) .nil) (by simp [textSlide]) 1 (by decide)
    (.inr ⟨textSlide [1], by simp, ⟨[1], 0, 0⟩, .inr (.inl rfl), by simp⟩)

/-- C69 is false of the code: the text of a slide is written as an attribute, so a line break becomes a space, and a
control character makes the presentation unreadable -/
theorem C69_refuted : ¬ C69_full := by
  intro hf
  obtain ⟨text, t, h1, h2, _⟩ := hf sampleEnv { Msg.new with pages := [textPage [1]] } [textSlide [1]] (.cons (textPage_is _ _) .nil)
    (by simp [textSlide]) ⟨by intro t ht; (simp [Msg.new] at ht), by simp⟩
  obtain ⟨text', h3, h4⟩ := control_sample
  rw [h3] at h1
  cases h1
  rw [h4] at h2
  cases h2

/-- the text `a`, newline, `b` is shown as `a b` -/
theorem C69_newline : ∃ text t, Msg.smil sampleEnv { Msg.new with pages := [textPage [97, 10, 98]] } = .ok text ∧
    parse text = some t ∧ Same t (presentation [] 176 220 [textSlide [97, 32, 98]]) ∧
    ¬ Same t (presentation [] 176 220 [textSlide [97, 10, 98]]) := by
  obtain ⟨text, t, h1, h2, h3⟩ := C69_normal_partial sampleEnv { Msg.new with pages := [textPage [97, 10, 98]] } _
    (.cons (textPage_is _ _) .nil) (by simp [textSlide]) ⟨by intro t ht; (simp [Msg.new] at ht), by
      intro s hs x hx
      simp only [List.mem_cons, List.not_mem_nil, or_false] at hs
      subst hs
      simp only [textSlide, Option.some.injEq, reduceCtorEq, false_or, or_false] at hx
      subst hx
      unfold Chars
      decide⟩
  have e : [textSlide [97, 10, 98]].map onOneLine = [textSlide [97, 32, 98]] := by
    simp [textSlide, onOneLine, normal]
  rw [e] at h3
  refine ⟨text, t, h1, h2, h3, ?_⟩
  intro h4
  cases t with
  | node tag as kids =>
    cases kids with
    | nil => simp [presentation, Same, Spec.Xml.SameAll] at h3
    | cons k1 kids =>
      cases kids with
      | nil => simp [presentation, Same, Spec.Xml.SameAll] at h3
      | cons k2 kids =>
        simp only [presentation, Same, Spec.Xml.SameAll] at h3 h4
        cases k2 with
        | node tag2 as2 kids2 =>
          cases kids2 with
          | nil => simp [Same, Spec.Xml.SameAll] at h3
          | cons p ps =>
            cases p with
            | node tag3 as3 kids3 =>
              cases kids3 with
              | nil => simp [Same, Spec.Xml.SameAll, textSlide, Slide.elems] at h3
              | cons q qs =>
                cases q with
                | node tag4 as4 kids4 =>
                  simp only [Same, Spec.Xml.SameAll, textSlide, Slide.elems, List.map_cons] at h3 h4
                  have p3 := h3.2.2.2.1.2.2.1.2.2.1.2.1
                  have p4 := h4.2.2.2.1.2.2.1.2.2.1.2.1
                  have := (p3.symm.trans p4)
                  revert this
                  decide +kernel

end Verif.Props

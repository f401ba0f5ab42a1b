import Verif.Props.Moved
import Verif.Props.Smil
import Verif.Spec.MovedXml
/-!
# C69: the SMIL text of any slides, also those with audio and no text
-/
set_option autoImplicit false

namespace Verif.Props
open Verif Verif.Mms
open Verif.Spec.Slides (Slide Medium LastText TextShown Arranged AudioTexts)
open Verif.Spec.Xml (Chars Plain IsName Same parse presentationOf normal)

theorem elem_values_plain {s : Slide}
    (h : ∀ x : Medium, s.image = some x ∨ s.text = some x ∨ s.audio = some x → Plain x.src) :
    ∀ e ∈ s.elems, ∀ a ∈ e.2, Plain a.2 := by
  have ht : ∀ d b e : Int, ∀ a ∈ Spec.Slides.timeAttrs d b e, Plain a.2 := by
    intro d b e a ha
    unfold Spec.Slides.timeAttrs at ha
    split at ha
    · simp only [List.mem_cons, List.not_mem_nil, or_false] at ha
      rcases ha with rfl | rfl <;> exact decimal_plain _
    · cases ha
  have lit : ∀ v : List Nat, v.all (fun c => decide (32 ≤ c)) = true → Plain v := fun v hv c hc => by
    simpa using List.all_eq_true.1 hv c hc
  intro e he a ha
  unfold Slide.elems at he
  rcases List.mem_append.1 he with he | he
  · rcases List.mem_append.1 he with he | he
    · obtain ⟨x, hx, rfl⟩ := List.mem_map.1 he
      rcases List.mem_append.1 ha with ha | ha
      · simp only [List.mem_cons, List.not_mem_nil, or_false] at ha
        rcases ha with rfl | rfl
        · exact h x (.inl (by simpa using hx))
        · exact lit _ (by decide)
      · exact ht _ _ _ a ha
    · obtain ⟨x, hx, rfl⟩ := List.mem_map.1 he
      rcases List.mem_append.1 ha with ha | ha
      · simp only [List.mem_cons, List.not_mem_nil, or_false] at ha
        rcases ha with rfl | rfl
        · exact h x (.inr (.inl (by simpa using hx)))
        · exact lit _ (by decide)
      · exact ht _ _ _ a ha
  · obtain ⟨x, hx, rfl⟩ := List.mem_map.1 he
    rcases List.mem_cons.1 ha with rfl | ha
    · exact h x (.inr (.inr (by simpa using hx)))
    · exact ht _ _ _ a ha

/-- the elements shown with a slide are elements of slides -/
theorem arranged_mem {slides : List Slide} {j : Nat} {s : Slide} {es : List Spec.Slides.Elem} (hs : slides[j]? = some s)
    (h : Arranged slides j s es) : ∀ e ∈ es, ∃ x ∈ slides, e ∈ x.elems := by
  obtain ⟨t, rfl, h1, h2⟩ := h
  intro e he
  have hm := List.mem_of_getElem? hs
  rcases List.mem_append.1 he with he | he
  · rcases List.mem_append.1 he with he | he
    · exact ⟨s, hm, List.mem_append_left _ (List.mem_append_left _ he)⟩
    · by_cases hx : ∃ i, TextShown slides j i
      · obtain ⟨i, hi⟩ := hx
        obtain ⟨x, hx, _⟩ := hi.1.2.1
        rw [h1 i x hi hx] at he
        exact ⟨x, List.mem_of_getElem? hx, List.mem_append_left _ (List.mem_append_right _ he)⟩
      · rw [h2 fun i hi => hx ⟨i, hi⟩] at he
        cases he
  · exact ⟨s, hm, List.mem_append_right _ he⟩

/-- the text for these `par` elements is an XML document that says what they are -/
theorem smil_reads {env : Env} {m : Msg} {pars : List ParNode} (h : m.smilBody env = .ok pars)
    (hm : ∀ t ∈ m.metaTags, IsName t.1 ∧ Plain t.2)
    (he : ∀ p ∈ pars, ∀ e ∈ p.view.2, IsName e.1 ∧ AttrsOk e.2 ∧ ∀ a ∈ e.2, Plain a.2) :
    ∃ text t, m.smil env = .ok text ∧ parse text = some t ∧
      Same t (presentationOf m.metaTags m.width m.height (pars.map ParNode.view)) := by
  have nm : ∀ v : List Nat, (match v with | [] => false | c :: r => Spec.Xml.isNameStart c && r.all Spec.Xml.isNameChar) = true →
    IsName v := isName_dec
  have lit : ∀ v : List Nat, v.all (fun c => decide (32 ≤ c)) = true → Chars v := fun v hv c hc =>
    .inl (by simpa using List.all_eq_true.1 hv c hc)
  have hdoc : m.smilDoc env = .ok (.elem (py! "smil") [] [m.smilHead, .elem (py! "body") [] (pars.map ParNode.toXml)]) := by
    unfold Msg.smilDoc; rw [h]; rfl
  have hgood : Good (.elem (py! "smil") [] [m.smilHead, .elem (py! "body") [] (pars.map ParNode.toXml)]) := by
    simp only [Good, GoodAll]
    refine ⟨nm _ rfl, ⟨by simp, by simp⟩, ?_, ⟨nm _ rfl, ⟨by simp, by simp⟩, ?_⟩, trivial⟩
    · simp only [Msg.smilHead, intStr_decimal, Good]
      refine ⟨nm _ rfl, ⟨by simp, by simp⟩, (goodAll_iff _).2 ?_⟩
      intro x hx
      rcases List.mem_append.1 hx with hx | hx
      · obtain ⟨t, ht, rfl⟩ := List.mem_map.1 hx
        simp only [Good]
        refine ⟨nm _ rfl, ⟨?_, by simp⟩, trivial⟩
        intro a ha
        simp only [List.mem_cons, List.not_mem_nil, or_false] at ha
        subst ha
        exact ⟨(hm _ ht).1, plain_chars (hm _ ht).2⟩
      · simp only [List.mem_cons, List.not_mem_nil, or_false] at hx
        subst hx
        simp only [regionXml, Good, GoodAll]
        refine ⟨nm _ rfl, ⟨by simp, by simp⟩, ⟨nm _ rfl, attrsOk_lits _ ?_ (by simp), trivial⟩,
          ⟨nm _ rfl, attrsOk_lits _ ?_ (by simp), trivial⟩,
          ⟨nm _ rfl, attrsOk_lits _ ?_ (by simp), trivial⟩, trivial⟩
        · intro a ha
          simp only [List.mem_cons, List.not_mem_nil, or_false] at ha
          rcases ha with rfl | rfl
          · exact ⟨nm _ rfl, plain_chars (decimal_plain _)⟩
          · exact ⟨nm _ rfl, plain_chars (decimal_plain _)⟩
        · intro a ha
          simp only [List.mem_cons, List.not_mem_nil, or_false] at ha
          rcases ha with rfl | rfl | rfl | rfl | rfl <;> exact ⟨nm _ rfl, lit _ (by decide)⟩
        · intro a ha
          simp only [List.mem_cons, List.not_mem_nil, or_false] at ha
          rcases ha with rfl | rfl | rfl | rfl | rfl <;> exact ⟨nm _ rfl, lit _ (by decide)⟩
    · refine (goodAll_iff _).2 ?_
      intro x hx
      obtain ⟨p, hp, rfl⟩ := List.mem_map.1 hx
      simp only [ParNode.toXml, Good, intStr_decimal]
      refine ⟨nm _ rfl, attrsOk_lits _ ?_ (by simp), (goodAll_iff _).2 ?_⟩
      · intro a ha
        simp only [List.mem_cons, List.not_mem_nil, or_false] at ha
        subst ha
        exact ⟨nm _ rfl, plain_chars (decimal_plain _)⟩
      · intro x hx
        obtain ⟨k, hk, rfl⟩ := List.mem_map.1 hx
        simp only [MediaNode.toXml, Good, GoodAll]
        obtain ⟨h4, h5, _⟩ := he p hp (k.tag, k.attrs) (List.mem_map.2 ⟨k, hk, rfl⟩)
        exact ⟨h4, h5, trivial⟩
  refine ⟨_, _, by unfold Msg.smil; rw [hdoc]; rfl, parse_write _ hgood, ?_⟩
  have hs := read_same (.elem (py! "smil") [] [m.smilHead, .elem (py! "body") [] (pars.map ParNode.toXml)])
  have heq : Xml.tree (.elem (py! "smil") [] [m.smilHead, .elem (py! "body") [] (pars.map ParNode.toXml)]) =
      presentationOf m.metaTags m.width m.height (pars.map ParNode.view) := by
    have hl := fun v hv => normal_lit v hv
    simp only [Msg.smilHead, regionXml, intStr_decimal, Xml.tree, trees_eq, List.map_cons, List.map_nil, presentationOf, List.map_append, List.map_map,
      normal_plain (decimal_plain _), hl (py! "Image") (by decide), hl (py! "Text") (by decide), hl (py! "0") (by decide),
      hl (py! "176") (by decide), hl (py! "144") (by decide), hl (py! "76") (by decide)]
    congr 2
    · congr 2
      refine List.map_congr_left ?_
      intro t ht
      simp only [Function.comp_apply, Xml.tree, trees_eq, List.map_cons, List.map_nil, normal_plain (hm t ht).2]
    · congr 2
      refine List.map_congr_left ?_
      intro p hp
      simp only [Function.comp_apply, ParNode.toXml, ParNode.view, Xml.tree, trees_eq, List.map_cons, List.map_nil, intStr_decimal,
        normal_plain (decimal_plain _), List.map_map]
      congr 1
      refine List.map_congr_left ?_
      intro k hk
      obtain ⟨_, _, h5⟩ := he p hp (k.tag, k.attrs) (List.mem_map.2 ⟨k, hk, rfl⟩)
      simp only [Function.comp_apply, MediaNode.toXml, Xml.tree, trees_eq, List.map_nil]
      congr 1
      conv => rhs; rw [← List.map_id k.attrs]
      refine List.map_congr_left fun a ha => ?_
      rw [normal_plain (h5 a ha)]; rfl
  rw [← heq]
  exact hs

/-- C69 for any slides, also those with audio and no text (if a slide before has one): the text is an XML document, with one
`par` element per slide, in order, that has the duration, the image and the audio of the slide and the text shown with it
(`C53_exact`).  Texts and file names without control characters. -/
theorem C69_moved_partial (env : Env) (m : Msg) (slides : List Slide) (h : List.Forall₂ (PageIs env) m.pages slides)
    (ht : AudioTexts slides) (hc : AllChars Plain m slides) :
    ∃ text t pars, m.smil env = .ok text ∧ parse text = some t ∧ Same t (presentationOf m.metaTags m.width m.height pars) ∧
      pars.length = slides.length ∧
      ∀ (j : Nat) (s : Slide) (p : Int × List Spec.Slides.Elem), slides[j]? = some s → pars[j]? = some p →
        p.1 = s.duration ∧ Arranged slides j s p.2 := by
  obtain ⟨ps, h1, h2, h3⟩ := (C53_exact env m slides h).1 ht
  have he : ∀ p ∈ ps, ∀ e ∈ p.view.2, IsName e.1 ∧ AttrsOk e.2 ∧ ∀ a ∈ e.2, Plain a.2 := by
    intro p hp e hep
    obtain ⟨j, hj⟩ := List.getElem?_of_mem hp
    have hjl := (List.getElem?_eq_some_iff.1 hj).1
    have hsj : slides[j]? = some (slides[j]'(by omega)) := List.getElem?_eq_getElem (by omega)
    obtain ⟨x, hx, hxe⟩ := arranged_mem hsj (h3 j _ p hsj hj).2 e hep
    obtain ⟨g1, g2⟩ := elems_good (fun y hy => plain_chars (hc.slides x hx y hy)) e hxe
    exact ⟨g1, g2, elem_values_plain (hc.slides x hx) e hxe⟩
  obtain ⟨text, t, e1, e2, e3⟩ := smil_reads h1 hc.metaTags he
  refine ⟨text, t, ps.map ParNode.view, e1, e2, e3, by rw [List.length_map]; exact h2, ?_⟩
  intro j s p hs hp
  rw [List.getElem?_map] at hp
  obtain ⟨q, hq, rfl⟩ := Option.map_eq_some_iff.1 hp
  exact h3 j s q hs hq

/-- the hypotheses are met by a text followed by audio -/
example : AllChars Plain { Msg.new with pages := [textPage (py! "Hi"), audioPage] } [textSlide (py! "Hi"), audioSlide] ∧
    AudioTexts [textSlide (py! "Hi"), audioSlide] ∧
    List.Forall₂ (PageIs sampleEnv) [textPage (py! "Hi"), audioPage] [textSlide (py! "Hi"), audioSlide] := by
  refine ⟨⟨fun t ht => (by cases ht), ?_⟩, ?_, .cons (textPage_is _ _) (.cons (audioPage_is _) .nil)⟩
  · intro s hs x hx
    simp only [List.mem_cons, List.not_mem_nil, or_false] at hs
    rcases hs with rfl | rfl
    · simp only [textSlide, Option.some.injEq, reduceCtorEq, false_or, or_false] at hx
      subst hx
      intro c hc
      simp at hc
      omega
    · simp only [audioSlide, Option.some.injEq, reduceCtorEq, false_or] at hx
      subst hx
      intro c hc
      simp at hc
      omega
  · intro j s hs ha
    refine ⟨0, Nat.zero_le _, ⟨_, rfl, rfl⟩, ?_⟩
    rintro (_ | _ | k) x hk _ hx
    · omega
    · cases hx; rfl
    · simp at hx

end Verif.Props

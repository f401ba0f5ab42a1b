import Verif.Proofs.SmilExact3
import Verif.Props.Refusal
import Verif.Spec.Labels
/-!
# C98: labels of images and audio clips may be of any type
-/
set_option autoImplicit false

namespace Verif.Props
open Verif Verif.Mms
open Verif.Spec.Labels (unread read layoutFails labelFails labels texts HasUnicode HasOctets Fails)

/-- the data of a part: what it holds, `unicode` if `uni`; what is read from a file is a `str` -/
inductive DataIs (env : Env) (uni : Bool) (part : DataPart) : Py PyStr → Prop
  | held (d : Str) (h : part.data = some d) : DataIs env uni part (.ok ⟨uni, d⟩)
  | file (d : Str) (h : part.data = none) (hr : part.readData env = .ok d) : DataIs env uni part (.ok ⟨false, d⟩)
  | unreadable (e : PyErr) (h : part.data = none) (hr : part.readData env = .error e) : DataIs env uni part (.error e)

/-- what an image or audio clip is referred to by: Content-Location, else Content-ID, else its own data -/
inductive SourceIs (env : Env) (uni : Bool) (part : DataPart) : Py HVal → Prop
  | location (v : HVal) (h : part.headers.get (py! "Content-Location") = some v) : SourceIs env uni part (.ok v)
  | id (v : HVal) (hl : part.headers.get (py! "Content-Location") = none) (h : part.headers.get (py! "Content-ID") = some v) :
      SourceIs env uni part (.ok v)
  | str (d : Str) (hl : part.headers.get (py! "Content-Location") = none) (hi : part.headers.get (py! "Content-ID") = none)
      (h : DataIs env uni part (.ok ⟨false, d⟩)) : SourceIs env uni part (.ok (.v (.str d)))
  | unicode (d : Str) (hl : part.headers.get (py! "Content-Location") = none) (hi : part.headers.get (py! "Content-ID") = none)
      (h : DataIs env uni part (.ok ⟨true, d⟩)) : SourceIs env uni part (.ok (.v (.uni d)))
  | unreadable (e : PyErr) (hl : part.headers.get (py! "Content-Location") = none)
      (hi : part.headers.get (py! "Content-ID") = none) (h : DataIs env uni part (.error e)) : SourceIs env uni part (.error e)

theorem dataIs_iff {env : Env} {uni : Bool} {part : DataPart} {r : Py PyStr} : DataIs env uni part r ↔ readTyped env uni part = r := by
  unfold readTyped
  constructor
  · intro h
    cases h with
    | held d h => simp [DataPart.readData, h, bind, Except.bind]
    | file d h hr => simp [hr, h, bind, Except.bind]
    | unreadable e h hr => simp [hr, bind, Except.bind]
  · rintro rfl
    cases hd : part.data with
    | some d =>
      have : part.readData env = .ok d := by simp [DataPart.readData, hd]
      simp only [this, bind, Except.bind, Option.isSome_some, Bool.and_true]
      exact .held d hd
    | none =>
      cases h : part.readData env with
      | ok d => simp only [bind, Except.bind, Option.isSome_none, Bool.and_false]; exact .file d hd h
      | error e => exact .unreadable e hd h

theorem sourceIs_iff {env : Env} {uni : Bool} {part : DataPart} {r : Py HVal} : SourceIs env uni part r ↔ srcValue env uni part = r := by
  unfold srcValue
  constructor
  · intro h
    cases h with
    | location v h => rw [h]
    | id v hl h => rw [hl]; simp only [h]
    | str d hl hi h => rw [hl]; simp only [hi, dataIs_iff.1 h, bind, Except.bind, strVal]; rfl
    | unicode d hl hi h => rw [hl]; simp only [hi, dataIs_iff.1 h, bind, Except.bind, strVal]; rfl
    | unreadable e hl hi h => rw [hl]; simp only [hi, dataIs_iff.1 h, bind, Except.bind]
  · rintro rfl
    cases hl : part.headers.get (py! "Content-Location") with
    | some v => exact .location v hl
    | none =>
      cases hi : part.headers.get (py! "Content-ID") with
      | some v => exact .id v hl hi
      | none =>
        cases h : readTyped env uni part with
        | ok d =>
          obtain ⟨u, d⟩ := d
          cases u
          · exact .str d hl hi (dataIs_iff.2 h)
          · exact .unicode d hl hi (dataIs_iff.2 h)
        | error e => exact .unreadable e hl hi (dataIs_iff.2 h)

/-- an optional medium -/
inductive SlotIs {α : Type} (R : DataPart → Py α → Prop) : Option (DataPart × Int × Int) → Option (Py α) → Prop
  | none : SlotIs R none none
  | some (part : DataPart) (b e : Int) (r : Py α) (h : R part r) : SlotIs R (some (part, b, e)) (some r)

/-- the page, with data of these types, is this slide -/
structure TypedSlideIs (env : Env) (k : Kinds) (p : Page) (s : Spec.Labels.Slide) : Prop where
  image : SlotIs (SourceIs env k.image) p.image s.image
  text : SlotIs (DataIs env k.text) p.text s.text
  audio : SlotIs (SourceIs env k.audio) p.audio s.audio

/-- the page, all data being `str`, is this slide -/
def SlideIs (env : Env) : Page → Spec.Labels.Slide → Prop := TypedSlideIs env .str

/-- the pages, with data of these types, are these slides -/
inductive SlidesAre (env : Env) : (Nat → Kinds) → List Page → List Spec.Labels.Slide → Prop
  | nil (kinds : Nat → Kinds) : SlidesAre env kinds [] []
  | cons (kinds : Nat → Kinds) (p : Page) (s : Spec.Labels.Slide) (ps : List Page) (ss : List Spec.Labels.Slide)
      (h : TypedSlideIs env (kinds 0) p s) (hs : SlidesAre env (fun i => kinds (i + 1)) ps ss) : SlidesAre env kinds (p :: ps) (s :: ss)

/-- the slide of what `smil()` gets from a page -/
def slideOf (p : PageX) : Spec.Labels.Slide := ⟨p.image.map (·.1), p.text.map (·.1), p.audio.map (·.1)⟩

theorem slot_eq {α : Type} {R : DataPart → Py α → Prop} {f : DataPart → Py α} (hR : ∀ p r, R p r ↔ f p = r)
    (x : Option (DataPart × Int × Int)) (y : Option (Py α)) :
    SlotIs R x y ↔ y = (x.map (fun x => (f x.1, x.2))).map (·.1) := by
  constructor
  · intro h
    cases h with
    | none => rfl
    | some part b e r h => simp [(hR _ _).1 h]
  · rintro rfl
    cases x with
    | none => exact .none
    | some x => exact .some x.1 x.2.1 x.2.2 _ ((hR _ _).2 rfl)

theorem slide_iff {env : Env} {k : Kinds} {p : Page} {s : Spec.Labels.Slide} : TypedSlideIs env k p s ↔ s = slideOf (p.values env k) := by
  have h1 := slot_eq (R := SourceIs env k.image) (fun _ _ => sourceIs_iff) p.image s.image
  have h2 := slot_eq (R := DataIs env k.text) (fun _ _ => dataIs_iff) p.text s.text
  have h3 := slot_eq (R := SourceIs env k.audio) (fun _ _ => sourceIs_iff) p.audio s.audio
  constructor
  · intro h
    obtain ⟨i, t, a⟩ := s
    have e1 := h1.1 h.image
    have e2 := h2.1 h.text
    have e3 := h3.1 h.audio
    simp only at e1 e2 e3
    subst e1 e2 e3
    rfl
  · intro h
    refine ⟨h1.2 ?_, h2.2 ?_, h3.2 ?_⟩ <;> rw [h] <;> rfl

theorem slides_iff {env : Env} {kinds : Nat → Kinds} {ps : List Page} {ss : List Spec.Labels.Slide} :
    SlidesAre env kinds ps ss ↔ ss = (pagesX env kinds ps).map slideOf := by
  induction ps generalizing kinds ss with
  | nil =>
    constructor
    · intro h; cases h; rfl
    · rintro rfl; exact .nil _
  | cons p ps ih =>
    constructor
    · intro h
      cases h with
      | cons _ _ s _ ss h hs =>
        rw [ih.1 hs, slide_iff.1 h]
        rfl
    · rintro rfl
      exact .cons _ _ _ _ _ (slide_iff.2 rfl) (ih.2 rfl)

theorem slides_str {env : Env} {ps : List Page} {ss : List Spec.Labels.Slide} (h : List.Forall₂ (SlideIs env) ps ss) :
    SlidesAre env (fun _ => .str) ps ss := by
  induction h with
  | nil => exact .nil _
  | cons h _ ih => exact .cons _ _ _ _ _ h ih

/-! ### laying out -/

theorem labelFails_eq (v : HVal) : badOf v = labelFails v := by
  unfold badOf
  rcases v with x | ⟨n, x⟩ | ⟨m, d⟩
  · cases x with
    | str s => rfl
    | uni s => rfl
    | int n => by_cases hn : n = 0 <;> simp [writeData, labelFails, hn]
    | bool b => cases b <;> rfl
    | flt n d => by_cases hn : n = 0 <;> simp [writeData, labelFails, hn]
    | none => rfl
    | dt d => rfl
  · rfl
  · rfl

theorem page_fails (p : PageX) (st : SmilX) :
    match unread (slideOf p).image, unread (slideOf p).text, unread (slideOf p).audio with
    | some e, _, _ => smilPageX st p = .error e
    | _, some e, _ => smilPageX st p = .error e
    | _, _, some e => smilPageX st p = .error e
    | _, _, _ =>
      if (slideOf p).audio.isSome ∧ ¬ (st.textNode.isSome = true ∨ (slideOf p).text.isSome) then smilPageX st p = .error .nameError
      else ∃ st', smilPageX st p = .ok st' ∧ st'.textNode.isSome = (st.textNode.isSome || (slideOf p).text.isSome) := by
  obtain ⟨d, im, tx, au⟩ := p
  unfold smilPageX slideOf
  simp only
  have h1 : (∃ e, unread (im.map (·.1)) = some e ∧ smilImageX ⟨d, im, tx, au⟩ st.uid = .error e) ∨
      (unread (im.map (·.1)) = none ∧ ∃ l, smilImageX ⟨d, im, tx, au⟩ st.uid = .ok l) := by
    unfold smilImageX
    rcases im with _ | ⟨r, b, e⟩
    · exact .inr ⟨rfl, [], rfl⟩
    · cases r with
      | ok v => exact .inr ⟨rfl, _, rfl⟩
      | error e => exact .inl ⟨e, rfl, rfl⟩
  have h2 : (∃ e, unread (tx.map (·.1)) = some e ∧ smilTextX ⟨d, im, tx, au⟩ (st.uid + 1) = .error e) ∨
      (unread (tx.map (·.1)) = none ∧ ∃ o, smilTextX ⟨d, im, tx, au⟩ (st.uid + 1) = .ok o ∧ o.isSome = (tx.map (·.1)).isSome) := by
    unfold smilTextX
    rcases tx with _ | ⟨r, b, e⟩
    · exact .inr ⟨rfl, none, rfl, rfl⟩
    · cases r with
      | ok v => exact .inr ⟨rfl, _, rfl, rfl⟩
      | error e => exact .inl ⟨e, rfl, rfl⟩
  rcases h1 with ⟨e, h1, h1'⟩ | ⟨h1, img, h1'⟩
  · simp only [h1, h1', bind, Except.bind]
  rcases h2 with ⟨e, h2, h2'⟩ | ⟨h2, o, h2', h2''⟩
  · simp only [h1, h1', h2, h2', bind, Except.bind]
  simp only [h1, h1', h2, h2', bind, Except.bind]
  rcases au with _ | ⟨r, b, e⟩
  · simp only [Option.map_none, unread, Option.isSome_none, Bool.false_eq_true, false_and, if_false]
    refine ⟨_, rfl, ?_⟩
    cases o with
    | none => rw [← h2'']; simp
    | some t => rw [← h2'']; simp
  · cases r with
    | error e => simp only [Option.map_some, unread]
    | ok v =>
      simp only [Option.map_some, unread, Option.isSome_some, true_and]
      rw [← h2'']
      cases o with
      | some t => simp
      | none =>
        cases hn : st.textNode with
        | none => simp
        | some t => simp

theorem pages_fail (ps : List PageX) (st : SmilX) :
    raised (smilPagesX st ps) = layoutFails st.textNode.isSome (ps.map slideOf) := by
  induction ps generalizing st with
  | nil => rfl
  | cons p ps ih =>
    have := page_fails p st
    rw [List.map_cons]
    unfold layoutFails
    simp only [smilPagesX, bind, Except.bind]
    cases h1 : unread (slideOf p).image with
    | some e => simp only [h1] at this; rw [this]; rfl
    | none =>
      cases h2 : unread (slideOf p).text with
      | some e => simp only [h1, h2] at this; rw [this]; rfl
      | none =>
        cases h3 : unread (slideOf p).audio with
        | some e => simp only [h1, h2, h3] at this; rw [this]; rfl
        | none =>
          simp only [h1, h2, h3] at this
          split at this
          · next hc => rw [this, if_pos hc]; rfl
          · next hc =>
            obtain ⟨st', g1, g2⟩ := this
            rw [if_neg hc, g1, ← g2]
            exact ih st'

theorem layout_read {ss : List Spec.Labels.Slide} {b : Bool} (h : layoutFails b ss = none) :
    ∀ s ∈ ss, unread s.image = none ∧ unread s.text = none ∧ unread s.audio = none := by
  induction ss generalizing b with
  | nil => intro s hs; cases hs
  | cons a ss ih =>
    unfold layoutFails at h
    intro s hs
    cases h1 : unread a.image with
    | some e => simp [h1] at h
    | none =>
      cases h2 : unread a.text with
      | some e => simp [h1, h2] at h
      | none =>
        cases h3 : unread a.audio with
        | some e => simp [h1, h2, h3] at h
        | none =>
          simp only [h1, h2, h3] at h
          split at h
          · cases h
          · rcases List.mem_cons.1 hs with rfl | hs
            · exact ⟨h1, h2, h3⟩
            · exact ih h s hs

theorem slot_values {α : Type} {x : Option (Py α × Int × Int)} (hy : unread (x.map (·.1)) = none) :
    List.Forall₂ (fun (x : Py α × Int × Int) v => x.1 = .ok v) x.toList (read (x.map (·.1))) := by
  rcases x with _ | ⟨r, b, e⟩
  · exact .nil
  · cases r with
    | error e => cases hy
    | ok v => exact .cons rfl .nil

theorem slides_values {ps : List PageX}
    (hr : ∀ s ∈ ps.map slideOf, unread s.image = none ∧ unread s.text = none ∧ unread s.audio = none) :
    AllValues ps (labels (ps.map slideOf)) ∧ AllTexts ps (texts (ps.map slideOf)) := by
  induction ps with
  | nil => exact ⟨⟨[], .nil, rfl⟩, ⟨[], .nil, rfl⟩⟩
  | cons p ps ih =>
    obtain ⟨⟨l, h1, h2⟩, ⟨l', h3, h4⟩⟩ := ih (fun s hs => hr s (List.mem_cons_of_mem _ hs))
    obtain ⟨r1, r2, r3⟩ := hr (slideOf p) (by simp)
    refine ⟨⟨(read (slideOf p).image ++ read (slideOf p).audio) :: l, .cons ?_ h1, ?_⟩,
      ⟨read (slideOf p).text :: l', .cons ?_ h3, ?_⟩⟩
    · unfold Values
      exact List.rel_append (slot_values r1) (slot_values r3)
    · rw [List.flatten_cons, ← h2]; rfl
    · exact slot_values r2
    · rw [List.flatten_cons, ← h4]; rfl

theorem forall2_unique {α β : Type} {R : α → β → Prop} (hR : ∀ a b c, R a b → R a c → b = c) {l : List α} {x y : List β}
    (h1 : List.Forall₂ R l x) (h2 : List.Forall₂ R l y) : x = y := by
  induction h1 generalizing y with
  | nil => cases h2; rfl
  | cons h _ ih =>
    cases h2 with
    | cons h' t => rw [hR _ _ _ h h', ih t]

theorem allValues_unique {ps : List PageX} {a b : List HVal} (h1 : AllValues ps a) (h2 : AllValues ps b) : a = b := by
  obtain ⟨l, h1, rfl⟩ := h1
  obtain ⟨l', h2, rfl⟩ := h2
  exact congrArg List.flatten (forall2_unique (R := Values) (fun _ _ _ h h' => values_unique h h') h1 h2)

theorem allTexts_unique {ps : List PageX} {a b : List PyStr} (h1 : AllTexts ps a) (h2 : AllTexts ps b) : a = b := by
  obtain ⟨l, h1, rfl⟩ := h1
  obtain ⟨l', h2, rfl⟩ := h2
  refine congrArg List.flatten (forall2_unique (fun p a b h h' => ?_) h1 h2)
  exact forall2_unique (fun x a b g g' => Except.ok.inj (g.symm.trans g')) h h'

/-! ### the head -/

theorem ascii_cons {p : Nat → Prop} {a : Nat} {l : List Nat} : (∃ c ∈ a :: l, p c) ↔ p a ∨ ∃ c ∈ l, p c := by simp

theorem ascii_append {p : Nat → Prop} {a b : List Nat} : (∃ c ∈ a ++ b, p c) ↔ (∃ c ∈ a, p c) ∨ ∃ c ∈ b, p c := by
  simp only [List.mem_append, or_and_right, exists_or]

theorem meta_octets (t : Str × Str) : (∃ c ∈ Xml.write [9, 9] (.elem (py! "meta") [t] []), 127 < c) ↔
    (∃ c ∈ t.1, 127 < c) ∨ ∃ c ∈ t.2, 127 < c := by
  rw [write_empty]
  simp only [sortAttrs, insertAttr, List.flatMap_cons, List.flatMap_nil, List.append_nil, xmlAttr]
  simp only [ascii_append, escape_ascii]
  simp

theorem layout_octets (w h : Int) : ¬ ∃ c ∈ Xml.write [9, 9] (.elem (py! "layout") []
       [.elem (py! "root-layout") [(py! "width", intStr w), (py! "height", intStr h)] [],
        regionXml (py! "Image") (py! "0") (py! "0") (py! "176") (py! "144"),
        regionXml (py! "Text") (py! "176") (py! "144") (py! "176") (py! "76")]), 127 < c := by
  have he : ([9, 9] ++ [9] : Str) = [9, 9, 9] := rfl
  have hr : ¬ ∃ c ∈ Xml.write [9, 9, 9] (.elem (py! "root-layout") [(py! "width", intStr w), (py! "height", intStr h)] []), 127 < c := by
    rw [write_empty]
    have : sortAttrs [(py! "width", intStr w), (py! "height", intStr h)] = [(py! "height", intStr h), (py! "width", intStr w)] := rfl
    rw [this]
    have hw : ∀ n : Int, ¬ ∃ c ∈ intStr n, 127 < c := by
      rintro n ⟨c, hc, h⟩
      have := intStr_ascii n c hc
      omega
    simp only [List.flatMap_cons, List.flatMap_nil, List.append_nil, xmlAttr, ascii_append, escape_ascii, hw]
    decide
  rw [write_full _ _ _ _ (by simp), he]
  simp only [List.flatMap_cons, List.flatMap_nil, List.append_nil, ascii_append, hr]
  have h1 : ¬ ∃ c ∈ Xml.write [9, 9, 9] (regionXml (py! "Image") (py! "0") (py! "0") (py! "176") (py! "144")), 127 < c := by
    decide +kernel
  have h2 : ¬ ∃ c ∈ Xml.write [9, 9, 9] (regionXml (py! "Text") (py! "176") (py! "144") (py! "176") (py! "76")), 127 < c := by
    decide +kernel
  simp only [h1, h2]
  decide

theorem head_octets (m : Msg) : (∃ c ∈ Xml.write [9] m.smilHead, 127 < c) ↔
    ∃ t ∈ m.metaTags, (∃ c ∈ t.1, 127 < c) ∨ ∃ c ∈ t.2, 127 < c := by
  unfold Msg.smilHead
  rw [write_full _ _ _ _ (by simp)]
  have he : ([9] ++ [9] : Str) = [9, 9] := rfl
  rw [he, List.flatMap_append, List.flatMap_map]
  simp only [List.flatMap_cons, List.flatMap_nil, List.append_nil, ascii_append, layout_octets]
  have h1 : (∃ c ∈ m.metaTags.flatMap (fun t => Xml.write [9, 9] (.elem (py! "meta") [t] [])), 127 < c) ↔
      ∃ t ∈ m.metaTags, (∃ c ∈ t.1, 127 < c) ∨ ∃ c ∈ t.2, 127 < c := by
    simp only [List.mem_flatMap]
    constructor
    · rintro ⟨c, ⟨t, ht, hc⟩, h⟩
      exact ⟨t, ht, (meta_octets t).1 ⟨c, hc, h⟩⟩
    · rintro ⟨t, ht, h⟩
      obtain ⟨c, hc, h⟩ := (meta_octets t).2 h
      exact ⟨c, ⟨t, ht, hc⟩, h⟩
  rw [h1]
  simp [sortAttrs]

/-! ### the text -/

theorem findSome_filter {α β : Type} (f : α → Option β) (p : α → Bool) (l : List α) (h : ∀ a ∈ l, p a = false → f a = none) :
    (l.filter p).findSome? f = l.findSome? f := by
  induction l with
  | nil => rfl
  | cons a l ih =>
    have ih := ih (fun a ha => h a (List.mem_cons_of_mem _ ha))
    by_cases hp : p a = true
    · rw [List.filter_cons_of_pos hp, List.findSome?_cons, List.findSome?_cons, ih]
    · rw [List.filter_cons_of_neg hp, List.findSome?_cons, h a (by simp) (by simpa using hp), ih]

theorem has_start : Verif.Mms.Has { pars := [], textNode := none, uid := 0 } [] :=
  ⟨List.Perm.refl _, List.nodup_nil, by simp, by simp, rfl, by simp⟩

/-- what `smil()` collects, when the slides can be laid out -/
theorem written {ps : List PageX} {ss : List Spec.Labels.Slide} (h : ss = ps.map slideOf) {st : SmilX}
    (hst : smilPagesX { pars := [], textNode := none, uid := 0 } ps = .ok st) :
    ∃ all, Writes (writeBody [9] st.pars) (Xml.write [9] (.elem (py! "body") [] (st.pars.map (fun p => p.lower.toXml)))) all ∧
      all.findSome? badOf = (labels ss).findSome? labelFails ∧
      ((∃ v ∈ all, IsUni v) ↔ HasUnicode ss) ∧
      ((∃ v ∈ all, NotAscii v) ↔ (∃ s, .v (.str s) ∈ labels ss ∧ ∃ c ∈ s, 127 < c) ∨ ∃ t ∈ texts ss, t.uni = false ∧ ∃ c ∈ t.s, 127 < c) := by
  subst h
  have hlay : layoutFails false (ps.map slideOf) = none := by
    have := pages_fail ps { pars := [], textNode := none, uid := 0 }
    rw [hst] at this
    exact this.symm
  obtain ⟨hv, ht⟩ := slides_values (layout_read hlay)
  obtain ⟨new, vs, ts, g1, g2, g3, g4, g5⟩ := pages_has hst has_start
  rw [allValues_unique g2 hv] at g4
  rw [allTexts_unique g3 ht] at g5
  rw [List.nil_append] at g1
  have hmem : ∀ v, v ∈ st.nodes.map NodeX.src ↔ v ∈ labels (ps.map slideOf) ∨ ∃ t ∈ texts (ps.map slideOf), v = strVal t := by
    intro v
    rw [(g1.perm.map NodeX.src).mem_iff, ← g4]
    constructor
    · intro hv
      obtain ⟨n, hn, rfl⟩ := List.mem_map.1 hv
      by_cases htag : n.tag = py! "text"
      · right
        have : n.src ∈ (new.filter (fun n => n.tag = py! "text")).map NodeX.src :=
          List.mem_map_of_mem (List.mem_filter.2 ⟨hn, by simp [htag]⟩)
        rw [g5] at this
        obtain ⟨t, ht, he⟩ := List.mem_map.1 this
        exact ⟨t, ht, he.symm⟩
      · exact .inl (List.mem_map_of_mem (List.mem_filter.2 ⟨hn, by simp [htag]⟩))
    · rintro (hv | ⟨t, ht, rfl⟩)
      · obtain ⟨n, hn, rfl⟩ := List.mem_map.1 hv
        exact List.mem_map_of_mem (List.mem_filter.1 hn).1
      · have : strVal t ∈ (new.filter (fun n => n.tag = py! "text")).map NodeX.src := by
          rw [g5]
          exact List.mem_map_of_mem ht
        obtain ⟨n, hn, he⟩ := List.mem_map.1 this
        rw [← he]
        exact List.mem_map_of_mem (List.mem_filter.1 hn).1
  refine ⟨st.nodes.map NodeX.src, ?_, ?_, ?_, ?_⟩
  · refine writes_body ?_
    intro p hp n hn
    exact g1.ok n (g1.perm.mem_iff.1 (List.mem_flatMap.2 ⟨p, hp, hn⟩))
  · have : (labels (ps.map slideOf)).findSome? labelFails = (labels (ps.map slideOf)).findSome? badOf := by
      congr 1
      funext v
      exact (labelFails_eq v).symm
    rw [this, ← g4, ← g1.media]
    rw [List.findSome?_map, List.findSome?_map]
    refine (findSome_filter _ _ _ ?_).symm
    intro n hn htag
    simp only [ne_eq, decide_not, Bool.not_eq_false', decide_eq_true_eq] at htag
    have : n.src ∈ (new.filter (fun n => n.tag = py! "text")).map NodeX.src :=
      List.mem_map_of_mem (List.mem_filter.2 ⟨g1.perm.mem_iff.1 hn, by simp [htag]⟩)
    rw [g5] at this
    obtain ⟨t, _, he⟩ := List.mem_map.1 this
    simp only [Function.comp, ← he]
    exact bad_strVal _
  · unfold HasUnicode IsUni
    constructor
    · rintro ⟨v, hv, s, rfl, hs⟩
      rcases (hmem _).1 hv with hv | ⟨t, ht, he⟩
      · exact .inl ⟨s, hv, hs⟩
      · obtain ⟨u, t⟩ := t
        cases u
        · cases he
        · cases he
          exact .inr ⟨_, ht, rfl, hs⟩
    · rintro (⟨s, hv, hs⟩ | ⟨⟨u, s⟩, hv, hu, hs⟩)
      · exact ⟨_, (hmem _).2 (.inl hv), s, rfl, hs⟩
      · cases hu
        exact ⟨_, (hmem _).2 (.inr ⟨_, hv, rfl⟩), s, rfl, hs⟩
  · unfold NotAscii
    constructor
    · rintro ⟨v, hv, s, rfl, hs⟩
      rcases (hmem _).1 hv with hv | ⟨t, ht, he⟩
      · exact .inl ⟨s, hv, hs⟩
      · obtain ⟨u, t⟩ := t
        cases u
        · cases he
          exact .inr ⟨_, ht, rfl, hs⟩
        · cases he
    · rintro (⟨s, hv, hs⟩ | ⟨⟨u, s⟩, hv, hu, hs⟩)
      · exact ⟨_, (hmem _).2 (.inl hv), s, rfl, hs⟩
      · cases hu
        exact ⟨_, (hmem _).2 (.inr ⟨_, hv, rfl⟩), s, rfl, hs⟩

/-- the result of `smil()` when the slides can be laid out -/
theorem smil_result {env : Env} {kinds : Nat → Kinds} {m : Msg} {ss : List Spec.Labels.Slide} (h : SlidesAre env kinds m.pages ss)
    {st : SmilX} (hst : smilPagesX { pars := [], textNode := none, uid := 0 } (pagesX env kinds m.pages) = .ok st) :
    (∃ e, (labels ss).findSome? labelFails = some e ∧ m.smilU env kinds = .error e) ∨
    ((labels ss).findSome? labelFails = none ∧ HasUnicode ss ∧ HasOctets m.metaTags ss ∧ m.smilU env kinds = .error .unicodeError) ∨
    ((labels ss).findSome? labelFails = none ∧ ¬ (HasUnicode ss ∧ HasOctets m.metaTags ss) ∧
      ∃ u, m.smilU env kinds = .ok ⟨u, Xml.write [] (.elem (py! "smil") [] [m.smilHead, .elem (py! "body") [] (st.pars.map (fun p => p.lower.toXml))])⟩ ∧
        (u = true ↔ HasUnicode ss)) := by
  obtain ⟨all, hw, h1, h2, h3⟩ := written (slides_iff.1 h) hst
  have hx : m.smilU env kinds = (do
      let body ← writeBody [9] st.pars
      joinChunks ([.str (py! "<smil>\n" ++ Xml.write [9] m.smilHead)] ++ body ++ [.str (py! "</smil>\n")])) := by
    unfold Msg.smilU
    rw [hst]
    rfl
  rcases hw with ⟨e, a1, a2⟩ | ⟨a1, l, a2, a3, a4, a5⟩
  · left
    refine ⟨e, by rw [← h1, a1], ?_⟩
    rw [hx, a2]
    rfl
  · right
    rw [h1] at a1
    have htext : ([.str (py! "<smil>\n" ++ Xml.write [9] m.smilHead)] ++ l ++ [.str (py! "</smil>\n")] : List Chunk).flatMap Chunk.chars =
        Xml.write [] (.elem (py! "smil") [] [m.smilHead, .elem (py! "body") [] (st.pars.map (fun p => p.lower.toXml))]) := by
      rw [List.flatMap_append, List.flatMap_append, a3, write_full [] _ _ _ (by simp)]
      simp only [List.flatMap_cons, List.flatMap_nil, List.append_nil, Chunk.chars, sortAttrs, List.append_assoc]
      rfl
    have huni : ([.str (py! "<smil>\n" ++ Xml.write [9] m.smilHead)] ++ l ++ [.str (py! "</smil>\n")] : List Chunk).any Chunk.isUni = true ↔
        HasUnicode ss := by
      rw [List.any_append, List.any_append, ← h2, ← a4]
      simp [Chunk.isUni]
    have hasc : notAscii ([.str (py! "<smil>\n" ++ Xml.write [9] m.smilHead)] ++ l ++ [.str (py! "</smil>\n")] : List Chunk) = true ↔
        HasOctets m.metaTags ss := by
      have e2 := not_ascii_str (s := py! "</smil>\n") (by decide)
      have e1 : notAscii [.str (py! "<smil>\n" ++ Xml.write [9] m.smilHead)] = true ↔
          ∃ t ∈ m.metaTags, (∃ c ∈ t.1, 127 < c) ∨ ∃ c ∈ t.2, 127 < c := by
        rw [← head_octets]
        simp only [notAscii, List.any_cons, List.any_nil, Bool.or_false, Chunk.isUni, Chunk.chars, Bool.not_false, Bool.true_and,
          List.any_eq_true, decide_eq_true_eq, ascii_append]
        simp
      unfold notAscii at e1 e2 a5 ⊢
      rw [List.any_append, List.any_append, e2, Bool.or_false, Bool.or_eq_true, e1, a5, h3]
      unfold HasOctets
      rw [or_comm, or_assoc]
    unfold notAscii at hasc
    by_cases hu : HasUnicode ss
    · by_cases ho : HasOctets m.metaTags ss
      · left
        refine ⟨a1, hu, ho, ?_⟩
        rw [hx, a2]
        simp only [bind, Except.bind, joinChunks]
        rw [if_pos (huni.2 hu), if_pos (hasc.2 ho)]
      · right
        refine ⟨a1, fun h => ho h.2, true, ?_, by simp [hu]⟩
        rw [hx, a2]
        simp only [bind, Except.bind, joinChunks]
        rw [if_pos (huni.2 hu), if_neg (fun h => ho (hasc.1 h)), htext]
    · right
      refine ⟨a1, fun h => hu h.1, false, ?_, by simp [hu]⟩
      rw [hx, a2]
      simp only [bind, Except.bind, joinChunks]
      rw [if_neg (fun h => hu (huni.1 h)), htext]

theorem fails_unique {tags : Dict Str} {ss : List Spec.Labels.Slide} {a b : Option PyErr} (h1 : Fails tags ss a) (h2 : Fails tags ss b) :
    a = b := by
  cases h1 <;> cases h2 <;> simp_all

/-- whether `smil()` succeeds, with data of any types -/
theorem typed_exact (env : Env) (kinds : Nat → Kinds) (m : Msg) (slides : List Spec.Labels.Slide)
    (h : SlidesAre env kinds m.pages slides) : ∀ r, Fails m.metaTags slides r ↔ raised (m.smilU env kinds) = r := by
  have hf := pages_fail (pagesX env kinds m.pages) { pars := [], textNode := none, uid := 0 }
  rw [← slides_iff.1 h] at hf
  have hex : Fails m.metaTags slides (raised (m.smilU env kinds)) := by
    cases hst : smilPagesX { pars := [], textNode := none, uid := 0 } (pagesX env kinds m.pages) with
    | error e =>
      rw [hst] at hf
      have : m.smilU env kinds = .error e := by unfold Msg.smilU; rw [hst]; rfl
      rw [this]
      exact .layout e hf.symm
    | ok st =>
      rw [hst] at hf
      rcases smil_result h hst with ⟨e, h1, h2⟩ | ⟨h1, h2, h3, h4⟩ | ⟨h1, h2, u, h3, h4⟩
      · rw [h2]; exact .label e hf.symm h1
      · rw [h4]; exact .mixed hf.symm h1 h2 h3
      · rw [h3]; exact .fine hf.symm h1 h2
  intro r
  exact ⟨fun hr => fails_unique hex hr, fun hr => hr ▸ hex⟩

/-- C98: whether `smil()` succeeds, and the exception it raises if not, for labels of any type. -/
theorem C98_exact (env : Env) (m : Msg) (slides : List Spec.Labels.Slide) (h : List.Forall₂ (SlideIs env) m.pages slides) :
    ∀ r, Fails m.metaTags slides r ↔ raised (m.smilX env) = r :=
  typed_exact env _ m slides (slides_str h)

/-! ### the same message with labels of type `str` -/

/-- a unicode label as a `str` with the same characters -/
def plainValue : HVal → HVal
  | .v (.uni s) => .v (.str s)
  | x => x

/-- a header of a part: only the two labels change -/
def plainHeader (h : Str) (v : HVal) : HVal := if h = py! "Content-Location" ∨ h = py! "Content-ID" then plainValue v else v

def strLabelsPart (p : DataPart) : DataPart := { p with headers := p.headers.map (fun e => (e.1, plainHeader e.1 e.2)) }

def strLabelsPage (p : Page) : Page :=
  { p with image := p.image.map (fun x => (strLabelsPart x.1, x.2)), audio := p.audio.map (fun x => (strLabelsPart x.1, x.2)) }

/-- the message with all unicode labels of images and audio clips as `str` -/
def strLabels (m : Msg) : Msg := { m with pages := m.pages.map strLabelsPage }

theorem plain_get (d : Dict HVal) (h : Str) :
    Dict.get (d.map (fun e => (e.1, plainHeader e.1 e.2))) h = (Dict.get d h).map (plainHeader h) := by
  induction d with
  | nil => rfl
  | cons e d ih =>
    simp only [List.map_cons, Dict.get]
    by_cases he : e.1 = h
    · simp [he]
    · simp only [if_neg he]
      exact ih

theorem src_plain {v : HVal} (hb : badOf v = none) : srcText (plainValue v) = .ok (charsOf v) := by
  rcases v with x | ⟨n, x⟩ | ⟨m, d⟩
  · cases x with
    | str s => rfl
    | uni s => rfl
    | int n =>
      by_cases hn : n = 0
      · simp [plainValue, srcText, hn, charsOf]
      · simp [badOf, writeData, hn] at hb
    | bool b =>
      cases b
      · rfl
      · cases hb
    | flt n d =>
      by_cases hn : n = 0
      · simp [plainValue, srcText, hn, charsOf]
      · simp [badOf, writeData, hn] at hb
    | none => rfl
    | dt d => cases hb
  · cases hb
  · cases hb

theorem plain_sim (env : Env) (u : Bool) (p : DataPart) : SrcSim env (srcValue env u p) (strLabelsPart p) := by
  intro v hv hb
  unfold srcValue at hv
  unfold srcOf
  simp only [strLabelsPart, plain_get]
  cases hl : p.headers.get (py! "Content-Location") with
  | some x =>
    rw [hl] at hv
    cases hv
    simp only [Option.map_some, plainHeader, true_or, if_true]
    exact src_plain hb
  | none =>
    rw [hl] at hv
    simp only [Option.map_none]
    cases hi : p.headers.get (py! "Content-ID") with
    | some x =>
      simp only [hi] at hv
      cases hv
      simp only [Option.map_some, plainHeader, or_true, if_true]
      exact src_plain hb
    | none =>
      simp only [hi] at hv
      simp only [Option.map_none]
      obtain ⟨d, hd, hv⟩ := bind_ok_invE hv
      cases hv
      obtain ⟨d', hd', h⟩ := bind_ok_invE hd
      cases h
      rw [chars_strVal]
      exact hd'

theorem slot_sim {α : Type} {R : Py α → DataPart → Prop} (g : DataPart → Py α) (f : DataPart → DataPart) (h : ∀ p, R (g p) (f p))
    (o : Option (DataPart × Int × Int)) : SlotSim R (o.map (fun x => (g x.1, x.2))) (o.map (fun x => (f x.1, x.2))) := by
  cases o with
  | none => exact .none
  | some x => exact .some (g x.1) (f x.1) x.2.1 x.2.2 (h _)

theorem text_sim (env : Env) (u : Bool) (p : DataPart) : TextSim env (readTyped env u p) p := by
  intro v hv
  obtain ⟨d, hd, h⟩ := bind_ok_invE hv
  cases h
  exact hd

theorem page_sim (env : Env) (k : Kinds) (p : Page) : PageSim env (p.values env k) (strLabelsPage p) := by
  refine ⟨rfl, slot_sim _ strLabelsPart (plain_sim env _) _, ?_, slot_sim _ strLabelsPart (plain_sim env _) _⟩
  have := slot_sim (readTyped env k.text) (fun x => x) (text_sim env _) p.text
  simp only [Option.map_id'] at this
  exact this

theorem pages_plain (env : Env) (kinds : Nat → Kinds) (ps : List Page) :
    List.Forall₂ (PageSim env) (pagesX env kinds ps) (ps.map strLabelsPage) := by
  induction ps generalizing kinds with
  | nil => exact .nil
  | cons p ps ih => exact .cons (page_sim env _ p) (ih _)

theorem slides_exist (env : Env) (kinds : Nat → Kinds) (ps : List Page) : ∃ ss, SlidesAre env kinds ps ss := ⟨_, slides_iff.2 rfl⟩

theorem typed_same (env : Env) (kinds : Nat → Kinds) (m : Msg) (slides : List Spec.Labels.Slide) (h : SlidesAre env kinds m.pages slides)
    (t : PyStr) (ht : m.smilU env kinds = .ok t) :
    (strLabels m).smil env = .ok t.s ∧ (t.uni = true ↔ HasUnicode slides) := by
  cases hst : smilPagesX { pars := [], textNode := none, uid := 0 } (pagesX env kinds m.pages) with
  | error e =>
    have : m.smilU env kinds = .error e := by unfold Msg.smilU; rw [hst]; rfl
    rw [this] at ht
    cases ht
  | ok st =>
    rcases smil_result h hst with ⟨e, h1, h2⟩ | ⟨h1, h2, h3, h4⟩ | ⟨h1, h2, u, h3, h4⟩
    · rw [h2] at ht; cases ht
    · rw [h4] at ht; cases ht
    · rw [h3] at ht
      cases ht
      refine ⟨?_, h4⟩
      have hf := pages_fail (pagesX env kinds m.pages) { pars := [], textNode := none, uid := 0 }
      rw [hst] at hf
      have hv := (slides_values (layout_read hf.symm)).1
      rw [← slides_iff.1 h] at hv
      have := pages_sim hst (pages_plain env kinds m.pages) (by
        intro vs hvs v hv'
        rw [allValues_unique hvs hv] at hv'
        rw [labelFails_eq]
        exact List.findSome?_eq_none_iff.1 h1 v hv')
        has_start
      have hl : (⟨[], none, 0⟩ : SmilX).lower = ⟨[], none, 0⟩ := rfl
      rw [hl] at this
      unfold Msg.smil Msg.smilDoc Msg.smilBody
      simp only [strLabels, this, bind, Except.bind]
      simp only [SmilX.lower, List.map_map]
      rfl

/-- C98: when it succeeds, the text has the characters of that of the message with the labels as `str`, and is `unicode`
exactly if a label is. -/
theorem C98_same (env : Env) (m : Msg) (slides : List Spec.Labels.Slide) (h : List.Forall₂ (SlideIs env) m.pages slides)
    (t : PyStr) (ht : m.smilX env = .ok t) :
    (strLabels m).smil env = .ok t.s ∧ (t.uni = true ↔ HasUnicode slides) :=
  typed_same env _ m slides (slides_str h) t ht

/-! ### the simpler model -/

theorem srcText_ok {v : HVal} {s : Str} (h : srcText v = .ok s) : badOf v = none ∧ plainValue v = v := by
  rcases v with x | ⟨n, x⟩ | ⟨m, d⟩
  · cases x with
    | str s => exact ⟨rfl, rfl⟩
    | uni s => cases h
    | int n =>
      simp only [srcText] at h
      split at h
      · next hn => exact ⟨by simp [badOf, writeData, hn], rfl⟩
      · cases h
    | bool b =>
      cases b
      · exact ⟨rfl, rfl⟩
      · cases h
    | flt n d =>
      simp only [srcText] at h
      split at h
      · next hn => exact ⟨by simp [badOf, writeData, hn], rfl⟩
      · cases h
    | none => exact ⟨rfl, rfl⟩
    | dt d => cases h
  · cases h
  · cases h

theorem srcOf_ok {env : Env} {p : DataPart} {s : Str} (h : srcOf env p = .ok s) :
    ∃ v, srcValue env false p = .ok v ∧ badOf v = none ∧ plainValue v = v ∧ charsOf v = s := by
  have key : ∀ v s, srcText v = .ok s → badOf v = none ∧ plainValue v = v ∧ charsOf v = s := by
    intro v s h
    obtain ⟨h1, h2⟩ := srcText_ok h
    have := src_plain h1
    rw [h2, h] at this
    exact ⟨h1, h2, (Except.ok.inj this).symm⟩
  unfold srcOf at h
  unfold srcValue
  cases hl : p.headers.get (py! "Content-Location") with
  | some x => rw [hl] at h; exact ⟨x, rfl, key x s h⟩
  | none =>
    rw [hl] at h
    cases hi : p.headers.get (py! "Content-ID") with
    | some x => simp only [hi] at h; exact ⟨x, rfl, key x s h⟩
    | none =>
      simp only [hi] at h
      refine ⟨.v (.str s), ?_, rfl, rfl, rfl⟩
      simp only [readTyped, h, bind, Except.bind, Bool.false_and]
      rfl

/-- all labels of the page that are used are good -/
def GoodPage (env : Env) (p : Page) : Prop :=
  ∀ x ∈ p.image.toList ++ p.audio.toList, ∃ v, srcValue env false x.1 = .ok v ∧ badOf v = none ∧ plainValue v = v

theorem good_page {env : Env} {st : SmilSt} {st' : SmilSt} {p : Page} (h : smilPage env st p = .ok st') : GoodPage env p ∧
    ∀ sx : SmilX, sx.textNode.isSome = st.textNode.isSome → ∃ sx', smilPageX sx (p.values env .str) = .ok sx' ∧ sx'.textNode.isSome = st'.textNode.isSome := by
  unfold smilPage at h
  obtain ⟨img, hi, h⟩ := bind_ok_invE h
  obtain ⟨txt, ht, h⟩ := bind_ok_invE h
  have hi' : (∀ x ∈ p.image.toList, ∃ v, srcValue env false x.1 = .ok v ∧ badOf v = none ∧ plainValue v = v) ∧
      ∀ u, ∃ l, smilImageX (p.values env .str) u = .ok l := by
    unfold smilImage at hi
    unfold smilImageX
    simp only [Page.values]
    cases hp : p.image with
    | none => exact ⟨fun x hx => (by cases hx), fun u => ⟨[], rfl⟩⟩
    | some x =>
      rw [hp] at hi
      obtain ⟨s, hs, _⟩ := bind_ok_invE hi
      obtain ⟨v, hv, h1, h2, _⟩ := srcOf_ok hs
      refine ⟨?_, fun u => ?_⟩
      · intro y hy
        rw [Option.toList_some, List.mem_singleton] at hy
        subst hy
        exact ⟨v, hv, h1, h2⟩
      · obtain ⟨part, b, e⟩ := x
        simp only [Option.map_some, Kinds.str, hv, bind, Except.bind]
        exact ⟨_, rfl⟩
  have ht' : ∀ u, ∃ o, smilTextX (p.values env .str) u = .ok o ∧ o.isSome = txt.isSome := by
    intro u
    unfold smilText at ht
    unfold smilTextX
    simp only [Page.values]
    cases hp : p.text with
    | none => rw [hp] at ht; cases ht; exact ⟨none, rfl, rfl⟩
    | some x =>
      rw [hp] at ht
      obtain ⟨part, b, e⟩ := x
      obtain ⟨s, hs, ht⟩ := bind_ok_invE ht
      cases ht
      simp only [Option.map_some, readTyped, hs, bind, Except.bind]
      exact ⟨_, rfl, rfl⟩
  cases ha : p.audio with
  | none =>
    rw [ha] at h
    injection h with h
    subst h
    refine ⟨by unfold GoodPage; rw [ha]; simpa using hi'.1, ?_⟩
    intro sx hsx
    obtain ⟨l, hl⟩ := hi'.2 sx.uid
    obtain ⟨o, ho, ho'⟩ := ht' (sx.uid + 1)
    unfold smilPageX
    have hau : (p.values env .str).audio = none := by simp only [Page.values, ha, Option.map_none]
    simp only [hl, ho, hau, bind, Except.bind]
    refine ⟨_, rfl, ?_⟩
    cases o <;> cases txt <;> simp_all
  | some x =>
    obtain ⟨part, b, e⟩ := x
    rw [ha] at h
    obtain ⟨s, hs, h⟩ := bind_ok_invE h
    obtain ⟨v, hv, h1, h2, _⟩ := srcOf_ok hs
    refine ⟨?_, ?_⟩
    · unfold GoodPage
      rw [ha]
      intro y hy
      rcases List.mem_append.1 hy with hy | hy
      · exact hi'.1 y hy
      · rw [Option.toList_some, List.mem_singleton] at hy
        subst hy
        exact ⟨v, hv, h1, h2⟩
    · intro sx hsx
      obtain ⟨l, hl⟩ := hi'.2 sx.uid
      obtain ⟨o, ho, ho'⟩ := ht' (sx.uid + 1)
      unfold smilPageX
      have hau : (p.values env .str).audio = some (.ok v, b, e) := by
        simp only [Page.values, ha, Option.map_some, Kinds.str, hv]
      simp only [hl, ho, hau, bind, Except.bind]
      cases o with
      | some t =>
        refine ⟨_, rfl, ?_⟩
        cases txt with
        | none => cases ho'
        | some t' => cases h; rfl
      | none =>
        cases txt with
        | some t' => cases ho'
        | none =>
          simp only at h ⊢
          cases hn : st.textNode with
          | none => rw [hn] at h; cases h
          | some t =>
            rw [hn] at h hsx
            cases hx : sx.textNode with
            | none => rw [hx] at hsx; cases hsx
            | some t' => cases h; exact ⟨_, rfl, rfl⟩

theorem good_pages {env : Env} {ps : List Page} {st st' : SmilSt} (h : smilPages env st ps = .ok st') : (∀ p ∈ ps, GoodPage env p) ∧
    ∀ sx : SmilX, sx.textNode.isSome = st.textNode.isSome → ∃ sx', smilPagesX sx (pagesX env (fun _ => .str) ps) = .ok sx' := by
  induction ps generalizing st with
  | nil => exact ⟨fun p hp => (by cases hp), fun sx _ => ⟨sx, rfl⟩⟩
  | cons p ps ih =>
    obtain ⟨st1, h1, h2⟩ := bind_ok_invE h
    obtain ⟨g1, g2⟩ := good_page h1
    obtain ⟨i1, i2⟩ := ih h2
    refine ⟨?_, ?_⟩
    · intro q hq
      rcases List.mem_cons.1 hq with rfl | hq
      · exact g1
      · exact i1 q hq
    · intro sx hsx
      obtain ⟨sx1, k1, k2⟩ := g2 sx hsx
      obtain ⟨sx', k3⟩ := i2 sx1 k2
      exact ⟨sx', by simp only [pagesX, smilPagesX, k1, bind, Except.bind, k3]⟩

theorem good_values {env : Env} {ps : List Page} (h : ∀ p ∈ ps, GoodPage env p) {vs : List HVal}
    (hv : AllValues (pagesX env (fun _ => .str) ps) vs) : ∀ v ∈ vs, badOf v = none ∧ plainValue v = v := by
  obtain ⟨l, hl, rfl⟩ := hv
  induction ps generalizing l with
  | nil => cases hl; intro v hv; cases hv
  | cons p ps ih =>
    cases hl with
    | @cons _ x _ l hx hl =>
      intro v hv
      rw [List.flatten_cons] at hv
      rcases List.mem_append.1 hv with hv' | hv'
      · clear hv
        have hg := h p (by simp)
        unfold GoodPage at hg
        unfold Values at hx
        have he : (p.values env .str).image.toList ++ (p.values env .str).audio.toList =
            (p.image.toList ++ p.audio.toList).map (fun x => (srcValue env false x.1, x.2)) := by
          simp only [Page.values, Kinds.str, List.map_append]
          cases p.image <;> cases p.audio <;> rfl
        rw [he] at hx
        generalize p.image.toList ++ p.audio.toList = w at hg hx
        induction w generalizing x with
        | nil => cases hx; cases hv'
        | cons a w ih' =>
          cases hx with
          | cons hab hx =>
            rcases List.mem_cons.1 hv' with rfl | hv'
            · obtain ⟨v', hv1, g1, g2⟩ := hg a (by simp)
              have hab := hv1.symm.trans hab
              cases hab
              exact ⟨g1, g2⟩
            · exact ih' hv' (fun y hy => hg y (List.mem_cons_of_mem _ hy)) hx
      · exact ih (fun p hp => h p (List.mem_cons_of_mem _ hp)) l hl v hv'

theorem texts_str {env : Env} {ps : List Page} {t : PyStr} (h : t ∈ texts ((pagesX env (fun _ => .str) ps).map slideOf)) :
    t.uni = false := by
  induction ps with
  | nil => cases h
  | cons p ps ih =>
    simp only [pagesX, texts, List.map_cons, List.flatMap_cons, List.mem_append] at h
    rcases h with h | h
    · simp only [slideOf, Page.values] at h
      cases hp : p.text with
      | none => rw [hp] at h; cases h
      | some x =>
        simp only [hp, Option.map_some, readTyped, Kinds.str, Bool.false_and] at h
        cases hr : x.1.readData env with
        | error e => simp [hr, bind, Except.bind, Spec.Labels.read] at h
        | ok d =>
          simp only [hr, bind, Except.bind, Spec.Labels.read, List.mem_singleton] at h
          rw [h]
    · exact ih h

/-- C98: the simpler model of `smil()`, which the other theorems on presentations are about, agrees whenever it succeeds. -/
theorem C98_agrees (env : Env) (m : Msg) (s : Str) (h : m.smil env = .ok s) : m.smilX env = .ok ⟨false, s⟩ := by
  unfold Msg.smil Msg.smilDoc Msg.smilBody at h
  obtain ⟨doc, h1, h2⟩ := bind_ok_invE h
  obtain ⟨pars, h3, h4⟩ := bind_ok_invE h1
  obtain ⟨st, h5, h6⟩ := bind_ok_invE h3
  obtain ⟨g1, g2⟩ := good_pages h5
  obtain ⟨sx, hsx⟩ := g2 ⟨[], none, 0⟩ rfl
  obtain ⟨ss, hss⟩ := slides_exist env (fun _ => .str) m.pages
  have hf := pages_fail (pagesX env (fun _ => .str) m.pages) { pars := [], textNode := none, uid := 0 }
  rw [hsx] at hf
  have hv := (slides_values (layout_read hf.symm)).1
  rw [← slides_iff.1 hss] at hv
  have hnt : ∀ t ∈ texts ss, t.uni = false := by
    intro t ht
    rw [slides_iff.1 hss] at ht
    exact texts_str ht
  have hgood := good_values g1 hv
  have hnu : ¬ HasUnicode ss := by
    rintro (⟨u, hu, _⟩ | ⟨t, ht, hu, _⟩)
    · have := (hgood _ hu).2
      cases this
    · rw [hnt t ht] at hu
      cases hu
  have hself : List.Forall₂ (PageSim env) (pagesX env (fun _ => .str) m.pages) m.pages := by
    have : ∀ ps : List Page, (∀ p ∈ ps, GoodPage env p) → List.Forall₂ (PageSim env) (pagesX env (fun _ => .str) ps) ps := by
      intro ps hps
      induction ps with
      | nil => exact .nil
      | cons p ps ih =>
        refine .cons ?_ (ih (fun p hp => hps p (List.mem_cons_of_mem _ hp)))
        have hs : ∀ o : Option (DataPart × Int × Int), (∀ x ∈ o.toList, ∃ v, srcValue env false x.1 = .ok v ∧ badOf v = none ∧ plainValue v = v) →
            SlotSim (SrcSim env) (o.map (fun x => (srcValue env false x.1, x.2))) o := by
          intro o ho
          cases o with
          | none => exact .none
          | some x =>
            refine .some _ x.1 x.2.1 x.2.2 ?_
            intro v hv hb
            obtain ⟨v', hv', _, hp'⟩ := ho x (by simp)
            rw [hv] at hv'
            cases hv'
            unfold srcValue at hv
            unfold srcOf
            have := src_plain hb
            rw [hp'] at this
            cases hl : x.1.headers.get (py! "Content-Location") with
            | some y => rw [hl] at hv; cases hv; exact this
            | none =>
              rw [hl] at hv
              simp only
              cases hi : x.1.headers.get (py! "Content-ID") with
              | some y => simp only [hi] at hv; cases hv; exact this
              | none =>
                simp only [hi] at hv
                obtain ⟨d, hd, hv⟩ := bind_ok_invE hv
                cases hv
                obtain ⟨d', hd', h⟩ := bind_ok_invE hd
                cases h
                rw [chars_strVal]
                exact hd'
        have hg := hps p (by simp)
        refine ⟨rfl, hs _ (fun x hx => hg x (List.mem_append_left _ hx)), ?_, hs _ (fun x hx => hg x (List.mem_append_right _ hx))⟩
        have := slot_sim (readTyped env false) (fun x => x) (text_sim env _) p.text
        simp only [Option.map_id'] at this
        exact this
    exact this _ g1
  have hsim := pages_sim hsx hself (by
    intro vs hvs v hv'
    exact (good_values g1 hvs v hv').1) has_start
  have hl : (⟨[], none, 0⟩ : SmilX).lower = ⟨[], none, 0⟩ := rfl
  rw [hl, h5] at hsim
  cases hsim
  cases h6
  cases h4
  cases h2
  rcases smil_result hss hsx with ⟨e, k1, k2⟩ | ⟨k1, k2, k3, k4⟩ | ⟨k1, k2, u, k3, k4⟩
  · obtain ⟨v, hv1, hv2⟩ := List.exists_of_findSome?_eq_some k1
    rw [← labelFails_eq, (hgood v hv1).1] at hv2
    cases hv2
  · exact absurd k2 hnu
  · unfold Msg.smilX
    rw [k3]
    have : u = false := by
      cases u
      · rfl
      · exact absurd (k4.1 rfl) hnu
    subst this
    simp only [SmilX.lower, List.map_map]
    rfl

/-! ### whole messages -/

/-- octets or exception of `encode()` -/
def answer {σ α : Type} : Res σ α → Py α
  | .ok a _ => .ok a
  | .err e _ => .error e

theorem plain_value (h : Str) (v : HVal) : encodeWspHeader h (plainHeader h v) = encodeWspHeader h v := by
  unfold plainHeader
  split
  · next hh =>
    have h1 : h ≠ py! "Accept" ∧ h ≠ py! "Pragma" := by
      rcases hh with rfl | rfl <;> decide
    unfold encodeWspHeader encodeWapValue
    rw [if_neg h1.1, if_neg h1.2, if_neg h1.1, if_neg h1.2]
    rcases v with x | ⟨n, x⟩ | ⟨m, d⟩
    · cases x <;> rfl
    · rfl
    · rfl
  · rfl

theorem plain_headers (d : Dict HVal) : encodePartHeaders (d.map (fun e => (e.1, plainHeader e.1 e.2))) = encodePartHeaders d := by
  induction d with
  | nil => rfl
  | cons e d ih =>
    obtain ⟨h, v⟩ := e
    simp only [List.map_cons, encodePartHeaders, plain_value, ih]

/-- the order in which a dict is gone through depends on its keys only -/
def ByKeys (ord : Dict HVal → Dict HVal) : Prop :=
  ∀ (d : Dict HVal) (f : Str → HVal → HVal), ord (d.map (fun e => (e.1, f e.1 e.2))) = (ord d).map (fun e => (e.1, f e.1 e.2))

theorem plain_part {env : Env} {ord : Dict HVal → Dict HVal} (hord : ByKeys ord) (p : DataPart) :
    encodePart env ord (strLabelsPart p) = encodePart env ord p := by
  have h1 : (strLabelsPart p).headers.index (py! "Content-Type") = p.headers.index (py! "Content-Type") := by
    unfold Dict.index
    simp only [strLabelsPart, plain_get]
    cases p.headers.get (py! "Content-Type") <;> rfl
  have h2 : encodePartHeaders (ord (strLabelsPart p).headers) = encodePartHeaders (ord p.headers) := by
    simp only [strLabelsPart, hord _ plainHeader, plain_headers]
  unfold encodePart
  rw [h1, h2]
  rfl

theorem readTyped_ok {env : Env} {u : Bool} {p : DataPart} {d : Str} (h : p.readData env = .ok d) :
    readTyped env u p = .ok ⟨u && p.data.isSome, d⟩ := by
  unfold readTyped
  simp only [h, bind, Except.bind]

theorem encodePart_read {env : Env} {ord : Dict HVal → Dict HVal} {p : DataPart} {a : List Nat} (h : encodePart env ord p = .ok a) :
    ∃ d, p.readData env = .ok d := by
  unfold encodePart at h
  obtain ⟨_, _, h⟩ := bind_ok_invE h
  obtain ⟨_, _, h⟩ := bind_ok_invE h
  obtain ⟨_, _, h⟩ := bind_ok_invE h
  obtain ⟨_, _, h⟩ := bind_ok_invE h
  obtain ⟨_, _, h⟩ := bind_ok_invE h
  obtain ⟨_, _, h⟩ := bind_ok_invE h
  obtain ⟨_, _, h⟩ := bind_ok_invE h
  obtain ⟨_, _, h⟩ := bind_ok_invE h
  obtain ⟨d, hd, _⟩ := bind_ok_invE h
  exact ⟨d, hd⟩

theorem partU_latin {env : Env} {ord : Dict HVal → Dict HVal} {u : Bool} {p : DataPart}
    (h : u = true → ∀ d ∈ p.data, ∀ c ∈ d, c ≤ 255) : encodePartU env ord u p = encodePart env ord p := by
  unfold encodePartU
  cases he : encodePart env ord p with
  | error e => rfl
  | ok a =>
    obtain ⟨d, hd⟩ := encodePart_read he
    simp only [readTyped_ok hd, bind, Except.bind]
    rw [if_neg]
    rintro ⟨hu, c, hc, hlt⟩
    simp only [Bool.and_eq_true] at hu
    obtain ⟨hu, hs⟩ := hu
    obtain ⟨d', hd'⟩ := Option.isSome_iff_exists.1 hs
    have : d = d' := by
      unfold DataPart.readData at hd
      rw [hd'] at hd
      exact (Except.ok.inj hd).symm
    subst this
    have := h hu d hd' c hc
    omega

theorem partU_overflow {env : Env} {ord : Dict HVal → Dict HVal} {p : DataPart} {d : Str} (hd : p.data = some d)
    (h : ∃ c ∈ d, 255 < c) {a : List Nat} (ha : encodePart env ord p = .ok a) : encodePartU env ord true p = .error .overflowError := by
  unfold encodePartU
  have : p.readData env = .ok d := by simp [DataPart.readData, hd]
  simp only [ha, readTyped_ok this, bind, Except.bind, hd, Option.isSome_some, Bool.and_self, true_and, if_pos h]

/-- a medium whose characters, if it holds `unicode`, are octets -/
def LatinSlot (u : Bool) (o : Option (DataPart × Int × Int)) : Prop := u = true → ∀ x ∈ o, ∀ d ∈ x.1.data, ∀ c ∈ d, c ≤ 255

/-- all characters of unicode data are octets -/
def Latin (kinds : Nat → Kinds) (ps : List Page) : Prop :=
  ∀ i p, ps[i]? = some p → LatinSlot (kinds i).image p.image ∧ LatinSlot (kinds i).audio p.audio ∧ LatinSlot (kinds i).text p.text

theorem latin_str (ps : List Page) : Latin (fun _ => .str) ps :=
  fun _ _ _ => ⟨fun h => (by cases h), fun h => (by cases h), fun h => (by cases h)⟩

theorem partsU_append {env : Env} {ord : Dict HVal → Dict HVal} (a b : List (Bool × DataPart)) :
    encodePartsU env ord (a ++ b) = (do let x ← encodePartsU env ord a; let y ← encodePartsU env ord b; .ok (x ++ y)) := by
  induction a with
  | nil => simp only [List.nil_append, encodePartsU, bind, Except.bind]; cases encodePartsU env ord b <;> rfl
  | cons p a ih =>
    simp only [List.cons_append, encodePartsU, ih, bind, Except.bind]
    cases encodePartU env ord p.1 p.2 with
    | error e => rfl
    | ok x =>
      cases encodePartsU env ord a with
      | error e => rfl
      | ok y =>
        cases encodePartsU env ord b with
        | error e => rfl
        | ok z => simp

theorem parts_append {env : Env} {ord : Dict HVal → Dict HVal} (a b : List DataPart) :
    encodeParts env ord (a ++ b) = (do let x ← encodeParts env ord a; let y ← encodeParts env ord b; .ok (x ++ y)) := by
  induction a with
  | nil => simp only [List.nil_append, encodeParts, bind, Except.bind]; cases encodeParts env ord b <;> rfl
  | cons p a ih =>
    simp only [List.cons_append, encodeParts, ih, bind, Except.bind]
    cases encodePart env ord p with
    | error e => rfl
    | ok x =>
      cases encodeParts env ord a with
      | error e => rfl
      | ok y =>
        cases encodeParts env ord b with
        | error e => rfl
        | ok z => simp

theorem dataParts_slots (p : Page) : p.dataParts.map (fun t => t.1) =
    (p.image.map (fun x => x.1)).toList ++ (p.audio.map (fun x => x.1)).toList ++ (p.text.map (fun x => x.1)).toList := by
  unfold Page.dataParts
  cases p.image <;> cases p.audio <;> cases p.text <;> rfl

theorem plain_parts {env : Env} {ord : Dict HVal → Dict HVal} (hord : ByKeys ord) {kinds : Nat → Kinds} {ps : List Page}
    (h : Latin kinds ps) : encodePartsU env ord (typedParts kinds ps) = encodeParts env ord (slideParts (ps.map strLabelsPage)) := by
  induction ps generalizing kinds with
  | nil => rfl
  | cons p ps ih =>
    have ih := ih (kinds := fun i => kinds (i + 1)) (fun i q hq => h (i + 1) q hq)
    obtain ⟨h1, h2, h3⟩ := h 0 p rfl
    have hone : ∀ (u : Bool) (o : Option (DataPart × Int × Int)) (f : DataPart → DataPart),
        (∀ x, encodePart env ord (f x) = encodePart env ord x) → LatinSlot u o →
        encodePartsU env ord (slotPart u o) = encodeParts env ord ((o.map (fun x => f x.1)).toList) := by
      intro u o f hf ho
      cases o with
      | none => rfl
      | some x =>
        simp only [slotPart, Option.map_some, Option.toList_some, encodePartsU, encodeParts, hf]
        rw [partU_latin (fun hu => ho hu x rfl)]
    simp only [List.map_cons, slideParts, typedParts]
    rw [partsU_append, partsU_append, partsU_append, parts_append, ih, dataParts_slots, parts_append, parts_append,
      hone _ _ strLabelsPart (plain_part hord) h1,
      hone _ _ strLabelsPart (plain_part hord) h2, hone _ _ (fun x => x) (fun _ => rfl) h3]
    simp only [strLabelsPage, Option.map_map]
    rfl

theorem plain_entries (m : Msg) : numEntries (strLabels m) = numEntries m := by
  have : ∀ ps : List Page, ((ps.map strLabelsPage).map Page.numberOfParts) = ps.map Page.numberOfParts := by
    intro ps
    rw [List.map_map]
    refine List.map_congr_left ?_
    intro p _
    simp only [Function.comp, Page.numberOfParts, strLabelsPage, Option.isSome_map]
    rfl
  unfold numEntries
  simp only [strLabels, this]

theorem delete_plain (h : Str) (m : Msg) : encodeAndDelete h (strLabels m) =
    match encodeAndDelete h m with
    | .ok l m' => .ok l (strLabels m')
    | .err e m' => .err e (strLabels m') := by
  unfold encodeAndDelete
  simp only [bind, M.bind, M.get, M.lift, M.modify, pure, M.pure, strLabels]
  cases m.headers.index h with
  | error e => rfl
  | ok v =>
    simp only []
    cases headerOctets h v <;> rfl

theorem header_plain (ord : Dict HVal → Dict HVal) (rnd : Nat) (m : Msg) : encodeMessageHeader ord rnd (strLabels m) =
    match encodeMessageHeader ord rnd m with
    | .ok l m' => .ok l (strLabels m')
    | .err e m' => .err e (strLabels m') := by
  unfold encodeMessageHeader
  simp only [bind, M.bind, M.get, M.lift, M.modify, pure, M.pure]
  have h0 : ({ strLabels m with headers := prepareHeaders rnd (strLabels m).headers } : Msg) =
      strLabels { m with headers := prepareHeaders rnd m.headers } := rfl
  rw [h0, delete_plain]
  cases encodeAndDelete (py! "Message-Type") { m with headers := prepareHeaders rnd m.headers } with
  | err e m1 => rfl
  | ok a m1 =>
    simp only [delete_plain]
    cases encodeAndDelete (py! "Transaction-Id") m1 with
    | err e m1 => rfl
    | ok b m2 =>
      simp only [delete_plain]
      cases encodeAndDelete (py! "MMS-Version") m2 with
      | err e m1 => rfl
      | ok c m3 =>
        simp only [strLabels]
        cases encodeRest (ord m3.headers) with
        | error e => rfl
        | ok r =>
          simp only
          cases encodeCtHeader m3.headers <;> rfl

theorem encodeU_header {env : Env} {ord : Dict HVal → Dict HVal} {rnd : Nat} {m m' : Msg} {hd : List Nat} (kinds : Nat → Kinds)
    (h : encodeMessageHeader ord rnd m = .ok hd m') :
    answer (encodeU env ord rnd kinds m) = (do let b ← encodeMessageBodyU env ord kinds m'; .ok (hd ++ b)) ∧
    answer (encode env ord rnd (strLabels m)) = (do let b ← encodeMessageBody env ord (strLabels m'); .ok (hd ++ b)) ∧
    m'.smilU env kinds = m.smilU env kinds ∧ m'.pages = m.pages := by
  have hp := header_plain ord rnd m
  rw [h] at hp
  obtain ⟨_, _, _, _, _, _, _, _, _, _, _, _, _, _, _, _, _, hm⟩ := emh_inv h
  refine ⟨?_, ?_, by rw [hm]; rfl, by rw [hm]⟩
  · unfold encodeU
    rw [M.bind_ok h]
    simp only [bind, M.bind, M.get, M.lift, pure, M.pure]
    cases encodeMessageBodyU env ord kinds m' <;> rfl
  · unfold encode
    rw [M.bind_ok hp]
    simp only [bind, M.bind, M.get, M.lift, pure, M.pure]
    cases encodeMessageBody env ord (strLabels m') <;> rfl

theorem typed_message (env : Env) (ord : Dict HVal → Dict HVal) (hord : ByKeys ord) (rnd : Nat) (kinds : Nat → Kinds) (m : Msg)
    (hl : Latin kinds m.pages) (t : PyStr) (ht : m.smilU env kinds = .ok t) (h8 : t.uni = true → ∀ c ∈ t.s, c ≤ 255) :
    answer (encodeU env ord rnd kinds m) = answer (encode env ord rnd (strLabels m)) := by
  cases hh : encodeMessageHeader ord rnd m with
  | err e m' =>
    have hp := header_plain ord rnd m
    rw [hh] at hp
    unfold encodeU encode
    simp only [bind, M.bind, hh, hp, answer]
  | ok hd m' =>
    obtain ⟨h1, h2, h3, h4⟩ := encodeU_header (env := env) kinds hh
    obtain ⟨ss, hss⟩ := slides_exist env kinds m'.pages
    have hs := (typed_same env kinds m' ss hss t (h3.trans ht)).1
    have hb : encodeMessageBodyU env ord kinds m' = encodeMessageBody env ord (strLabels m') := by
      unfold encodeMessageBodyU encodeMessageBody
      rw [plain_entries, hs, h3, ht]
      have hpp : (strLabels m').pages = m'.pages.map strLabelsPage := rfl
      have hsm : encodePartU env ord t.uni (smilPart t.s) = encodePart env ord (smilPart t.s) := by
        refine partU_latin ?_
        intro hu d hd
        cases hd
        exact h8 hu
      simp only [bind, Except.bind, encodeParts, encodePartsU, hpp, hsm, plain_parts hord (h4 ▸ hl)]
    rw [h1, h2, hb]

/-- C98: a message whose presentation is made of octets is encoded as the same message with labels of type `str`: same
octets, or same exception. -/
theorem C98_message (env : Env) (ord : Dict HVal → Dict HVal) (hord : ByKeys ord) (rnd : Nat) (m : Msg) (t : PyStr)
    (ht : m.smilX env = .ok t) (h8 : t.uni = true → ∀ c ∈ t.s, c ≤ 255) :
    answer (encodeX env ord rnd m) = answer (encode env ord rnd (strLabels m)) :=
  typed_message env ord hord rnd _ m (latin_str _) t ht h8

theorem entries_octets (n : Nat) : ∃ l, toOctets (ints (encodeUintVar n)) = .ok l := by
  rw [encodeUintVar_eq]
  exact ⟨_, toOctets_ints (uintvar_lt n)⟩

theorem perm_two {α : Type} {a b : α} {l : List α} (h : l.Perm [a, b]) : l = [a, b] ∨ l = [b, a] := by
  match l, h.length_eq with
  | [x, y], _ =>
    rcases List.mem_cons.1 (h.mem_iff.1 (List.mem_cons_self ..) : x ∈ [a, b]) with rfl | hx
    · have := (List.perm_cons _).1 h
      rw [List.singleton_perm_singleton] at this
      exact .inl (by rw [this])
    · rw [List.mem_singleton] at hx
      subst hx
      have := (List.perm_cons _).1 (h.trans (List.Perm.swap ..))
      rw [List.singleton_perm_singleton] at this
      exact .inr (by rw [this])

theorem smilPart_encodes {env : Env} {ord : Dict HVal → Dict HVal} (hord : ∀ d, (ord d).Perm d) (s : Str) :
    ∃ b, encodePart env ord (smilPart s) = .ok b := by
  have h1 : (smilPart s).headers.index (py! "Content-Type") = .ok (.ct (py! "application/smil") []) := rfl
  have h2 : ∃ ct, encodeCtPair (.ct (py! "application/smil") []) = .ok ct ∧ ∃ l, toOctets ct = .ok l := by
    refine ⟨_, rfl, _, rfl⟩
  have h3 : ∃ hs, encodePartHeaders (ord (smilPart s).headers) = .ok hs ∧ ∃ l, toOctets hs = .ok l := by
    have := hord (smilPart s).headers
    rcases perm_two this with h | h
    · rw [h]; exact ⟨_, rfl, _, rfl⟩
    · rw [h]; exact ⟨_, rfl, _, rfl⟩
  obtain ⟨ct, h2, lc, h2'⟩ := h2
  obtain ⟨hs, h3, lh, h3'⟩ := h3
  unfold encodePart
  obtain ⟨a, ha⟩ := entries_octets (ct.length + hs.length)
  rw [Nat.cast_add] at ha
  rw [h1]
  simp only [bind, Except.bind, h2, h3, ha]
  have hl : (smilPart s).len env = .ok s.length := rfl
  obtain ⟨b, hb⟩ := entries_octets s.length
  simp only [hl, hb, h2', h3']
  exact ⟨_, rfl⟩

theorem typed_beyond (env : Env) (ord : Dict HVal → Dict HVal) (hord : ∀ d, (ord d).Perm d) (rnd : Nat) (kinds : Nat → Kinds)
    (m m' : Msg) (hd : List Nat) (hh : encodeMessageHeader ord rnd m = .ok hd m') (t : PyStr) (ht : m.smilU env kinds = .ok t)
    (hu : t.uni = true) (h8 : ∃ c ∈ t.s, 255 < c) : answer (encodeU env ord rnd kinds m) = .error .overflowError := by
  obtain ⟨h1, _, h3, _⟩ := encodeU_header (env := env) kinds hh
  obtain ⟨a, ha⟩ := entries_octets (numEntries m')
  rw [h1]
  unfold encodeMessageBodyU
  rw [ha, h3, ht]
  obtain ⟨b, hb⟩ := smilPart_encodes (env := env) hord t.s
  have := partU_overflow (env := env) (ord := ord) (p := smilPart t.s) rfl h8 hb
  simp only [bind, Except.bind, encodePartsU, hu, this]

/-- C98: a presentation with characters that are no octets cannot be sent: OverflowError, if the headers can be sent. -/
theorem C98_beyond (env : Env) (ord : Dict HVal → Dict HVal) (hord : ∀ d, (ord d).Perm d) (rnd : Nat) (m m' : Msg) (hd : List Nat)
    (hh : encodeMessageHeader ord rnd m = .ok hd m') (t : PyStr) (ht : m.smilX env = .ok t) (hu : t.uni = true)
    (h8 : ∃ c ∈ t.s, 255 < c) : answer (encodeX env ord rnd m) = .error .overflowError :=
  typed_beyond env ord hord rnd _ m m' hd hh t ht hu h8

theorem typed_unsent (env : Env) (ord : Dict HVal → Dict HVal) (rnd : Nat) (kinds : Nat → Kinds) (m m' : Msg) (hd : List Nat)
    (hh : encodeMessageHeader ord rnd m = .ok hd m') (e : PyErr) (ht : m.smilU env kinds = .error e) :
    answer (encodeU env ord rnd kinds m) = .error e := by
  obtain ⟨h1, _, h3, _⟩ := encodeU_header (env := env) kinds hh
  obtain ⟨a, ha⟩ := entries_octets (numEntries m')
  rw [h1]
  unfold encodeMessageBodyU
  rw [ha, h3, ht]
  rfl

/-- C98: if asking for the presentation fails, so does sending the message, with the same exception if the headers can be
sent. -/
theorem C98_unsent (env : Env) (ord : Dict HVal → Dict HVal) (rnd : Nat) (m m' : Msg) (hd : List Nat)
    (hh : encodeMessageHeader ord rnd m = .ok hd m') (e : PyErr) (ht : m.smilX env = .error e) :
    answer (encodeX env ord rnd m) = .error e :=
  typed_unsent env ord rnd _ m m' hd hh e ht

theorem parts_str (env : Env) (ord : Dict HVal → Dict HVal) (ps : List Page) :
    encodePartsU env ord (typedParts (fun _ => .str) ps) = encodeParts env ord (slideParts ps) := by
  induction ps with
  | nil => rfl
  | cons p ps ih =>
    have hone : ∀ (o : Option (DataPart × Int × Int)),
        encodePartsU env ord (slotPart false o) = encodeParts env ord ((o.map (fun x => x.1)).toList) := by
      intro o
      cases o with
      | none => rfl
      | some x =>
        simp only [slotPart, Option.map_some, Option.toList_some, encodePartsU, encodeParts]
        rw [partU_latin (fun hu => (by cases hu))]
    simp only [slideParts, typedParts, Kinds.str]
    rw [partsU_append, partsU_append, partsU_append, parts_append, dataParts_slots, parts_append, parts_append, hone, hone, hone]
    have := ih
    simp only [Kinds.str] at this
    rw [this]

/-- C98: the simpler model of `encode()` agrees whenever it succeeds. -/
theorem C98_sent (env : Env) (ord : Dict HVal → Dict HVal) (rnd : Nat) (m m' : Msg) (o : List Nat)
    (h : encode env ord rnd m = .ok o m') : encodeX env ord rnd m = .ok o m' := by
  obtain ⟨hd, b, h1, h2, rfl⟩ := encode_inv h
  have hb : encodeMessageBodyU env ord (fun _ => .str) m' = .ok b := by
    unfold encodeMessageBody at h2
    obtain ⟨a, ha, h2⟩ := bind_ok_invE h2
    obtain ⟨smil, hs, h2⟩ := bind_ok_invE h2
    obtain ⟨c, hc, h2⟩ := bind_ok_invE h2
    obtain ⟨x, hx, hc⟩ := bind_ok_invE hc
    obtain ⟨y, hy, hc⟩ := bind_ok_invE hc
    cases hc
    cases h2
    have hs' : m'.smilU env (fun _ => .str) = .ok ⟨false, smil⟩ := C98_agrees env m' smil hs
    unfold encodeMessageBodyU
    rw [ha, hs']
    simp only [bind, Except.bind, encodePartsU, parts_str, hy]
    rw [partU_latin (fun hu => (by cases hu)), hx]
  unfold encodeX encodeU
  rw [M.bind_ok h1]
  simp only [bind, M.bind, M.get, M.lift, pure, M.pure, hb]

/-! ### examples -/

theorem ok_of {α : Type} {x : Py α} (p : α → Bool) (h : (match x with | .ok a => p a | .error _ => false) = true) :
    ∃ a, x = .ok a ∧ p a = true := by
  cases x with
  | ok a => exact ⟨a, rfl, h⟩
  | error e => cases h

/-- a slide with this text and an audio clip with this label -/
def labelled (v : HVal) (t : Str) : Msg :=
  { Msg.new with pages := [{ (textPage t) with audio := some ({ DataPart.new with headers := [(py! "Content-Location", v)] }, 0, 0) }] }

/-- the slide of the specification -/
def labelledSlide (v : HVal) (t : Str) : Spec.Labels.Slide := { image := none, text := some (.ok ⟨false, t⟩), audio := some (.ok v) }

theorem labelled_is (v : HVal) (t : Str) : List.Forall₂ (SlideIs sampleEnv) (labelled v t).pages [labelledSlide v t] :=
  .cons ⟨.none, .some _ _ _ _ (.held _ rfl), .some _ _ _ _ (.location v rfl)⟩ .nil

/-- a unicode label and ASCII text: fine, and the text is `unicode` -/
example : Fails [] [labelledSlide (.v (.uni (py! "a.amr"))) (py! "Hi")] none ∧
    ∃ t, (labelled (.v (.uni (py! "a.amr"))) (py! "Hi")).smilX sampleEnv = .ok t ∧ t.uni = true := by
  refine ⟨(C98_exact _ _ _ (labelled_is _ _) _).2 (by decide +kernel), ok_of PyStr.uni (by decide +kernel)⟩
/-- a unicode label and a text that is not ASCII cannot be presented, although the label as `str` can -/
example : Fails [] [labelledSlide (.v (.uni (py! "a.amr"))) [195, 169]] (some .unicodeError) ∧
    Fails [] [labelledSlide (.v (.str (py! "a.amr"))) [195, 169]] none :=
  ⟨(C98_exact _ _ _ (labelled_is _ _) _).2 (by decide +kernel), (C98_exact _ _ _ (labelled_is _ _) _).2 (by decide +kernel)⟩
/-- labels that are no strings -/
example : Fails [] [labelledSlide (.v (.int 7)) (py! "Hi")] (some .attributeError) ∧
    Fails [] [labelledSlide (.v (.int 0)) (py! "Hi")] none :=
  ⟨(C98_exact _ _ _ (labelled_is _ _) _).2 (by decide +kernel), (C98_exact _ _ _ (labelled_is _ _) _).2 (by decide +kernel)⟩
example : ByKeys (fun d => d) ∧ ByKeys List.reverse := ⟨fun _ _ => rfl, fun d _ => by rw [List.map_reverse]⟩
/-- a label with a character that is no octet -/
example : (∃ hd m', encodeMessageHeader (fun d => d) 7 (labelled (.v (.uni [0x20AC])) (py! "Hi")) = .ok hd m') ∧
    ∃ t, (labelled (.v (.uni [0x20AC])) (py! "Hi")).smilX sampleEnv = .ok t ∧ t.uni = true ∧ ∃ c ∈ t.s, 255 < c :=
  ⟨⟨_, _, rfl⟩, by simpa using ok_of (x := (labelled (.v (.uni [0x20AC])) (py! "Hi")).smilX sampleEnv) (fun t => t.uni && t.s.any (255 < ·)) (by decide +kernel)⟩

/-- a message with a text is written the same by the simpler model -/
example : ∃ s, (labelled (.v (.str (py! "a.amr"))) (py! "Hi")).smil sampleEnv = .ok s ∧
    (labelled (.v (.str (py! "a.amr"))) (py! "Hi")).smilX sampleEnv = .ok ⟨false, s⟩ := by
  have h : ∃ s, (labelled (.v (.str (py! "a.amr"))) (py! "Hi")).smil sampleEnv = .ok s := by
    have : (match (labelled (.v (.str (py! "a.amr"))) (py! "Hi")).smil sampleEnv with | .ok _ => true | .error _ => false) = true := by
      decide +kernel
    split at this
    · exact ⟨_, by assumption⟩
    · cases this
  obtain ⟨s, hs⟩ := h
  exact ⟨s, hs, C98_agrees _ _ _ hs⟩

end Verif.Props

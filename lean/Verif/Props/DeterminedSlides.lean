import Verif.Props.Determined
import Verif.Props.Smil
/-!
# C95: the octets of a message determine its slides
-/
set_option autoImplicit false

namespace Verif.Props
open Verif Verif.Mms
open Verif.Spec.Wsp Verif.Spec.Mms Verif.Spec.MmsEnc Verif.Spec.Survive Verif.Spec.Determined
open Verif.Spec.Slides (Slide Medium decimal timeAttrs Elem)
open Verif.Spec.Xml (Tree Plain Same SameAll presentation parse)

/-- the same times for players: none on either side, or the same begin and, as far as it is in the slide, the same end -/
def SameTimes (duration b1 e1 b2 e2 : Int) : Prop :=
  (b1 ≤ 0 ∧ e1 ≤ 0 ∧ b2 ≤ 0 ∧ e2 ≤ 0) ∨ (b1 = b2 ∧ min e1 duration = min e2 duration)

/-- the same medium: none on either side, or the same source at the same times -/
inductive SameMedium (duration : Int) : Option Medium → Option Medium → Prop
  | none : SameMedium duration none none
  | some (x y : Medium) (src : x.src = y.src) (times : SameTimes duration x.begin_ x.end_ y.begin_ y.end_) :
      SameMedium duration (some x) (some y)

/-- the same slide: same duration, image, text and audio -/
def TwinSlide (s t : Slide) : Prop :=
  s.duration = t.duration ∧ SameMedium s.duration s.image t.image ∧ SameMedium s.duration s.text t.text ∧
    SameMedium s.duration s.audio t.audio

mutual
theorem same_join : ∀ {t a b : Tree}, Same t a → Same t b → Same a b
  | .node _ _ _, .node _ _ _, .node _ _ _, h1, h2 => by
    simp only [Same] at h1 h2 ⊢
    exact ⟨h1.1.symm.trans h2.1, h1.2.1.symm.trans h2.2.1, sameAll_join h1.2.2 h2.2.2⟩
theorem sameAll_join : ∀ {t a b : List Tree}, SameAll t a → SameAll t b → SameAll a b
  | [], [], [], _, _ => by simp [SameAll]
  | x :: xs, y :: ys, z :: zs, h1, h2 => by
    simp only [SameAll] at h1 h2 ⊢
    exact ⟨same_join h1.1 h2.1, sameAll_join h1.2 h2.2⟩
  | [], _ :: _, _, h1, _ => by simp [SameAll] at h1
  | _ :: _, [], _, h1, _ => by simp [SameAll] at h1
  | [], [], _ :: _, _, h2 => by simp [SameAll] at h2
  | _ :: _, _ :: _, [], _, h2 => by simp [SameAll] at h2
end

theorem sameAll_map {α : Type} {f g : α → Tree} {l1 l2 : List α} (h : SameAll (l1.map f) (l2.map g)) :
    List.Forall₂ (fun a b => Same (f a) (g b)) l1 l2 := by
  induction l1 generalizing l2 with
  | nil => cases l2 with
    | nil => exact .nil
    | cons _ _ => simp [SameAll] at h
  | cons a l1 ih => cases l2 with
    | nil => simp [SameAll] at h
    | cons b l2 =>
      simp only [List.map_cons, SameAll] at h
      exact .cons h.1 (ih h.2)

theorem sameAll_snoc {l1 l2 : List Tree} {a b : Tree} (h : SameAll (l1 ++ [a]) (l2 ++ [b])) : SameAll l1 l2 ∧ Same a b := by
  induction l1 generalizing l2 with
  | nil => cases l2 with
    | nil => simp only [List.nil_append, SameAll] at h; exact ⟨trivial, h.1⟩
    | cons c l2 =>
      simp only [List.nil_append, List.cons_append, SameAll] at h
      cases l2 <;> simp [SameAll] at h
  | cons c l1 ih => cases l2 with
    | nil =>
      simp only [List.nil_append, List.cons_append, SameAll] at h
      cases l1 <;> simp [SameAll] at h
    | cons d l2 =>
      simp only [List.cons_append, SameAll] at h ⊢
      obtain ⟨h1, h2⟩ := ih h.2
      exact ⟨⟨h.1, h1⟩, h2⟩

theorem time_mem {d b e : Int} {k : List Nat} {v : List Nat} : (k, v) ∈ timeAttrs d b e ↔
    (0 < b ∨ 0 < e) ∧ ((k = py! "begin" ∧ v = decimal b) ∨ (k = py! "end" ∧ v = decimal (min e d))) := by
  unfold timeAttrs
  split
  · rename_i h
    simp only [List.mem_cons, List.not_mem_nil, or_false, Prod.mk.injEq, h, true_and]
  · rename_i h
    simp [h]

/-- elements with the same attributes have the same source and times -/
theorem attrs_same {pre1 pre2 : Dict (List Nat)} {d b1 e1 b2 e2 : Int}
    (hp1 : ∀ x ∈ pre1, x.1 ≠ py! "begin" ∧ x.1 ≠ py! "end") (hp2 : ∀ x ∈ pre2, x.1 ≠ py! "begin" ∧ x.1 ≠ py! "end")
    (h : (pre1 ++ timeAttrs d b1 e1).Perm (pre2 ++ timeAttrs d b2 e2)) :
    SameTimes d b1 e1 b2 e2 := by
  have key : ∀ k v, (k = py! "begin" ∨ k = py! "end") → ((k, v) ∈ timeAttrs d b1 e1 ↔ (k, v) ∈ timeAttrs d b2 e2) := by
    intro k v hk
    have h1 := h.mem_iff (a := (k, v))
    rw [List.mem_append, List.mem_append] at h1
    have n1 : (k, v) ∉ pre1 := fun hm => by rcases hk with hk | hk <;> have := hp1 _ hm <;> simp_all
    have n2 : (k, v) ∉ pre2 := fun hm => by rcases hk with hk | hk <;> have := hp2 _ hm <;> simp_all
    simpa [n1, n2] using h1
  by_cases h1 : 0 < b1 ∨ 0 < e1
  · right
    have k1 := (key (py! "begin") (decimal b1) (.inl rfl)).1 (time_mem.2 ⟨h1, .inl ⟨rfl, rfl⟩⟩)
    have k2 := (key (py! "end") (decimal (min e1 d)) (.inr rfl)).1 (time_mem.2 ⟨h1, .inr ⟨rfl, rfl⟩⟩)
    rw [time_mem] at k1 k2
    obtain ⟨_, k1 | k1⟩ := k1
    · obtain ⟨_, k2 | k2⟩ := k2
      · exact absurd k2.1 (by decide)
      · exact ⟨decimal_inj k1.2, decimal_inj k2.2⟩
    · exact absurd k1.1 (by decide)
  · by_cases h2 : 0 < b2 ∨ 0 < e2
    · have k1 := (key (py! "begin") (decimal b2) (.inl rfl)).2 (time_mem.2 ⟨h2, .inl ⟨rfl, rfl⟩⟩)
      rw [time_mem] at k1
      exact absurd k1.1 h1
    · left; omega

theorem src_same {pre1 pre2 : Dict (List Nat)} {a b : List Nat} {d b1 e1 b2 e2 : Int}
    (hp2 : ∀ x ∈ pre2, x.1 ≠ py! "src") (h : ((py! "src", a) :: (pre1 ++ timeAttrs d b1 e1)).Perm
      ((py! "src", b) :: (pre2 ++ timeAttrs d b2 e2))) : a = b := by
  have := h.mem_iff.1 (List.mem_cons_self ..)
  rw [List.mem_cons, List.mem_append, time_mem] at this
  rcases this with h | h | ⟨_, h | h⟩
  · exact (Prod.mk.inj h).2
  · exact absurd rfl (hp2 _ h)
  · exact absurd h.1 (by decide)
  · exact absurd h.1 (by decide)

/-- an element of a slide as a tree -/
def elemTree (e : Elem) : Tree := .node e.1 e.2 []

/-- the elements of one kind -/
def kindElems (tag : List Nat) (pre : Dict (List Nat)) (d : Int) (x : Option Medium) : List Elem :=
  x.toList.map fun m => (tag, (py! "src", m.src) :: (pre ++ timeAttrs d m.begin_ m.end_))

theorem medium_same {tag : List Nat} {pre : Dict (List Nat)} {d : Int}
    (hp : ∀ x ∈ pre, x.1 ≠ py! "begin" ∧ x.1 ≠ py! "end" ∧ x.1 ≠ py! "src") {x y : Medium}
    (h : Same (elemTree (tag, (py! "src", x.src) :: (pre ++ timeAttrs d x.begin_ x.end_)))
      (elemTree (tag, (py! "src", y.src) :: (pre ++ timeAttrs d y.begin_ y.end_)))) :
    SameMedium d (some x) (some y) := by
  simp only [elemTree, Same] at h
  have h1 := src_same (fun a ha => (hp a ha).2.2) h.2.1
  refine .some x y h1 ?_
  have h2 := h.2.1
  have hq : ∀ s : List Nat, ∀ a ∈ (py! "src", s) :: pre, a.1 ≠ py! "begin" ∧ a.1 ≠ py! "end" := by
    intro s a ha
    rcases List.mem_cons.1 ha with rfl | ha
    · exact ⟨by show ¬ (py! "src" : List Nat) = _; decide, by show ¬ (py! "src" : List Nat) = _; decide⟩
    · exact ⟨(hp a ha).1, (hp a ha).2.1⟩
  rw [← List.cons_append, ← List.cons_append] at h2
  exact attrs_same (hq _) (hq _) h2

theorem elems_kinds (s : Slide) : s.elems = kindElems (py! "img") [(py! "region", py! "Image")] s.duration s.image ++
    kindElems (py! "text") [(py! "region", py! "Text")] s.duration s.text ++ kindElems (py! "audio") [] s.duration s.audio := rfl

theorem slide_same {s t : Slide} (hd : s.duration = t.duration)
    (h : SameAll (s.elems.map elemTree) (t.elems.map elemTree)) : TwinSlide s t := by
  obtain ⟨d, i1, x1, a1⟩ := s
  obtain ⟨d', i2, x2, a2⟩ := t
  obtain rfl : d = d' := hd
  rw [elems_kinds, elems_kinds] at h
  simp only at h
  have hi : ∀ x ∈ ([(py! "region", py! "Image")] : Dict (List Nat)), x.1 ≠ py! "begin" ∧ x.1 ≠ py! "end" ∧ x.1 ≠ py! "src" := by
    decide
  have ht : ∀ x ∈ ([(py! "region", py! "Text")] : Dict (List Nat)), x.1 ≠ py! "begin" ∧ x.1 ≠ py! "end" ∧ x.1 ≠ py! "src" := by
    decide
  have ha : ∀ x ∈ ([] : Dict (List Nat)), x.1 ≠ py! "begin" ∧ x.1 ≠ py! "end" ∧ x.1 ≠ py! "src" := by
    decide
  have tag : ∀ {n m : List Nat} {a b : Dict (List Nat)}, n ≠ m → ¬ Same (elemTree (n, a)) (elemTree (m, b)) := by
    intro n m a b hnm hs
    simp only [elemTree, Same] at hs
    exact hnm hs.1
  have n1 : ∀ {a b : Dict (List Nat)}, ¬ Same (elemTree (py! "img", a)) (elemTree (py! "text", b)) := tag (by decide)
  have n2 : ∀ {a b : Dict (List Nat)}, ¬ Same (elemTree (py! "img", a)) (elemTree (py! "audio", b)) := tag (by decide)
  have n3 : ∀ {a b : Dict (List Nat)}, ¬ Same (elemTree (py! "text", a)) (elemTree (py! "img", b)) := tag (by decide)
  have n4 : ∀ {a b : Dict (List Nat)}, ¬ Same (elemTree (py! "text", a)) (elemTree (py! "audio", b)) := tag (by decide)
  have n5 : ∀ {a b : Dict (List Nat)}, ¬ Same (elemTree (py! "audio", a)) (elemTree (py! "img", b)) := tag (by decide)
  have n6 : ∀ {a b : Dict (List Nat)}, ¬ Same (elemTree (py! "audio", a)) (elemTree (py! "text", b)) := tag (by decide)
  refine ⟨rfl, ?_⟩
  simp only
  cases i1 <;> cases i2 <;> cases x1 <;> cases x2 <;> cases a1 <;> cases a2 <;>
    simp only [kindElems, Option.toList_none, Option.toList_some, List.map_nil, List.map_cons, List.nil_append,
      List.cons_append, List.append_nil, SameAll, n1, n2, n3, n4, n5, n6, false_and, and_false, and_true] at h <;>
    first
    | exact ⟨.none, .none, .none⟩
    | exact ⟨medium_same hi h, .none, .none⟩
    | exact ⟨.none, medium_same ht h, .none⟩
    | exact ⟨.none, .none, medium_same ha h⟩
    | exact ⟨medium_same hi h.1, medium_same ht h.2, .none⟩
    | exact ⟨medium_same hi h.1, .none, medium_same ha h.2⟩
    | exact ⟨.none, medium_same ht h.1, medium_same ha h.2⟩
    | exact ⟨medium_same hi h.1, medium_same ht h.2.1, medium_same ha h.2.2⟩

theorem presentation_same {tags1 tags2 : List (List Nat × List Nat)} {w1 h1 w2 h2 : Int} {ss1 ss2 : List Slide}
    (h : Same (presentation tags1 w1 h1 ss1) (presentation tags2 w2 h2 ss2)) :
    tags1 = tags2 ∧ w1 = w2 ∧ h1 = h2 ∧ List.Forall₂ TwinSlide ss1 ss2 := by
  unfold presentation at h
  simp only [Same, SameAll] at h
  obtain ⟨_, _, ⟨_, _, hh⟩, ⟨_, _, hb⟩, _⟩ := h
  obtain ⟨ht, hl⟩ := sameAll_snoc hh
  simp only [Same, SameAll] at hl
  obtain ⟨_, _, ⟨_, hr, _⟩, _⟩ := hl
  refine ⟨?_, ?_, ?_, ?_⟩
  · have := sameAll_map ht
    clear hh hb hr ht
    induction this with
    | nil => rfl
    | cons a _ ih =>
      simp only [Same] at a
      have := List.perm_singleton.1 a.2.1.symm
      rw [ih, (List.cons.inj this).1]
  · have := hr.mem_iff.1 (List.mem_cons_self ..)
    simp only [List.mem_cons, List.not_mem_nil, or_false, Prod.mk.injEq] at this
    rcases this with h | h
    · exact decimal_inj h.2
    · exact absurd h.1 (by decide)
  · have := hr.mem_iff.1 (List.mem_cons_of_mem _ (List.mem_cons_self ..))
    simp only [List.mem_cons, List.not_mem_nil, or_false, Prod.mk.injEq] at this
    rcases this with h | h
    · exact absurd h.1 (by decide)
    · exact decimal_inj h.2
  · have := sameAll_map hb
    refine this.imp ?_
    intro s t hs
    simp only [Same] at hs
    have hd := List.perm_singleton.1 hs.2.1.symm
    have hd := decimal_inj (Prod.mk.inj (List.cons.inj hd).1).2
    exact slide_same hd.symm hs.2.2

/-- C95, the slides: if two messages as in `C95_determined_partial` give the same octets, and their slides show characters
that XML leaves alone and have a text with each audio, then the slides are the same one by one (duration, and image, text
and audio with their sources and times), and so are the size of the screen and the meta tags.  Missing: slides with audio
and no text, other characters (`C69_refuted`). -/
theorem C95_slides_partial (env1 env2 : Env) (ord1 ord2 : Dict HVal → Dict HVal) (rnd1 rnd2 : Nat) (m1 m2 : Msg)
    (o : List Nat) (m1' m2' : Msg) (ho1 : ∀ d, (ord1 d).Perm d) (ho2 : ∀ d, (ord2 d).Perm d)
    (hp1 : Enclosed env1 m1) (hp2 : Enclosed env2 m2)
    (h1 : encode env1 ord1 rnd1 m1 = .ok o m1') (h2 : encode env2 ord2 rnd2 m2 = .ok o m2')
    (ss1 ss2 : List Slide) (hs1 : List.Forall₂ (PageIs env1) m1.pages ss1) (hs2 : List.Forall₂ (PageIs env2) m2.pages ss2)
    (ht1 : ∀ s ∈ ss1, s.audio.isSome → s.text.isSome) (ht2 : ∀ s ∈ ss2, s.audio.isSome → s.text.isSome)
    (hc1 : AllChars Plain m1 ss1) (hc2 : AllChars Plain m2 ss2) :
    List.Forall₂ TwinSlide ss1 ss2 ∧ m1.width = m2.width ∧ m1.height = m2.height ∧ m1.metaTags = m2.metaTags := by
  obtain ⟨_, ⟨smil, e1, e2⟩, _⟩ := C95_determined_partial env1 env2 ord1 ord2 rnd1 rnd2 m1 m2 o m1' m2' ho1 ho2 hp1 hp2 h1 h2
  obtain ⟨t1, x1, a1, a2, a3⟩ := C69_partial env1 m1 ss1 hs1 ht1 hc1
  obtain ⟨t2, x2, b1, b2, b3⟩ := C69_partial env2 m2 ss2 hs2 ht2 hc2
  rw [e1] at a1
  rw [e2] at b1
  cases a1
  cases b1
  rw [a2] at b2
  cases b2
  obtain ⟨g1, g2, g3, g4⟩ := presentation_same (same_join a3 b3)
  exact ⟨g4, g2, g3, g1⟩

/-- any message with the same octets as the one with the text `Hi` has one slide, which shows `Hi` for 4 s -/
example (o : List Nat) (m1' m2' m2 : Msg) (env2 : Env) (hp : Enclosed env2 m2)
    (h1 : encode sampleEnv id 1 accentMsg = .ok o m1') (h2 : encode env2 id 2 m2 = .ok o m2')
    (ss : List Slide) (hs : List.Forall₂ (PageIs env2) m2.pages ss) (ht : ∀ s ∈ ss, s.audio.isSome → s.text.isSome)
    (hc : AllChars Plain m2 ss) : ∃ s, ss = [s] ∧ s.duration = 4000 ∧ ∃ x, s.text = some x ∧ x.src = py! "Hi" := by
  obtain ⟨h, _⟩ := C95_slides_partial sampleEnv env2 id id 1 2 accentMsg m2 o m1' m2' (fun _ => List.Perm.refl _)
    (fun _ => List.Perm.refl _) (accent_enclosed []) hp h1 h2 [textSlide (py! "Hi")] ss (.cons (textPage_is _ _) .nil) hs
    (by simp [textSlide]) ht ⟨by intro t ht; simp [accentMsg, photoMsg, withHeader, Msg.new] at ht, by
      intro s hs x hx
      simp only [List.mem_cons, List.not_mem_nil, or_false] at hs
      subst hs
      simp only [textSlide, Option.some.injEq, reduceCtorEq, false_or, or_false] at hx
      subst hx
      unfold Plain
      decide⟩ hc
  obtain ⟨s, r, e, hr, rfl⟩ := List.forall₂_cons_left_iff.1 h
  rw [List.forall₂_nil_left_iff] at hr
  subst hr
  obtain ⟨d, _, t, _⟩ := e
  refine ⟨s, rfl, d.symm, ?_⟩
  generalize hx : s.text = x at t
  cases t with
  | some _ y e _ => exact ⟨y, rfl, e.symm⟩

end Verif.Props

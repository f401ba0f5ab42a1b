import Verif.Props.Labels
/-!
# C108: parts that hold `unicode`
-/
set_option autoImplicit false

namespace Verif.Props
open Verif Verif.Mms
open Verif.Spec.Labels (unread layoutFails labelFails labels texts HasUnicode HasOctets Fails)

/-- C108: whether `smil()` succeeds, and the exception it raises if not, for data and labels of any types. -/
theorem C108_presented (env : Env) (kinds : Nat → Kinds) (m : Msg) (slides : List Spec.Labels.Slide)
    (h : SlidesAre env kinds m.pages slides) :
    (∀ r, Fails m.metaTags slides r ↔ raised (m.smilU env kinds) = r) ∧
    ∀ t, m.smilU env kinds = .ok t → (strLabels m).smil env = .ok t.s ∧ (t.uni = true ↔ HasUnicode slides) :=
  ⟨typed_exact env kinds m slides h, typed_same env kinds m slides h⟩

/-- C108: if all characters of the unicode data are octets, and those of the presentation too, the message is sent as if the
data (and labels) were `str`: same octets, or same exception. -/
theorem C108_sent (env : Env) (ord : Dict HVal → Dict HVal) (hord : ByKeys ord) (rnd : Nat) (kinds : Nat → Kinds) (m : Msg)
    (hl : Latin kinds m.pages) (t : PyStr) (ht : m.smilU env kinds = .ok t) (h8 : t.uni = true → ∀ c ∈ t.s, c ≤ 255) :
    answer (encodeU env ord rnd kinds m) = answer (encode env ord rnd (strLabels m)) :=
  typed_message env ord hord rnd kinds m hl t ht h8

/-- C108: a unicode text and octets that are not ASCII in another text, a label or a meta tag cannot be sent together:
UnicodeError, if the headers can be sent and there is nothing else wrong with the slides. -/
theorem C108_mixed (env : Env) (ord : Dict HVal → Dict HVal) (rnd : Nat) (kinds : Nat → Kinds) (m m' : Msg) (hd : List Nat)
    (hh : encodeMessageHeader ord rnd m = .ok hd m') (slides : List Spec.Labels.Slide) (h : SlidesAre env kinds m.pages slides)
    (h1 : layoutFails false slides = none) (h2 : (labels slides).findSome? labelFails = none)
    (hu : HasUnicode slides) (ho : HasOctets m.metaTags slides) :
    answer (encodeU env ord rnd kinds m) = .error .unicodeError := by
  have := (typed_exact env kinds m slides h (some .unicodeError)).1 (.mixed h1 h2 hu ho)
  cases hs : m.smilU env kinds with
  | ok t => rw [hs] at this; cases this
  | error e =>
    rw [hs] at this
    cases this
    exact typed_unsent env ord rnd kinds m m' hd hh _ hs

/-! ### characters that are no octets -/

theorem partsU_latin {env : Env} {ord : Dict HVal → Dict HVal} {l : List (Bool × DataPart)} {o : List Nat}
    (h : encodePartsU env ord l = .ok o) : ∀ p ∈ l, p.1 = true → ∀ d ∈ p.2.data, ∀ c ∈ d, c ≤ 255 := by
  induction l generalizing o with
  | nil => intro p hp; cases hp
  | cons q l ih =>
    obtain ⟨a, ha, h⟩ := bind_ok_invE h
    obtain ⟨b, hb, h⟩ := bind_ok_invE h
    intro p hp
    rcases List.mem_cons.1 hp with rfl | hp
    · intro hu d hd c hc
      by_contra hlt
      obtain ⟨a', ha', _⟩ := bind_ok_invE ha
      rw [hu, partU_overflow hd ⟨c, hc, by omega⟩ ha'] at ha
      cases ha
    · exact ih hb p hp

theorem typed_mem {kinds : Nat → Kinds} {ps : List Page} :
    Latin kinds ps ↔ ∀ p ∈ typedParts kinds ps, p.1 = true → ∀ d ∈ p.2.data, ∀ c ∈ d, c ≤ 255 := by
  have hslot : ∀ (u : Bool) (o : Option (DataPart × Int × Int)),
      LatinSlot u o ↔ ∀ p ∈ slotPart u o, p.1 = true → ∀ d ∈ p.2.data, ∀ c ∈ d, c ≤ 255 := by
    intro u o
    unfold LatinSlot slotPart
    cases o with
    | none => simp
    | some x => simp
  induction ps generalizing kinds with
  | nil => exact ⟨fun _ p hp => (by cases hp), fun _ i p hp => (by cases hp)⟩
  | cons q ps ih =>
    have e : Latin kinds (q :: ps) ↔ (LatinSlot (kinds 0).image q.image ∧ LatinSlot (kinds 0).audio q.audio ∧
        LatinSlot (kinds 0).text q.text) ∧ Latin (fun i => kinds (i + 1)) ps := by
      constructor
      · intro h
        exact ⟨h 0 q rfl, fun i p hp => h (i + 1) p hp⟩
      · rintro ⟨h1, h2⟩ i p hp
        cases i with
        | zero => cases hp; exact h1
        | succ i => exact h2 i p hp
    have ih := @ih (fun i => kinds (i + 1))
    rw [e, iff_iff_eq.1 ih, hslot, hslot, hslot]
    simp only [typedParts, List.forall_mem_append, and_assoc]

/-- C108: a message that is sent has only octets as characters of its unicode data. -/
theorem C108_latin (env : Env) (ord : Dict HVal → Dict HVal) (rnd : Nat) (kinds : Nat → Kinds) (m m' : Msg) (o : List Nat)
    (h : encodeU env ord rnd kinds m = .ok o m') : Latin kinds m.pages := by
  cases hh : encodeMessageHeader ord rnd m with
  | err e m1 =>
    unfold encodeU at h
    simp only [bind, M.bind, hh] at h
    cases h
  | ok hd m1 =>
    obtain ⟨h1, _, _, h4⟩ := encodeU_header (env := env) kinds hh
    rw [h] at h1
    obtain ⟨b, hx, _⟩ := bind_ok_invE h1.symm
    unfold encodeMessageBodyU at hx
    obtain ⟨_, _, hx⟩ := bind_ok_invE hx
    obtain ⟨_, _, hx⟩ := bind_ok_invE hx
    obtain ⟨_, hx, _⟩ := bind_ok_invE hx
    rw [← h4, typed_mem]
    intro p hp
    exact partsU_latin hx p (List.mem_cons_of_mem _ hp)

/-- a question mark for every character that is no octet -/
def mask (d : Str) : Str := d.map (fun c => if c ≤ 255 then c else 63)

def maskPart (u : Bool) (p : DataPart) : DataPart := if u then { p with data := p.data.map mask } else p

def maskSlot (u : Bool) (o : Option (DataPart × Int × Int)) : Option (DataPart × Int × Int) := o.map (fun x => (maskPart u x.1, x.2))

def maskPage (k : Kinds) (p : Page) : Page :=
  { p with image := maskSlot k.image p.image, audio := maskSlot k.audio p.audio, text := maskSlot k.text p.text }

def maskPages (kinds : Nat → Kinds) : List Page → List Page
  | [] => []
  | p :: ps => maskPage (kinds 0) p :: maskPages (fun i => kinds (i + 1)) ps

/-- the message with question marks for the characters of its unicode data that are no octets -/
def maskMsg (kinds : Nat → Kinds) (m : Msg) : Msg := { m with pages := maskPages kinds m.pages }

theorem mask_typed (kinds : Nat → Kinds) (ps : List Page) :
    typedParts kinds (maskPages kinds ps) = (typedParts kinds ps).map (fun p => (p.1, maskPart p.1 p.2)) := by
  have hslot : ∀ u o, slotPart u (maskSlot u o) = (slotPart u o).map (fun p => (p.1, maskPart p.1 p.2)) := by
    intro u o
    cases o <;> rfl
  induction ps generalizing kinds with
  | nil => rfl
  | cons p ps ih => simp only [maskPages, typedParts, List.map_append, ih, ← hslot, maskPage]

theorem mask_encodes {env : Env} {ord : Dict HVal → Dict HVal} {u : Bool} {p : DataPart} {a : List Nat}
    (h : encodePart env ord (maskPart u p) = .ok a) : ∃ b, encodePart env ord p = .ok b := by
  cases u with
  | false => exact ⟨a, h⟩
  | true =>
    unfold encodePart at h ⊢
    obtain ⟨v, h1, h⟩ := bind_ok_invE h
    obtain ⟨ct, h2, h⟩ := bind_ok_invE h
    obtain ⟨hs, h3, h⟩ := bind_ok_invE h
    obtain ⟨x, h4, h⟩ := bind_ok_invE h
    obtain ⟨n, h5, h⟩ := bind_ok_invE h
    obtain ⟨y, h6, h⟩ := bind_ok_invE h
    obtain ⟨z, h7, h⟩ := bind_ok_invE h
    obtain ⟨w, h8, h⟩ := bind_ok_invE h
    obtain ⟨d, h9, h⟩ := bind_ok_invE h
    have g1 : p.headers.index (py! "Content-Type") = .ok v := h1
    have g3 : encodePartHeaders (ord p.headers) = .ok hs := h3
    have g9 : ∃ d', p.readData env = .ok d' := by
      unfold DataPart.readData
      cases hp : p.data with
      | some d => exact ⟨d, rfl⟩
      | none =>
        simp only [DataPart.readData, maskPart, hp, if_true, Option.map_none] at h9
        exact ⟨d, h9⟩
    have g5 : p.len env = .ok n := by
      unfold DataPart.len at h5 ⊢
      cases hf : p.filename with
      | some f =>
        simp only [maskPart, if_true, hf] at h5
        exact h5
      | none =>
        simp only [maskPart, if_true, hf] at h5
        cases hp : p.data with
        | none =>
          simp only [DataPart.readData, hp, hf, Option.map_none] at h5 ⊢
          exact h5
        | some d =>
          simp only [DataPart.readData, hp, Option.map_some] at h5 ⊢
          rw [← h5]
          simp [mask, bind, Except.bind]
    obtain ⟨d', g9⟩ := g9
    simp only [g1, h2, g3, h4, g5, h6, h7, h8, g9, bind, Except.bind]
    exact ⟨_, rfl⟩

theorem mask_parts {env : Env} {ord : Dict HVal → Dict HVal} {l : List (Bool × DataPart)} {o : List Nat}
    (h : encodePartsU env ord (l.map (fun p => (p.1, maskPart p.1 p.2))) = .ok o)
    (hb : ¬ ∀ p ∈ l, p.1 = true → ∀ d ∈ p.2.data, ∀ c ∈ d, c ≤ 255) : encodePartsU env ord l = .error .overflowError := by
  induction l generalizing o with
  | nil => exact absurd (fun p hp => (by cases hp)) hb
  | cons q l ih =>
    obtain ⟨a, ha, h⟩ := bind_ok_invE h
    obtain ⟨b, hb', h⟩ := bind_ok_invE h
    obtain ⟨a', ha', _⟩ := bind_ok_invE ha
    obtain ⟨c, hc⟩ := mask_encodes ha'
    by_cases hq : q.1 = true → ∀ d ∈ q.2.data, ∀ c ∈ d, c ≤ 255
    · simp only [encodePartsU, partU_latin hq, hc, bind, Except.bind]
      rw [ih hb' ?_]
      intro hl
      refine hb ?_
      intro p hp
      rcases List.mem_cons.1 hp with rfl | hp
      · exact hq
      · exact hl p hp
    · push Not at hq
      obtain ⟨hu, d, hd, c', hc', hlt⟩ := hq
      simp only [encodePartsU, hu, partU_overflow hd ⟨c', hc', hlt⟩ hc, bind, Except.bind]

/-- the same up to question marks -/
def SameVal (v v' : HVal) : Prop := v' = v ∨ ∃ s, v = .v (.uni s) ∧ v' = .v (.uni (mask s))
def SameText (t t' : PyStr) : Prop := t' = t ∨ ∃ s, t = ⟨true, s⟩ ∧ t' = ⟨true, mask s⟩

/-- optional media that are the same up to question marks -/
inductive SameSlot {α : Type} (R : α → α → Prop) : Option (Py α) → Option (Py α) → Prop
  | none : SameSlot R none none
  | error (e : PyErr) : SameSlot R (some (.error e)) (some (.error e))
  | ok (a b : α) (h : R a b) : SameSlot R (some (.ok a)) (some (.ok b))

structure SameSlide (s s' : Spec.Labels.Slide) : Prop where
  image : SameSlot SameVal s.image s'.image
  text : SameSlot SameText s.text s'.text
  audio : SameSlot SameVal s.audio s'.audio

theorem typed_mask (env : Env) (u : Bool) (p : DataPart) :
    (∃ e, readTyped env u p = .error e ∧ readTyped env u (maskPart u p) = .error e) ∨
    ∃ a b, readTyped env u p = .ok a ∧ readTyped env u (maskPart u p) = .ok b ∧ SameText a b := by
  cases u with
  | false =>
    have : maskPart false p = p := rfl
    rw [this]
    cases readTyped env false p with
    | error e => exact .inl ⟨e, rfl, rfl⟩
    | ok a => exact .inr ⟨a, a, rfl, rfl, .inl rfl⟩
  | true =>
    unfold readTyped DataPart.readData
    cases hp : p.data with
    | some d =>
      simp only [maskPart, if_true, hp, Option.map_some, bind, Except.bind]
      exact .inr ⟨_, _, rfl, rfl, .inr ⟨d, rfl, rfl⟩⟩
    | none =>
      simp only [maskPart, if_true, hp, Option.map_none, bind, Except.bind]
      cases p.filename with
      | none => exact .inr ⟨_, _, rfl, rfl, .inl rfl⟩
      | some f =>
        cases hf : env.files f with
        | none => simp only [hf]; exact .inl ⟨_, rfl, rfl⟩
        | some c => simp only [hf]; exact .inr ⟨_, _, rfl, rfl, .inl rfl⟩

theorem mask_headers (u : Bool) (p : DataPart) : (maskPart u p).headers = p.headers := by
  cases u <;> rfl

theorem same_page (env : Env) (k : Kinds) (p : Page) : SameSlide (slideOf (p.values env k)) (slideOf ((maskPage k p).values env k)) := by
  have hsrc : ∀ (u : Bool) (o : Option (DataPart × Int × Int)),
      SameSlot SameVal ((o.map (fun x => (srcValue env u x.1, x.2))).map (·.1))
        (((maskSlot u o).map (fun x => (srcValue env u x.1, x.2))).map (·.1)) := by
    intro u o
    cases o with
    | none => exact .none
    | some x =>
      simp only [maskSlot, Option.map_some, srcValue, mask_headers]
      cases x.1.headers.get (py! "Content-Location") with
      | some v => exact .ok _ _ (.inl rfl)
      | none =>
        cases x.1.headers.get (py! "Content-ID") with
        | some v => exact .ok _ _ (.inl rfl)
        | none =>
          rcases typed_mask env u x.1 with ⟨e, h1, h2⟩ | ⟨a, b, h1, h2, hs⟩
          · simp only [h1, h2, bind, Except.bind]
            exact .error e
          · simp only [h1, h2, bind, Except.bind]
            refine .ok _ _ ?_
            rcases hs with rfl | ⟨s, rfl, rfl⟩
            · exact .inl rfl
            · exact .inr ⟨s, rfl, rfl⟩
  refine ⟨hsrc _ _, ?_, hsrc _ _⟩
  simp only [slideOf, Page.values, maskPage]
  cases p.text with
  | none => exact .none
  | some x =>
    simp only [maskSlot, Option.map_some]
    rcases typed_mask env k.text x.1 with ⟨e, h1, h2⟩ | ⟨a, b, h1, h2, hs⟩
    · rw [h1, h2]; exact .error e
    · rw [h1, h2]; exact .ok _ _ hs

theorem same_pages (env : Env) (kinds : Nat → Kinds) (ps : List Page) :
    List.Forall₂ SameSlide ((pagesX env kinds ps).map slideOf) ((pagesX env kinds (maskPages kinds ps)).map slideOf) := by
  induction ps generalizing kinds with
  | nil => exact .nil
  | cons p ps ih => exact .cons (same_page env _ p) (ih _)

theorem same_unread {α : Type} {R : α → α → Prop} {x y : Option (Py α)} (h : SameSlot R x y) : unread x = unread y ∧ x.isSome = y.isSome := by
  cases h <;> exact ⟨rfl, rfl⟩

theorem same_read {α : Type} {R : α → α → Prop} {x y : Option (Py α)} (h : SameSlot R x y) :
    List.Forall₂ R (Spec.Labels.read x) (Spec.Labels.read y) := by
  cases h with
  | none => exact .nil
  | error e => exact .nil
  | ok a b h => exact .cons h .nil

theorem same_layout {ss ss' : List Spec.Labels.Slide} (h : List.Forall₂ SameSlide ss ss') (b : Bool) :
    layoutFails b ss = layoutFails b ss' := by
  induction h generalizing b with
  | nil => rfl
  | cons h _ ih =>
    unfold layoutFails
    rw [(same_unread h.image).1, (same_unread h.text).1, (same_unread h.audio).1, (same_unread h.audio).2, (same_unread h.text).2, ih]

theorem same_labels {ss ss' : List Spec.Labels.Slide} (h : List.Forall₂ SameSlide ss ss') :
    List.Forall₂ SameVal (labels ss) (labels ss') ∧ List.Forall₂ SameText (texts ss) (texts ss') := by
  induction h with
  | nil => exact ⟨.nil, .nil⟩
  | cons h _ ih =>
    unfold labels texts at ih ⊢
    simp only [List.flatMap_cons]
    exact ⟨List.rel_append (List.rel_append (same_read h.image) (same_read h.audio)) ih.1, List.rel_append (same_read h.text) ih.2⟩

theorem same_mem {α : Type} {R : α → α → Prop} {l l' : List α} (h : List.Forall₂ R l l') :
    (∀ a ∈ l, ∃ b ∈ l', R a b) ∧ ∀ b ∈ l', ∃ a ∈ l, R a b := by
  induction h with
  | nil => exact ⟨fun a ha => (by cases ha), fun a ha => (by cases ha)⟩
  | @cons a b l l' h _ ih =>
    constructor
    · intro x hx
      rcases List.mem_cons.1 hx with rfl | hx
      · exact ⟨b, by simp, h⟩
      · obtain ⟨y, hy, hr⟩ := ih.1 x hx
        exact ⟨y, List.mem_cons_of_mem _ hy, hr⟩
    · intro x hx
      rcases List.mem_cons.1 hx with rfl | hx
      · exact ⟨a, by simp, h⟩
      · obtain ⟨y, hy, hr⟩ := ih.2 x hx
        exact ⟨y, List.mem_cons_of_mem _ hy, hr⟩

theorem mask_ne {s : Str} : mask s ≠ [] ↔ s ≠ [] := by
  unfold mask
  simp

theorem same_fails {tags : Dict Str} {ss ss' : List Spec.Labels.Slide} (h : List.Forall₂ SameSlide ss ss') (hf : Fails tags ss' none) :
    Fails tags ss none := by
  obtain ⟨hl, ht⟩ := same_labels h
  have hlab : (labels ss).findSome? labelFails = (labels ss').findSome? labelFails := by
    clear ht
    generalize labels ss = a at hl
    generalize labels ss' = b at hl
    induction hl with
    | nil => rfl
    | cons h _ ih =>
      rw [List.findSome?_cons, List.findSome?_cons, ih]
      rcases h with rfl | ⟨s, rfl, rfl⟩ <;> rfl
  cases hf with
  | fine h1 h2 h3 =>
    refine .fine (by rw [same_layout h, h1]) (by rw [hlab, h2]) ?_
    rintro ⟨hu, ho⟩
    refine h3 ⟨?_, ?_⟩
    · rcases hu with ⟨s, hs, hne⟩ | ⟨t, ht', hu, hne⟩
      · obtain ⟨v, hv, hr⟩ := (same_mem hl).1 _ hs
        rcases hr with rfl | ⟨s', hs', rfl⟩
        · exact .inl ⟨s, hv, hne⟩
        · cases hs'
          exact .inl ⟨_, hv, mask_ne.2 hne⟩
      · obtain ⟨v, hv, hr⟩ := (same_mem ht).1 _ ht'
        rcases hr with rfl | ⟨s', rfl, rfl⟩
        · exact .inr ⟨_, hv, hu, hne⟩
        · exact .inr ⟨_, hv, rfl, mask_ne.2 hne⟩
    · rcases ho with ⟨s, hs, hne⟩ | ⟨t, ht', hu, hne⟩ | ho
      · obtain ⟨v, hv, hr⟩ := (same_mem hl).1 _ hs
        rcases hr with rfl | ⟨s', hs', rfl⟩
        · exact .inl ⟨s, hv, hne⟩
        · cases hs'
      · obtain ⟨v, hv, hr⟩ := (same_mem ht).1 _ ht'
        rcases hr with rfl | ⟨s', rfl, rfl⟩
        · exact .inr (.inl ⟨_, hv, hu, hne⟩)
        · cases hu
      · exact .inr (.inr ho)

theorem smil_mask {env : Env} {kinds : Nat → Kinds} {m : Msg} {t : PyStr} (h : (maskMsg kinds m).smilU env kinds = .ok t) :
    ∃ t', m.smilU env kinds = .ok t' := by
  have h1 := (typed_exact env kinds (maskMsg kinds m) _ (slides_iff.2 rfl) none).2 (by rw [h]; rfl)
  have h2 := (typed_exact env kinds m _ (slides_iff.2 rfl) none).1 (same_fails (same_pages env kinds m.pages) h1)
  cases hs : m.smilU env kinds with
  | ok t' => exact ⟨t', rfl⟩
  | error e => rw [hs] at h2; cases h2

theorem delete_pages (h : Str) (m : Msg) (ps : List Page) : encodeAndDelete h { m with pages := ps } =
    match encodeAndDelete h m with
    | .ok l m' => .ok l { m' with pages := ps }
    | .err e m' => .err e { m' with pages := ps } := by
  unfold encodeAndDelete
  simp only [bind, M.bind, M.get, M.lift, M.modify, pure, M.pure]
  cases m.headers.index h with
  | error e => rfl
  | ok v =>
    simp only []
    cases headerOctets h v <;> rfl

theorem header_pages (ord : Dict HVal → Dict HVal) (rnd : Nat) (m : Msg) (ps : List Page) :
    encodeMessageHeader ord rnd { m with pages := ps } =
    match encodeMessageHeader ord rnd m with
    | .ok l m' => .ok l { m' with pages := ps }
    | .err e m' => .err e { m' with pages := ps } := by
  unfold encodeMessageHeader
  simp only [bind, M.bind, M.get, M.lift, M.modify, pure, M.pure]
  rw [delete_pages (py! "Message-Type") { m with headers := prepareHeaders rnd m.headers } ps]
  cases encodeAndDelete (py! "Message-Type") { m with headers := prepareHeaders rnd m.headers } with
  | err e m1 => rfl
  | ok a m1 =>
    simp only [delete_pages]
    cases encodeAndDelete (py! "Transaction-Id") m1 with
    | err e m1 => rfl
    | ok b m2 =>
      simp only [delete_pages]
      cases encodeAndDelete (py! "MMS-Version") m2 with
      | err e m1 => rfl
      | ok c m3 =>
        simp only
        cases encodeRest (ord m3.headers) with
        | error e => rfl
        | ok r =>
          simp only
          cases encodeCtHeader m3.headers <;> rfl

/-- C108: unicode data with a character that is no octet: if the message with question marks in place of those characters can
be sent, then sending this one raises OverflowError. -/
theorem C108_beyond (env : Env) (ord : Dict HVal → Dict HVal) (hord : ∀ d, (ord d).Perm d) (rnd : Nat) (kinds : Nat → Kinds) (m : Msg)
    (o : List Nat) (h : answer (encodeU env ord rnd kinds (maskMsg kinds m)) = .ok o) (hl : ¬ Latin kinds m.pages) :
    answer (encodeU env ord rnd kinds m) = .error .overflowError := by
  have hp := header_pages ord rnd m (maskPages kinds m.pages)
  cases hh : encodeMessageHeader ord rnd m with
  | err e m' =>
    rw [hh] at hp
    have : encodeU env ord rnd kinds (maskMsg kinds m) = .err e { m' with pages := maskPages kinds m.pages } := by
      unfold encodeU maskMsg
      simp only [bind, M.bind, hp]
    rw [this] at h
    cases h
  | ok hd m' =>
    rw [hh] at hp
    obtain ⟨h1, _, h3, h4⟩ := encodeU_header (env := env) kinds hh
    obtain ⟨k1, _, k3, k4⟩ := encodeU_header (env := env) kinds (show encodeMessageHeader ord rnd (maskMsg kinds m) = _ from hp)
    rw [k1] at h
    obtain ⟨b, hb, _⟩ := bind_ok_invE h
    unfold encodeMessageBodyU at hb
    obtain ⟨a, ha, hb⟩ := bind_ok_invE hb
    obtain ⟨t, ht, hb⟩ := bind_ok_invE hb
    obtain ⟨c, hc, _⟩ := bind_ok_invE hb
    obtain ⟨x, hx, hc⟩ := bind_ok_invE hc
    obtain ⟨y, hy, hc⟩ := bind_ok_invE hc
    obtain ⟨t', ht'⟩ := smil_mask (k3.symm.trans ht)
    by_cases h8 : t'.uni = true ∧ ∃ c ∈ t'.s, 255 < c
    · exact typed_beyond env ord hord rnd kinds m m' hd hh t' ht' h8.1 h8.2
    · obtain ⟨n, hn⟩ := entries_octets (numEntries m')
      obtain ⟨s, hs⟩ := smilPart_encodes (env := env) hord t'.s
      have hsm : encodePartU env ord t'.uni (smilPart t'.s) = encodePart env ord (smilPart t'.s) := by
        refine partU_latin ?_
        intro hu d hd
        cases hd
        intro c hc
        by_contra hlt
        exact h8 ⟨hu, c, hc, by omega⟩
      have hy' : encodePartsU env ord ((typedParts kinds m.pages).map (fun p => (p.1, maskPart p.1 p.2))) = .ok y := by
        rw [← mask_typed]
        exact hy
      rw [h1]
      unfold encodeMessageBodyU
      rw [hn, h3, ht']
      simp only [bind, Except.bind, encodePartsU, hsm, hs, h4, mask_parts hy' (fun hx => hl (typed_mem.2 hx))]

/-! ### examples -/

/-- a slide with a text -/
def uniMsg (t : Str) : Msg := { Msg.new with pages := [textPage t] }
/-- only the text is `unicode` -/
def uniText : Nat → Kinds := fun _ => ⟨false, false, true⟩

theorem uniMsg_is (t : Str) : SlidesAre sampleEnv uniText (uniMsg t).pages
    [{ image := none, text := some (.ok ⟨true, t⟩), audio := none }] :=
  .cons _ _ _ _ _ ⟨.none, .some _ _ _ _ (.held _ rfl), .none⟩ (.nil _)

/-- a text of Latin letters is sent as its Latin-1 octets -/
example : Latin uniText (uniMsg [0xE9]).pages ∧ ∃ t, (uniMsg [0xE9]).smilU sampleEnv uniText = .ok t ∧ t.uni = true ∧ ∀ c ∈ t.s, c ≤ 255 := by
  constructor
  · rw [typed_mem]
    decide
  · simpa using ok_of (x := (uniMsg [0xE9]).smilU sampleEnv uniText) (fun t => t.uni && t.s.all (· ≤ 255)) (by decide +kernel)
/-- a unicode text with a title that is not ASCII cannot be sent, although the same text as `str` can -/
example : (Fails [([195, 169], [])] [{ image := none, text := some (.ok ⟨true, py! "Hi"⟩), audio := none }] (some .unicodeError)) ∧
    Fails [([195, 169], [])] [{ image := none, text := some (.ok ⟨false, py! "Hi"⟩), audio := none }] none := by
  refine ⟨.mixed rfl rfl (.inr ⟨_, List.mem_cons_self .., rfl, by decide⟩) (.inr (.inr ⟨_, List.mem_cons_self .., .inl ⟨195, by decide⟩⟩)),
    .fine rfl rfl ?_⟩
  rintro ⟨⟨s, hs, _⟩ | ⟨t, ht, hu, _⟩, _⟩
  · cases hs
  · simp [texts, Spec.Labels.read] at ht
    subst ht
    cases hu
/-- a Euro sign cannot be sent -/
example : ¬ Latin uniText (uniMsg [0x20AC]).pages ∧
    ∃ o, answer (encodeU sampleEnv (fun d => d) 7 uniText (maskMsg uniText (uniMsg [0x20AC]))) = .ok o := by
  constructor
  · rw [typed_mem]
    decide
  · obtain ⟨o, ho, _⟩ := ok_of (x := answer (encodeU sampleEnv (fun d => d) 7 uniText (maskMsg uniText (uniMsg [0x20AC])))) (fun _ => true)
      (by decide +kernel)
    exact ⟨o, ho⟩

end Verif.Props

import Verif.Spec.Sharing
import Verif.Proofs.Cache
/-!
# Lemmas about shared slides and parts
-/
set_option autoImplicit false

namespace Verif.Mms
open Verif Verif.Spec.Files Verif.Spec.Sharing

/-- some parts of the slides `L` were read -/
structure Reads (env : Env) (L : List Nat) (h h' : Heap) : Prop where
  pages : h'.pages = h.pages
  msgs : h'.msgs = h.msgs
  next : h'.nextPart = h.nextPart ∧ h'.nextPage = h.nextPage ∧ h'.nextMsg = h.nextMsg
  parts : ∀ r, h'.parts r = h.parts r ∨ ((∃ q ∈ L, InSlide h q r) ∧ h'.parts r = loaded env (h.parts r))

theorem inSlide_pages {h h' : Heap} (e : h'.pages = h.pages) (q r : Nat) : InSlide h' q r ↔ InSlide h q r := by
  unfold InSlide; rw [e]

theorem Reads.refl (env : Env) (L : List Nat) (h : Heap) : Reads env L h h := ⟨rfl, rfl, ⟨rfl, rfl, rfl⟩, fun _ => .inl rfl⟩

theorem Reads.trans {env : Env} {L : List Nat} {a b c : Heap} (x : Reads env L a b) (y : Reads env L b c) :
    Reads env L a c := by
  refine ⟨y.1.trans x.1, y.2.trans x.2, ⟨y.3.1.trans x.3.1, y.3.2.1.trans x.3.2.1, y.3.2.2.trans x.3.2.2⟩, fun r => ?_⟩
  rcases x.4 r with e1 | ⟨m1, e1⟩ <;> rcases y.4 r with e2 | ⟨⟨q, hq, m2⟩, e2⟩
  · exact .inl (e2.trans e1)
  · exact .inr ⟨⟨q, hq, (inSlide_pages x.1 q r).1 m2⟩, by rw [e2, e1]⟩
  · exact .inr ⟨m1, e2.trans e1⟩
  · exact .inr ⟨m1, by rw [e2, e1, loaded_idem]⟩

theorem Reads.maybe {env : Env} {L : List Nat} {h h' : Heap} (x : Reads env L h h') (r : Nat) :
    Maybe env (h.parts r) (h'.parts r) := by
  rcases x.4 r with e | ⟨_, e⟩
  · exact .inl e
  · exact .inr e

theorem slot_maybe {env : Env} {h h' : Heap} (x : ∀ r, Maybe env (h.parts r) (h'.parts r))
    (s : Option (Nat × Int × Int)) : MaybeSlot env (h.slot s) (h'.slot s) := by
  cases s with
  | none => exact .none
  | some t => exact .some _ (x _)

theorem page_maybe {env : Env} {h h' : Heap} (e : h'.pages = h.pages) (x : ∀ r, Maybe env (h.parts r) (h'.parts r))
    (r : Nat) : MaybePage env (h.page r) (h'.page r) := by
  unfold Heap.page
  rw [e]
  exact ⟨rfl, slot_maybe x _, slot_maybe x _, slot_maybe x _⟩

theorem pages_maybe {env : Env} {h h' : Heap} (e : h'.pages = h.pages) (x : ∀ r, Maybe env (h.parts r) (h'.parts r)) :
    ∀ l : List Nat, MaybePages env (l.map h.page) (l.map h'.page)
  | [] => .nil
  | r :: l => .cons (page_maybe e x r) (pages_maybe e x l)

theorem setPart_same (h : Heap) (r : Nat) : h.setPart r (h.parts r) = h := by
  unfold Heap.setPart
  congr
  funext x
  split
  · next e => rw [e]
  · rfl

/-- reading a part in a slide of `L` -/
theorem reads_setPart {env : Env} {L : List Nat} {h : Heap} {q r : Nat} (hq : q ∈ L) (hs : InSlide h q r) {p : DataPart}
    (hp : Maybe env (h.parts r) p) : Reads env L h (h.setPart r p) := by
  refine ⟨rfl, rfl, ⟨rfl, rfl, rfl⟩, fun x => ?_⟩
  unfold Heap.setPart
  by_cases hx : x = r
  · subst hx
    simp only [if_true]
    rcases hp with e | e
    · exact .inl e
    · exact .inr ⟨⟨q, hq, hs⟩, e⟩
  · simp only [if_neg hx]
    exact .inl trivial

theorem onPart_sim {α : Type} {env : Env} {f : M DataPart α} {g : DataPart → Py α} (hf : Sim (Maybe env) f g)
    {L : List Nat} {h : Heap} {q r : Nat} (hq : q ∈ L) (hs : InSlide h q r) : ∃ h', Reads env L h h' ∧
      onPart r f h = match g (h.parts r) with | .ok a => .ok a h' | .error e => .err e h' := by
  obtain ⟨p, h1, h2⟩ := hf (h.parts r)
  refine ⟨h.setPart r p, reads_setPart hq hs h1, ?_⟩
  unfold onPart
  rw [h2]
  cases g (h.parts r) <;> rfl

theorem Sim.smilImageH (env : Env) {L : List Nat} {r : Nat} (hr : r ∈ L) (u : Nat) :
    Sim (Reads env L) (smilImageH env r u) (fun h => Mms.smilImage env (h.page r) u) := by
  intro h
  unfold Mms.smilImageH
  rw [M.bind_apply]
  simp only [M.get, Mms.smilImage, Heap.page]
  cases hp : (h.pages r).image with
  | none => exact ⟨h, .refl env L h, rfl⟩
  | some x =>
    obtain ⟨y, h1, h2⟩ := onPart_sim (Sim.srcOf env) hr (h := h) (r := x.1) ⟨x.2, .inl hp⟩
    refine ⟨y, h1, ?_⟩
    simp only [M.bind_apply, h2, Heap.slot, Option.map]
    cases Mms.srcOf env (h.parts x.1) <;> rfl

theorem Sim.smilTextH (env : Env) {L : List Nat} {r : Nat} (hr : r ∈ L) (u : Nat) :
    Sim (Reads env L) (smilTextH env r u) (fun h => Mms.smilText env (h.page r) u) := by
  intro h
  unfold Mms.smilTextH
  rw [M.bind_apply]
  simp only [M.get, Mms.smilText, Heap.page]
  cases hp : (h.pages r).text with
  | none => exact ⟨h, .refl env L h, rfl⟩
  | some x =>
    obtain ⟨y, h1, h2⟩ := onPart_sim (Sim.getData env) hr (h := h) (r := x.1) ⟨x.2, .inr (.inr hp)⟩
    refine ⟨y, h1, ?_⟩
    simp only [M.bind_apply, h2, Heap.slot, Option.map]
    cases (h.parts x.1).readData env <;> rfl

theorem Sim.smilAudioH (env : Env) {L : List Nat} {r : Nat} (hr : r ∈ L) (st : SmilSt) (i : List MediaNode)
    (t : Option MediaNode) :
    Sim (Reads env L) (smilAudioH env r st i t) (fun h => Mms.smilAudio env st i t (h.page r)) := by
  intro h
  unfold Mms.smilAudioH
  rw [M.bind_apply]
  simp only [M.get, Mms.smilAudio, Heap.page]
  cases hp : (h.pages r).audio with
  | none => exact ⟨h, .refl env L h, rfl⟩
  | some x =>
    obtain ⟨y, h1, h2⟩ := onPart_sim (Sim.srcOf env) hr (h := h) (r := x.1) ⟨x.2, .inr (.inl hp)⟩
    refine ⟨y, h1, ?_⟩
    simp only [M.bind_apply, h2, Heap.slot, Option.map]
    cases Mms.srcOf env (h.parts x.1) with
    | error e => rfl
    | ok src =>
      cases t with
      | some t => rfl
      | none => cases st.textNode <;> rfl

theorem Sim.smilPageH (env : Env) {L : List Nat} {r : Nat} (hr : r ∈ L) (st : SmilSt) :
    Sim (Reads env L) (smilPageH env st r) (fun h => Mms.smilPage env st (h.page r)) := by
  show Sim (Reads env L) _ (fun h => Mms.smilImage env (h.page r) st.uid >>= fun i =>
    Mms.smilText env (h.page r) (st.uid + 1) >>= fun t => smilAudio env st i t (h.page r))
  unfold Mms.smilPageH
  have pm : ∀ {s s' : Heap}, Reads env L s s' → MaybePage env (s.page r) (s'.page r) :=
    fun h => page_maybe h.1 h.maybe r
  refine Sim.bind (R := Reads env L) Reads.trans (Sim.smilImageH env hr _) (fun i => ?_) (fun i s s' h => ?_)
  · exact Sim.bind (R := Reads env L) Reads.trans (Sim.smilTextH env hr _) (fun t => Sim.smilAudioH env hr st i t)
      (fun t s s' h => smilAudio_maybe (pm h) _ _ _)
  · simp only [smilText_maybe (pm h), smilAudio_maybe (pm h)]

theorem Sim.pure' {σ α : Type} {R : σ → σ → Prop} (hr : ∀ s, R s s) (a : α) :
    Sim R (pure a : M σ α) (fun _ => .ok a) := fun s => ⟨s, hr s, rfl⟩

theorem Sim.smilPagesH (env : Env) {L : List Nat} : ∀ (rs : List Nat), rs ⊆ L → ∀ st,
    Sim (Reads env L) (smilPagesH env st rs) (fun h => Mms.smilPages env st (rs.map h.page))
  | [], _, st => Sim.pure' (.refl env L) st
  | r :: rs, hr, st => by
    unfold Mms.smilPagesH
    show Sim (Reads env L) _ (fun h => Mms.smilPage env st (h.page r) >>= fun s => Mms.smilPages env s (rs.map h.page))
    exact Sim.bind (R := Reads env L) Reads.trans (Sim.smilPageH env (hr (by simp)) st)
      (fun s => Sim.smilPagesH env rs (fun x hx => hr (by simp [hx])) s)
      (fun s a b hab => smilPages_maybe (pages_maybe hab.1 hab.maybe rs) s)

theorem Sim.smilH (env : Env) (m : Nat) (h : Heap) : ∃ h', Reads env (h.msgs m).pages h h' ∧
    smilH env m h = match (h.msg m).smil env with | .ok a => .ok a h' | .error e => .err e h' := by
  obtain ⟨h', h1, h2⟩ := Sim.smilPagesH env (L := (h.msgs m).pages) _ (fun _ hx => hx)
    { pars := [], textNode := none, uid := 0 } h
  refine ⟨h', h1, ?_⟩
  unfold Mms.smilH
  rw [M.bind_apply]
  simp only [M.get]
  rw [M.bind_apply, h2]
  simp only [Msg.smil, Msg.smilDoc, Msg.smilBody, Heap.msg]
  cases smilPages env { pars := [], textNode := none, uid := 0 } ((h.msgs m).pages.map h.page) <;> rfl

/-! ### the parts -/

theorem Sim.encodePartC (env : Env) (ord : Dict HVal → Dict HVal) :
    Sim (Maybe env) (encodePartC env ord) (Mms.encodePart env ord) := by
  intro p
  rw [encodePartC_eq]
  cases Mms.encodePart env ord p with
  | ok d => exact ⟨_, .inr rfl, rfl⟩
  | error e => exact ⟨_, .inl rfl, rfl⟩

theorem encodeParts_one (env : Env) (ord : Dict HVal → Dict HVal) (p : DataPart) :
    encodeParts env ord [p] = Mms.encodePart env ord p := by
  unfold encodeParts encodeParts
  cases Mms.encodePart env ord p with
  | error e => rfl
  | ok a => show Except.ok (a ++ []) = Except.ok a; rw [List.append_nil]

/-- the slots of a slide -/
def SlotOf (h : Heap) (q : Nat) (x : Option (Nat × Int × Int)) : Prop :=
  ∀ t, x = some t → InSlide h q t.1

/-- one slot: the octets, and on success its part was read -/
theorem encodeSlotH_eq (env : Env) (ord : Dict HVal → Dict HVal) {L : List Nat} {q : Nat} (hq : q ∈ L) {h : Heap}
    {x : Option (Nat × Int × Int)} (hx : SlotOf h q x) : ∃ h', Reads env L h h' ∧
      (encodeSlotH env ord x h = match encodeParts env ord (slotParts (h.slot x)) with
        | .ok a => .ok a h' | .error e => .err e h') ∧
      ((∃ a, encodeParts env ord (slotParts (h.slot x)) = .ok a) → ∀ t, x = some t →
        h'.parts t.1 = loaded env (h.parts t.1)) := by
  cases x with
  | none => exact ⟨h, .refl _ _ _, rfl, by simp⟩
  | some x =>
    have e1 : slotParts (h.slot (some x)) = [h.parts x.1] := rfl
    have ek := encodePartC_eq env ord (h.parts x.1)
    rw [e1, encodeParts_one]
    cases hk : Mms.encodePart env ord (h.parts x.1) with
    | error e =>
      rw [hk] at ek
      refine ⟨h, .refl _ _ _, ?_, by rintro ⟨a, ha⟩; cases ha⟩
      simp only [encodeSlotH, onPart, ek, setPart_same]
    | ok a =>
      rw [hk] at ek
      refine ⟨h.setPart x.1 (loaded env (h.parts x.1)), reads_setPart hq (hx x rfl) (.inr rfl), ?_, ?_⟩
      · simp only [encodeSlotH, onPart, ek]
      · rintro _ t ⟨⟩
        simp [Heap.setPart]

theorem reads_loaded {env : Env} {L : List Nat} {a b : Heap} (x : Reads env L a b) {r : Nat} {p : DataPart}
    (h : a.parts r = loaded env p) : b.parts r = loaded env p := by
  rcases x.4 r with e | ⟨_, e⟩
  · rw [e, h]
  · rw [e, h, loaded_idem]

theorem reads_loaded' {env : Env} {L : List Nat} {a b : Heap} (x : Reads env L a b) (r : Nat) :
    loaded env (b.parts r) = loaded env (a.parts r) := maybe_loaded_eq (x.maybe r)

/-- one slide -/
theorem encodePageH_eq (env : Env) (ord : Dict HVal → Dict HVal) {L : List Nat} {q : Nat} (hq : q ∈ L) (h : Heap) :
    ∃ h', Reads env L h h' ∧
      (encodePageH env ord q h = match encodeParts env ord ((h.page q).dataParts.map (fun t => t.1)) with
        | .ok a => .ok a h' | .error e => .err e h') ∧
      ((∃ a, encodeParts env ord ((h.page q).dataParts.map (fun t => t.1)) = .ok a) → ∀ r, InSlide h q r →
        h'.parts r = loaded env (h.parts r)) := by
  rw [dataParts_split, encodeParts_append, encodeParts_append]
  obtain ⟨h1, r1, e1, l1⟩ := encodeSlotH_eq env ord hq (h := h) (x := (h.pages q).image) (fun t ht => ⟨t.2, .inl ht⟩)
  obtain ⟨h2, r2, e2, l2⟩ := encodeSlotH_eq env ord hq (h := h1) (x := (h.pages q).audio)
    (fun t ht => ⟨t.2, .inr (.inl (by rw [r1.1]; exact ht))⟩)
  obtain ⟨h3, r3, e3, l3⟩ := encodeSlotH_eq env ord hq (h := h2) (x := (h.pages q).text)
    (fun t ht => ⟨t.2, .inr (.inr (by rw [r2.1, r1.1]; exact ht))⟩)
  have p2 := maybeSlot_parts (ord := ord) (slot_maybe r1.maybe (h.pages q).audio)
  have p3 := maybeSlot_parts (ord := ord) (slot_maybe (r1.trans r2).maybe (h.pages q).text)
  rw [p2] at e2 l2
  rw [p3] at e3 l3
  have i1 : h.slot (h.pages q).image = (h.page q).image := rfl
  have i2 : h.slot (h.pages q).audio = (h.page q).audio := rfl
  have i3 : h.slot (h.pages q).text = (h.page q).text := rfl
  rw [i1] at e1 l1
  rw [i2] at e2 l2
  rw [i3] at e3 l3
  unfold encodePageH
  rw [M.bind_apply]
  simp only [M.get]
  rw [M.bind_apply, e1]
  cases k1 : encodeParts env ord (slotParts (h.page q).image) with
  | error e => exact ⟨h1, r1, rfl, by rintro ⟨a, ha⟩; cases ha⟩
  | ok a =>
    simp only [M.bind_apply, e2]
    cases k2 : encodeParts env ord (slotParts (h.page q).audio) with
    | error e => exact ⟨h2, r1.trans r2, rfl, by rintro ⟨a, ha⟩; cases ha⟩
    | ok b =>
      simp only [e3]
      cases k3 : encodeParts env ord (slotParts (h.page q).text) with
      | error e => exact ⟨h3, (r1.trans r2).trans r3, rfl, by rintro ⟨a, ha⟩; cases ha⟩
      | ok c =>
        refine ⟨h3, (r1.trans r2).trans r3, rfl, fun _ r => ?_⟩
        rintro ⟨t, ht | ht | ht⟩
        · exact reads_loaded (r2.trans r3) (l1 ⟨_, k1⟩ _ ht)
        · have := l2 ⟨_, k2⟩ _ ht
          rw [reads_loaded' r1] at this
          exact reads_loaded r3 this
        · have := l3 ⟨_, k3⟩ _ ht
          rwa [reads_loaded' (r1.trans r2)] at this

theorem slideParts_cons (p : Page) (l : List Page) : slideParts (p :: l) = p.dataParts.map (fun t => t.1) ++ slideParts l :=
  rfl

/-- all slides -/
theorem encodePagesH_eq (env : Env) (ord : Dict HVal → Dict HVal) {L : List Nat} : ∀ (rs : List Nat), rs ⊆ L → ∀ h : Heap,
    ∃ h', Reads env L h h' ∧
      (encodePagesH env ord rs h = match encodeParts env ord (slideParts (rs.map h.page)) with
        | .ok a => .ok a h' | .error e => .err e h') ∧
      ((∃ a, encodeParts env ord (slideParts (rs.map h.page)) = .ok a) → ∀ q ∈ rs, ∀ r, InSlide h q r →
        h'.parts r = loaded env (h.parts r))
  | [], _, h => ⟨h, .refl _ _ _, rfl, by simp⟩
  | q :: rs, hr, h => by
    obtain ⟨h1, r1, e1, l1⟩ := encodePageH_eq env ord (hr (show q ∈ q :: rs by simp)) h
    obtain ⟨h2, r2, e2, l2⟩ := encodePagesH_eq env ord rs (fun x hx => hr (by simp [hx])) h1
    have p2 := slideParts_maybe (pages_maybe r1.1 r1.maybe rs) ord
    rw [p2] at e2 l2
    rw [List.map_cons, slideParts_cons, encodeParts_append]
    unfold encodePagesH
    rw [M.bind_apply, e1]
    cases k1 : encodeParts env ord ((h.page q).dataParts.map (fun t => t.1)) with
    | error e => exact ⟨h1, r1, rfl, by rintro ⟨a, ha⟩; cases ha⟩
    | ok a =>
      simp only [M.bind_apply, e2]
      cases k2 : encodeParts env ord (slideParts (rs.map h.page)) with
      | error e => exact ⟨h2, r1.trans r2, rfl, by rintro ⟨a, ha⟩; cases ha⟩
      | ok b =>
        refine ⟨h2, r1.trans r2, rfl, fun _ q' hq' r hir => ?_⟩
        rcases List.mem_cons.1 hq' with rfl | hq'
        · exact reads_loaded r2 (l1 ⟨_, k1⟩ r hir)
        · have := l2 ⟨_, k2⟩ q' hq' r ((inSlide_pages r1.1 _ _).2 hir)
          rwa [reads_loaded' r1] at this

theorem encodeMessageBodyH_eq (env : Env) (ord : Dict HVal → Dict HVal) (m : Nat) (h : Heap) :
    ∃ h', Reads env (h.msgs m).pages h h' ∧
      (encodeMessageBodyH env ord m h = match encodeMessageBody env ord (h.msg m) with
        | .ok a => .ok a h' | .error e => .err e h') ∧
      ((∃ a, encodeMessageBody env ord (h.msg m) = .ok a) → ∀ r, InMessage h m r →
        h'.parts r = loaded env (h.parts r)) := by
  unfold encodeMessageBodyH encodeMessageBody
  rw [M.bind_apply]
  simp only [M.get]
  cases toOctets (ints (encodeUintVar (numEntries (h.msg m)))) with
  | error e => exact ⟨h, .refl _ _ _, rfl, by rintro ⟨a, ha⟩; cases ha⟩
  | ok a =>
    obtain ⟨h1, r1, e1⟩ := Sim.smilH env m h
    rw [M.bind_apply, M.lift_ok]
    simp only
    rw [M.bind_apply, e1]
    cases (h.msg m).smil env with
    | error e => exact ⟨h1, r1, rfl, by rintro ⟨a, ha⟩; cases ha⟩
    | ok smil =>
      simp only [bind_ok_eq, M.bind_apply, encodeParts]
      cases Mms.encodePart env ord (smilPart smil) with
      | error e => exact ⟨h1, r1, rfl, by rintro ⟨a, ha⟩; cases ha⟩
      | ok b =>
        obtain ⟨h2, r2, e2, l2⟩ := encodePagesH_eq env ord (L := (h.msgs m).pages) _ (fun _ hx => hx) h1
        have p2 := slideParts_maybe (pages_maybe r1.1 r1.maybe (h.msgs m).pages) ord
        rw [p2] at e2 l2
        simp only [M.lift_ok, bind_ok_eq, e2]
        have e3 : (h.msg m).pages = (h.msgs m).pages.map h.page := rfl
        rw [e3]
        cases k2 : encodeParts env ord (slideParts ((h.msgs m).pages.map h.page)) with
        | error e => exact ⟨h2, r1.trans r2, rfl, by rintro ⟨a, ha⟩; cases ha⟩
        | ok c =>
          refine ⟨h2, r1.trans r2, rfl, fun _ r hr => ?_⟩
          obtain ⟨q, hq, hir⟩ := hr
          have := l2 ⟨_, k2⟩ q hq r ((inSlide_pages r1.1 _ _).2 hir)
          rwa [reads_loaded' r1] at this

/-! ### headers -/

/-- `f` changes nothing but the headers -/
def OnlyHeaders {α : Type} (f : M Msg α) : Prop := ∀ m, after (f m) = { m with headers := (after (f m)).headers }

theorem OnlyHeaders.of {α : Type} {f : M Msg α} (h : ∀ m, ∃ d, after (f m) = { m with headers := d }) : OnlyHeaders f := by
  intro m
  obtain ⟨d, e⟩ := h m
  rw [e]

theorem OnlyHeaders.bind {α β : Type} {f : M Msg α} {k : α → M Msg β} (hf : OnlyHeaders f) (hk : ∀ a, OnlyHeaders (k a)) :
    OnlyHeaders (f >>= k) := by
  refine .of fun m => ?_
  rw [M.bind_apply]
  have h1 := hf m
  cases hfm : f m with
  | err e m' => rw [hfm] at h1; exact ⟨_, h1⟩
  | ok a m' =>
    rw [hfm] at h1
    have h1 : m' = { m with headers := m'.headers } := h1
    have h2 := hk a m'
    exact ⟨_, h2.trans (by rw [h1])⟩

theorem OnlyHeaders.encodeAndDelete (n : Str) : OnlyHeaders (Mms.encodeAndDelete n) := by
  refine .of fun m => ?_
  unfold Mms.encodeAndDelete
  simp only [M.bind_apply, M.get]
  cases m.headers.index n with
  | error e => exact ⟨_, rfl⟩
  | ok v =>
    simp only [M.lift_ok]
    cases headerOctets n v <;> exact ⟨_, rfl⟩

theorem OnlyHeaders.encodeMessageHeader (ord : Dict HVal → Dict HVal) (rnd : Nat) :
    OnlyHeaders (Mms.encodeMessageHeader ord rnd) := by
  unfold Mms.encodeMessageHeader
  refine .bind (.of fun m => ⟨_, rfl⟩) fun _ => .bind (.encodeAndDelete _) fun a => .bind (.encodeAndDelete _) fun b =>
    .bind (.encodeAndDelete _) fun c => .of fun m => ?_
  simp only [M.bind_apply, M.get]
  cases encodeRest (ord m.headers) with
  | error e => exact ⟨_, rfl⟩
  | ok r =>
    simp only [M.lift_ok]
    cases encodeCtHeader m.headers <;> exact ⟨_, rfl⟩

theorem setMsg_msg (h : Heap) (m : Nat) (d : Dict HVal) :
    (h.setMsg m { h.msgs m with headers := d }).msg m = { h.msg m with headers := d } := by
  unfold Heap.setMsg Heap.msg
  simp only [if_true]
  rfl

/-- `encode` on objects -/
theorem encodeH_eq (env : Env) (ord : Dict HVal → Dict HVal) (rnd m : Nat) (h : Heap) :
    ∃ h', Reads env (h.msgs m).pages (h.setMsg m { h.msgs m with headers := (after (encode env ord rnd (h.msg m))).headers }) h' ∧
      (encodeH env ord rnd m h = match encode env ord rnd (h.msg m) with
        | .ok a _ => .ok a h' | .err e _ => .err e h') ∧
      ((∃ a v, encode env ord rnd (h.msg m) = .ok a v) → ∀ r, InMessage h m r → h'.parts r = loaded env (h.parts r)) := by
  have oh := OnlyHeaders.encodeMessageHeader ord rnd (h.msg m)
  unfold encodeH encode
  rw [M.bind_apply, M.bind_apply]
  unfold encodeMessageHeaderH
  cases hh : encodeMessageHeader ord rnd (h.msg m) with
  | err e v => exact ⟨_, .refl _ _ _, rfl, by rintro ⟨a, v, ha⟩; cases ha⟩
  | ok a v =>
    rw [hh] at oh
    have oh : v = { h.msg m with headers := v.headers } := oh
    simp only [M.bind_apply, M.get]
    obtain ⟨h', r1, e1, l1⟩ := encodeMessageBodyH_eq env ord m (h.setMsg m { h.msgs m with headers := v.headers })
    have hp : ((h.setMsg m { h.msgs m with headers := v.headers }).msgs m).pages = (h.msgs m).pages := by
      simp [Heap.setMsg]
    rw [setMsg_msg, ← oh] at e1 l1
    rw [hp] at r1
    rw [e1]
    have im : ∀ r, InMessage h m r → InMessage (h.setMsg m { h.msgs m with headers := v.headers }) m r := by
      rintro r ⟨q, hq, hi⟩
      exact ⟨q, by rw [hp]; exact hq, hi⟩
    cases hb : encodeMessageBody env ord v with
    | error e => exact ⟨h', r1, rfl, by rintro ⟨a, v, ha⟩; cases ha⟩
    | ok b => exact ⟨h', r1, rfl, fun _ r hr => l1 ⟨_, hb⟩ r (im r hr)⟩

/-- `f` looks at nothing but the headers -/
def FromHeaders {α : Type} (f : M Msg α) : Prop := ∀ m m', m'.headers = m.headers →
  outcome (f m') = outcome (f m) ∧ (after (f m')).headers = (after (f m)).headers

theorem FromHeaders.bind {α β : Type} {f : M Msg α} {k : α → M Msg β} (hf : FromHeaders f) (hk : ∀ a, FromHeaders (k a)) :
    FromHeaders (f >>= k) := by
  intro m m' h
  obtain ⟨h1, h2⟩ := hf m m' h
  rw [M.bind_apply, M.bind_apply]
  cases e1 : f m with
  | err e s =>
    cases e2 : f m' with
    | err e' s' => rw [e1, e2] at h1 h2; exact ⟨by cases h1; rfl, h2⟩
    | ok a' s' => rw [e1, e2] at h1; cases h1
  | ok a s =>
    cases e2 : f m' with
    | err e' s' => rw [e1, e2] at h1; cases h1
    | ok a' s' =>
      rw [e1, e2] at h1 h2
      cases h1
      exact hk a _ _ h2

theorem FromHeaders.encodeAndDelete (n : Str) : FromHeaders (Mms.encodeAndDelete n) := by
  intro m m' h
  unfold Mms.encodeAndDelete
  simp only [M.bind_apply, M.get, h]
  cases m.headers.index n with
  | error e => exact ⟨rfl, h⟩
  | ok v =>
    simp only [M.lift_ok]
    cases headerOctets n v with
    | error e => exact ⟨rfl, h⟩
    | ok a => exact ⟨rfl, by simp [M.modify, after, pure, M.pure, h, M.lift]⟩

theorem FromHeaders.encodeMessageHeader (ord : Dict HVal → Dict HVal) (rnd : Nat) :
    FromHeaders (Mms.encodeMessageHeader ord rnd) := by
  unfold Mms.encodeMessageHeader
  refine .bind (fun m m' h => ⟨rfl, by simp [M.modify, after, h]⟩) fun _ => .bind (.encodeAndDelete _) fun a =>
    .bind (.encodeAndDelete _) fun b => .bind (.encodeAndDelete _) fun c => ?_
  intro m m' h
  simp only [M.bind_apply, M.get, h]
  cases encodeRest (ord m.headers) with
  | error e => exact ⟨rfl, h⟩
  | ok r =>
    simp only [M.lift_ok]
    cases encodeCtHeader m.headers <;> exact ⟨rfl, h⟩

/-- what is sent depends only on the headers, the slides (whether read or not), the size, the meta tags and the number of
loose parts -/
theorem encode_outcome {env : Env} {ord : Dict HVal → Dict HVal} {rnd : Nat} {v v' : Msg} (hh : v'.headers = v.headers)
    (hp : MaybePages env v.pages v'.pages) (hm : v'.metaTags = v.metaTags) (hw : v'.width = v.width)
    (hi : v'.height = v.height) (hd : v'.dataParts.length = v.dataParts.length) :
    outcome (encode env ord rnd v') = outcome (encode env ord rnd v) := by
  obtain ⟨f1, f2⟩ := FromHeaders.encodeMessageHeader ord rnd v v' hh
  have o1 := OnlyHeaders.encodeMessageHeader ord rnd v
  have o2 := OnlyHeaders.encodeMessageHeader ord rnd v'
  unfold encode
  rw [M.bind_apply, M.bind_apply]
  cases e1 : encodeMessageHeader ord rnd v with
  | err e s =>
    cases e2 : encodeMessageHeader ord rnd v' with
    | err e' s' => rw [e1, e2] at f1; exact f1
    | ok a' s' => rw [e1, e2] at f1; cases f1
  | ok a s =>
    cases e2 : encodeMessageHeader ord rnd v' with
    | err e' s' => rw [e1, e2] at f1; cases f1
    | ok a' s' =>
      rw [e1] at f1 f2 o1
      rw [e2] at f1 f2 o2
      cases f1
      have o1 : s = { v with headers := s.headers } := o1
      have o2 : s' = { v' with headers := s'.headers } := o2
      simp only [M.bind_apply, M.get]
      have hb : encodeMessageBody env ord s' = encodeMessageBody env ord s := by
        have h1 : encodeMessageBody env ord s' = encodeMessageBody env ord { s with pages := s'.pages } := by
          rw [o1, o2]
          simp only [encodeMessageBody, numEntries, hd, Msg.smil, Msg.smilDoc, Msg.smilBody, Msg.smilHead, hm, hw, hi]
        rw [h1]
        refine encodeMessageBody_maybe ?_ ord
        rw [o1, o2]
        exact hp
      rw [hb]
      cases encodeMessageBody env ord s <;> rfl

end Verif.Mms

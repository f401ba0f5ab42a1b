import Verif.Proofs.Heap
import Verif.Proofs.Mms2
/-!
# C78: slides and parts that several messages share
-/
set_option autoImplicit false

namespace Verif.Props
open Verif Verif.Mms
open Verif.Spec.Files Verif.Spec.Sharing

/-! ### what encoding does to the objects -/

/-- the octets (or the exception) are those of a message that owns all its slides and parts, however they are shared; the
objects change only in this: the headers of the message become those that `encode` leaves, and the parts in its slides,
and no other parts, have been read -/
theorem C78_encode (env : Env) (ord : Dict HVal → Dict HVal) (rnd m : Nat) (h : Heap) :
    match encode env ord rnd (h.msg m) with
    | .ok o v => ∃ h', encodeH env ord rnd m h = .ok o h' ∧ Read env m v.headers h h'
    | .err e v => ∃ h', encodeH env ord rnd m h = .err e h' ∧ PartlyRead env m v.headers h h' := by
  obtain ⟨h', r, e, l⟩ := encodeH_eq env ord rnd m h
  have hm : ∀ n, n ≠ m → h'.msgs n = h.msgs n := by
    intro n hn
    rw [r.2]
    simp [Heap.setMsg, hn]
  have hs : h'.msgs m = { h.msgs m with headers := (after (encode env ord rnd (h.msg m))).headers } := by
    rw [r.2]
    simp [Heap.setMsg]
  have ho : ∀ x, ¬ InMessage h m x → h'.parts x = h.parts x := by
    intro x hx
    rcases r.4 x with k | ⟨k, _⟩
    · exact k
    · exact absurd k hx
  have hi : ∀ x, Maybe env (h.parts x) (h'.parts x) := r.maybe
  cases hv : encode env ord rnd (h.msg m) with
  | ok o v =>
    rw [hv] at e hs
    exact ⟨h', e, r.1, hm, hs, l ⟨o, v, hv⟩, ho⟩
  | err x v =>
    rw [hv] at e hs
    exact ⟨h', e, r.1, hm, hs, hi, ho⟩

theorem encodeH_outcome (env : Env) (ord : Dict HVal → Dict HVal) (rnd m : Nat) (h : Heap) :
    outcome (encodeH env ord rnd m h) = outcome (encode env ord rnd (h.msg m)) := by
  obtain ⟨h', _, e, _⟩ := encodeH_eq env ord rnd m h
  rw [e]
  cases encode env ord rnd (h.msg m) <;> rfl

/-- encoding a message, whether it succeeds or not, does not change what any other message is encoded to, though they may
share slides and parts -/
theorem C78_others (env : Env) (ord ord' : Dict HVal → Dict HVal) (rnd rnd' m n : Nat) (h : Heap) (hn : n ≠ m) :
    outcome (encodeH env ord' rnd' n (after (encodeH env ord rnd m h))) = outcome (encodeH env ord' rnd' n h) := by
  rw [encodeH_outcome, encodeH_outcome]
  obtain ⟨h', r, e, _⟩ := encodeH_eq env ord rnd m h
  have ha : after (encodeH env ord rnd m h) = h' := by
    rw [e]
    cases encode env ord rnd (h.msg m) <;> rfl
  have hm : h'.msgs n = h.msgs n := by
    rw [r.2]
    simp [Heap.setMsg, hn]
  rw [ha]
  refine encode_outcome ?_ ?_ ?_ ?_ ?_ ?_ <;> unfold Heap.msg <;> rw [hm]
  · exact pages_maybe r.1 r.maybe _
  · simp

example (env : Env) (h : Heap) := C78_others env id id 5 6 0 1 h (by decide)

/-- so two messages may be encoded in either order -/
theorem C78_order (env : Env) (ord : Dict HVal → Dict HVal) (rnd rnd' m n : Nat) (h : Heap) (hn : n ≠ m) :
    outcome (encodeH env ord rnd' n (after (encodeH env ord rnd m h))) = outcome (encodeH env ord rnd' n h) ∧
    outcome (encodeH env ord rnd m (after (encodeH env ord rnd' n h))) = outcome (encodeH env ord rnd m h) :=
  ⟨C78_others env ord ord rnd rnd' m n h hn, C78_others env ord ord rnd' rnd n m h hn.symm⟩

example (env : Env) (h : Heap) := C78_order env id 5 6 0 1 h (by decide)

/-! ### objects a program can have -/

theorem inSlide_setPage {h : Heap} {q r x : Nat} {p : PageObj} (hi : InSlide (h.setPage r p) q x) :
    (q ≠ r ∧ InSlide h q x) ∨ (q = r ∧ ∃ t, p.image = some (x, t) ∨ p.audio = some (x, t) ∨ p.text = some (x, t)) := by
  unfold InSlide Heap.setPage at hi
  by_cases e : q = r
  · simp only [e, if_true] at hi
    exact .inr ⟨e, hi⟩
  · simp only [if_neg e] at hi
    exact .inl ⟨e, hi⟩

/-- a slide is changed, and a part may have been made -/
theorem wf_setPage {h : Heap} (w : Wf h) {r k : Nat} {p : PageObj} (hk : h.nextPart ≤ k)
    (hp : ∀ x t, p.image = some (x, t) ∨ p.audio = some (x, t) ∨ p.text = some (x, t) → x < k) (f : Nat → DataPart) :
    Wf { (h.setPage r p) with nextPart := k, parts := f } := by
  refine ⟨fun q hq x hi => ?_, w.2, fun m hm x hx => Nat.lt_of_lt_of_le (w.3 m hm x hx) hk⟩
  rcases inSlide_setPage hi with ⟨_, h2⟩ | ⟨_, t, h2⟩
  · exact Nat.lt_of_lt_of_le (w.1 q hq x h2) hk
  · exact hp x t h2

theorem wf_slots {h : Heap} (w : Wf h) {r : Nat} (hr : r < h.nextPage) {x : Nat} {t : Int × Int}
    (hx : (h.pages r).image = some (x, t) ∨ (h.pages r).audio = some (x, t) ∨ (h.pages r).text = some (x, t)) :
    x < h.nextPart := w.1 r hr x ⟨t, hx⟩

theorem wf_putNew {h : Heap} (w : Wf h) {r : Nat} (hr : r < h.nextPage)
    {put : PageObj → Option (Nat × Int × Int) → PageObj} (x : Py (DataPart × Int × Int))
    (hput : ∀ p y z, ((put p y).image = z ∨ (put p y).audio = z ∨ (put p y).text = z) →
      y = z ∨ p.image = z ∨ p.audio = z ∨ p.text = z) : Wf (after (putNew put r x h)) := by
  cases x with
  | error e => exact w
  | ok v =>
    obtain ⟨p, t⟩ := v
    refine wf_setPage w (Nat.le_succ _) (fun x u hx => ?_) _
    rcases hput _ _ _ hx with e | e
    · cases e; exact Nat.lt_succ_self _
    · exact Nat.lt_succ_of_lt (wf_slots w hr e)

theorem wf_assign {h : Heap} (w : Wf h) {r : Nat} (hr : r < h.nextPage)
    {put : PageObj → Option (Nat × Int × Int) → PageObj} {x : Option (Nat × Int × Int)}
    (hx : ∀ t, x = some t → t.1 < h.nextPart)
    (hput : ∀ p y z, ((put p y).image = z ∨ (put p y).audio = z ∨ (put p y).text = z) →
      y = z ∨ p.image = z ∨ p.audio = z ∨ p.text = z) : Wf (after (assignSlot put r x h)) := by
  refine wf_setPage w (Nat.le_refl _) (fun y u hy => ?_) h.parts
  rcases hput _ _ _ hy with e | e
  · exact hx _ e
  · exact wf_slots w hr e

theorem wf_setMsg {h : Heap} (w : Wf h) {m : Nat} {o : MsgObj} (hp : ∀ q ∈ o.pages, q < h.nextPage)
    (hd : ∀ q ∈ o.dataParts, q < h.nextPart) : Wf (h.setMsg m o) := by
  refine ⟨w.1, fun n hn q hq => ?_, fun n hn q hq => ?_⟩
  · simp only [Heap.setMsg] at hq
    split at hq
    · exact hp q hq
    · exact w.2 n hn q hq
  · simp only [Heap.setMsg] at hq
    split at hq
    · exact hd q hq
    · exact w.3 n hn q hq

theorem wf_reads {env : Env} {L : List Nat} {h h' : Heap} (w : Wf h) (r : Reads env L h h') : Wf h' := by
  obtain ⟨n1, n2, n3⟩ := r.3
  refine ⟨fun q hq x hi => ?_, fun m hm q hq => ?_, fun m hm q hq => ?_⟩
  · rw [n1]; exact w.1 q (n2 ▸ hq) x ((inSlide_pages r.1 q x).1 hi)
  · rw [n2]; exact w.2 m (n3 ▸ hm) q (r.2 ▸ hq)
  · rw [n1]; exact w.3 m (n3 ▸ hm) q (r.2 ▸ hq)

theorem put_image (p : PageObj) (y z : Option (Nat × Int × Int))
    (h : (p.putImage y).image = z ∨ (p.putImage y).audio = z ∨ (p.putImage y).text = z) :
    y = z ∨ p.image = z ∨ p.audio = z ∨ p.text = z := by
  rcases h with h | h | h
  · exact .inl h
  · exact .inr (.inr (.inl h))
  · exact .inr (.inr (.inr h))

theorem put_audio (p : PageObj) (y z : Option (Nat × Int × Int))
    (h : (p.putAudio y).image = z ∨ (p.putAudio y).audio = z ∨ (p.putAudio y).text = z) :
    y = z ∨ p.image = z ∨ p.audio = z ∨ p.text = z := by
  rcases h with h | h | h
  · exact .inr (.inl h)
  · exact .inl h
  · exact .inr (.inr (.inr h))

theorem put_text (p : PageObj) (y z : Option (Nat × Int × Int))
    (h : (p.putText y).image = z ∨ (p.putText y).audio = z ∨ (p.putText y).text = z) :
    y = z ∨ p.image = z ∨ p.audio = z ∨ p.text = z := by
  rcases h with h | h | h
  · exact .inr (.inl h)
  · exact .inr (.inr (.inl h))
  · exact .inl h

/-- whatever a program does, slots hold parts that exist and messages hold slides and parts that exist (so that a part made
later is in none of them) -/
theorem C78_reach {h : Heap} (hr : Reach h) : Wf h := by
  induction hr with
  | start => exact ⟨fun q hq => absurd hq (Nat.not_lt_zero q), fun q hq => absurd hq (Nat.not_lt_zero q),
      fun q hq => absurd hq (Nat.not_lt_zero q)⟩
  | @step h h' _ s w =>
    cases s with
    | newPart => exact ⟨fun q hq x hi => Nat.lt_succ_of_lt (w.1 q hq x hi), w.2,
        fun m hm x hx => Nat.lt_succ_of_lt (w.3 m hm x hx)⟩
    | newPartFromFile env f =>
      unfold newPartFromFile
      cases DataPart.ofFile env f with
      | error e => exact w
      | ok p => exact ⟨fun q hq x hi => Nat.lt_succ_of_lt (w.1 q hq x hi), w.2,
          fun m hm x hx => Nat.lt_succ_of_lt (w.3 m hm x hx)⟩
    | newPage =>
      refine ⟨fun q hq x hi => ?_, fun m hm q hq => Nat.lt_succ_of_lt (w.2 m hm q hq), w.3⟩
      rcases inSlide_setPage (h := h) (q := q) (x := x) hi with ⟨h1, h2⟩ | ⟨_, t, h2⟩
      · exact w.1 q (Nat.lt_of_le_of_ne (Nat.le_of_lt_succ hq) h1) x h2
      · rcases h2 with h2 | h2 | h2 <;> cases h2
    | newMsg =>
      refine ⟨w.1, fun m hm q hq => ?_, fun m hm q hq => ?_⟩
      · simp only [newMsg, after, Heap.setMsg] at hq
        split at hq
        · cases hq
        · next e => exact w.2 m (Nat.lt_of_le_of_ne (Nat.le_of_lt_succ hm) e) q hq
      · simp only [newMsg, after, Heap.setMsg] at hq
        split at hq
        · cases hq
        · next e => exact w.3 m (Nat.lt_of_le_of_ne (Nat.le_of_lt_succ hm) e) q hq
    | changePart _ r p hr => exact ⟨w.1, w.2, w.3⟩
    | addImage _ env r f b e hr => exact wf_putNew w hr _ put_image
    | addAudio _ env r f b e hr => exact wf_putNew w hr _ put_audio
    | addText _ r t b e hr => exact wf_putNew w hr _ put_text
    | setDuration _ r d hr =>
      unfold setDurationH
      cases asPyInt d with
      | none => exact w
      | some d =>
        by_cases hd : d < 1
        · simp only [if_pos hd]; exact w
        · simp only [if_neg hd]
          exact wf_setPage (p := { h.pages r with duration := d }) w (Nat.le_refl _) (fun y u hy => wf_slots w hr hy) h.parts
    | assignImage _ r x hr hx => exact wf_assign w hr hx put_image
    | assignAudio _ r x hr hx => exact wf_assign w hr hx put_audio
    | assignText _ r x hr hx => exact wf_assign w hr hx put_text
    | addPage _ m r hm hr =>
      unfold addPageH
      cases (h.msg m).contentType with
      | error e => exact w
      | ok ct =>
        refine wf_setMsg w (fun q hq => ?_) (w.3 m hm)
        rcases List.mem_append.1 hq with hq | hq
        · exact w.2 m hm q hq
        · rw [List.mem_singleton.1 hq]; exact hr
    | addDataPart _ m r hm hr =>
      refine wf_setMsg w (w.2 m hm) (fun q hq => ?_)
      rcases List.mem_append.1 hq with hq | hq
      · exact w.3 m hm q hq
      · rw [List.mem_singleton.1 hq]; exact hr
    | setHeader _ m n v hm => exact wf_setMsg w (w.2 m hm) (w.3 m hm)
    | smil _ env m hm =>
      obtain ⟨h', r, e⟩ := Sim.smilH env m h
      have : after (smilH env m h) = h' := by
        rw [e]
        cases (h.msg m).smil env <;> rfl
      rw [this]
      exact wf_reads w r
    | encode _ env ord rnd m hm =>
      obtain ⟨h', r, e, _⟩ := encodeH_eq env ord rnd m h
      have : after (encodeH env ord rnd m h) = h' := by
        rw [e]
        cases encode env ord rnd (h.msg m) <;> rfl
      rw [this]
      exact wf_reads (wf_setMsg (o := { h.msgs m with headers := (after (Mms.encode env ord rnd (h.msg m))).headers }) w (w.2 m hm) (w.3 m hm)) r

/-! ### changing a slide -/

/-- `f` changes slide `r` as `g` changes a slide of its own, wherever the slide is shown, and nothing else -/
def ChangesSlide (f : M Heap Unit) (r : Nat) (g : M Page Unit) : Prop :=
  ∀ h, Reach h → r < h.nextPage →
    outcome (f h) = outcome (g (h.page r)) ∧
    (∀ q, q < h.nextPage → (after (f h)).page q = if q = r then after (g (h.page r)) else h.page q) ∧
    ∀ n, n < h.nextMsg → (after (f h)).msg n =
      { h.msg n with pages := (h.msgs n).pages.map (fun q => if q = r then after (g (h.page r)) else h.page q) }

theorem slot_other {h : Heap} {k : Nat} {p : DataPart} {x : Option (Nat × Int × Int)} (hx : ∀ t, x = some t → t.1 < k) :
    (h.setPart k p).slot x = h.slot x := by
  cases x with
  | none => rfl
  | some t =>
    have := hx t rfl
    simp only [Heap.slot, Option.map, Heap.setPart, if_neg (Nat.ne_of_lt this)]

/-- from slides to messages -/
theorem msg_of_pages {h h' : Heap} {k : Nat → Page} (w : Wf h) (hm : h'.msgs = h.msgs)
    (hp : ∀ q, q < h.nextPage → h'.page q = k q) (hd : ∀ r, r < h.nextPart → h'.parts r = h.parts r) {n : Nat}
    (hn : n < h.nextMsg) : h'.msg n = { h.msg n with pages := (h.msgs n).pages.map k } := by
  unfold Heap.msg
  rw [hm, List.map_congr_left (fun q hq => hp q (w.2 n hn q hq)), List.map_congr_left (fun q hq => hd q (w.3 n hn q hq))]

theorem changes_putNew {put : PageObj → Option (Nat × Int × Int) → PageObj} {vput : Page → Option (DataPart × Int × Int) → Page}
    {r : Nat} {x : Py (DataPart × Int × Int)} {g : M Page Unit}
    (hg : g = do let s ← M.lift x; M.modify (fun p => vput p (some s)))
    (hput : ∀ (h : Heap) (p : PageObj) (y : Option (Nat × Int × Int)),
      vput ⟨p.duration, h.slot p.image, h.slot p.audio, h.slot p.text⟩ (h.slot y) =
      ⟨(put p y).duration, h.slot (put p y).image, h.slot (put p y).audio, h.slot (put p y).text⟩) :
    ChangesSlide (putNew put r x) r g := by
  intro h hh hr
  have w := C78_reach hh
  subst hg
  cases x with
  | error e =>
    have k1 : ∀ q, q < h.nextPage → h.page q = if q = r then h.page r else h.page q := by
      intro q _
      split
      · next e => rw [e]
      · rfl
    exact ⟨rfl, k1, fun n hn => msg_of_pages w rfl k1 (fun _ _ => rfl) hn⟩
  | ok v =>
    obtain ⟨p, t⟩ := v
    have ka : ∀ q, q < h.nextPage → (after (putNew put r (.ok (p, t)) h)).page q =
        if q = r then vput (h.page r) (some (p, t)) else h.page q := by
      intro q hq
      have so : ∀ {z : Option (Nat × Int × Int)}, ((h.pages q).image = z ∨ (h.pages q).audio = z ∨ (h.pages q).text = z) →
          (h.setPart h.nextPart p).slot z = h.slot z := by
        intro z hz
        refine slot_other fun t ht => wf_slots w hq (t := t.2) ?_
        subst ht
        exact hz
      by_cases e : q = r
      · subst e
        have hx := hput (h.setPart h.nextPart p) (h.pages q) (some (h.nextPart, t))
        have hs : (h.setPart h.nextPart p).slot (some (h.nextPart, t)) = some (p, t) := by
          simp [Heap.slot, Heap.setPart]
        rw [hs, so (.inl rfl), so (.inr (.inl rfl)), so (.inr (.inr rfl))] at hx
        simp only [if_true]
        have hx' : vput (h.page q) (some (p, t)) = _ := hx
        rw [hx']
        simp only [putNew, after, Heap.page, Heap.setPage, if_true]
        rfl
      · simp only [if_neg e, putNew, after, Heap.page, Heap.setPage]
        have e1 := so (.inl rfl)
        have e2 := so (.inr (.inl rfl))
        have e3 := so (.inr (.inr rfl))
        show Page.mk _ _ _ _ = Page.mk _ _ _ _
        rw [← e1, ← e2, ← e3]
        rfl
    refine ⟨rfl, ka, fun n hn => msg_of_pages (h' := after (putNew put r (.ok (p, t)) h)) w rfl ka (fun x hx => ?_) hn⟩
    show (if x = h.nextPart then p else h.parts x) = _
    rw [if_neg (Nat.ne_of_lt hx)]

/-- `add_image`, `add_audio`, `add_text` and `set_duration` -/
theorem C78_slide (r : Nat) :
    (∀ env f b e, ChangesSlide (addImageH env r f b e) r (Page.addImage env f b e)) ∧
    (∀ env f b e, ChangesSlide (addAudioH env r f b e) r (Page.addAudio env f b e)) ∧
    (∀ t b e, ChangesSlide (addTextH r t b e) r (Page.addText t b e)) ∧
    (∀ d, ChangesSlide (setDurationH r d) r (Page.setDuration d)) := by
  refine ⟨fun env f b e => ?_, fun env f b e => ?_, fun t b e => ?_, fun d => ?_⟩
  · exact changes_putNew (vput := fun p s => { p with image := s }) rfl (fun _ _ _ => rfl)
  · exact changes_putNew (vput := fun p s => { p with audio := s }) rfl (fun _ _ _ => rfl)
  · exact changes_putNew (vput := fun p s => { p with text := s }) rfl (fun _ _ _ => rfl)
  · intro h hh hr
    have w := C78_reach hh
    have k1 : ∀ q, q < h.nextPage → h.page q = if q = r then h.page r else h.page q := by
      intro q _
      split
      · next e => rw [e]
      · rfl
    have same := fun n (hn : n < h.nextMsg) => msg_of_pages w rfl k1 (fun _ _ => rfl) hn
    unfold setDurationH Page.setDuration
    cases asPyInt d with
    | none => exact ⟨rfl, k1, same⟩
    | some d =>
      by_cases hd : d < 1
      · simp only [if_pos hd]; exact ⟨rfl, k1, same⟩
      · simp only [if_neg hd]
        have ka : ∀ q, q < h.nextPage → (h.setPage r { h.pages r with duration := d }).page q =
            if q = r then { h.page r with duration := d } else h.page q := by
          intro q hq
          by_cases e : q = r
          · subst e
            simp only [if_true, Heap.page, Heap.setPage]
            rfl
          · simp only [if_neg e, Heap.page, Heap.setPage]
            rfl
        exact ⟨rfl, ka, fun n hn => msg_of_pages (h' := h.setPage r { h.pages r with duration := d }) w rfl ka
          (fun _ _ => rfl) hn⟩

/-- a message in which the slide is not shown is not changed -/
theorem C78_slide_elsewhere {f : M Heap Unit} {r : Nat} {g : M Page Unit} (hf : ChangesSlide f r g) {h : Heap}
    (hh : Reach h) (hr : r < h.nextPage) {n : Nat} (hn : n < h.nextMsg) (hne : r ∉ (h.msgs n).pages) :
    (after (f h)).msg n = h.msg n := by
  rw [(hf h hh hr).2.2 n hn]
  have : (h.msgs n).pages.map (fun q => if q = r then after (g (h.page r)) else h.page q) = (h.msgs n).pages.map h.page := by
    refine List.map_congr_left fun q hq => if_neg ?_
    rintro rfl
    exact hne hq
  rw [this]
  rfl

/-! ### changing a part; adding a slide -/

/-- a part that is changed is changed in every slot that holds it; a message that does not hold it, in a slide or loose,
does not change -/
theorem C78_part (h : Heap) (r : Nat) (p : DataPart) :
    (∀ t, (h.setPart r p).slot (some (r, t)) = some (p, t)) ∧
    (∀ n, ¬ InMessage h n r → r ∉ (h.msgs n).dataParts → (h.setPart r p).msg n = h.msg n) := by
  refine ⟨fun t => by simp [Heap.slot, Heap.setPart], fun n hn hd => ?_⟩
  have so : ∀ z : Option (Nat × Int × Int), (∀ t, z = some t → t.1 ≠ r) → (h.setPart r p).slot z = h.slot z := by
    intro z hz
    cases z with
    | none => rfl
    | some t => simp only [Heap.slot, Option.map, Heap.setPart, if_neg (hz t rfl)]
  have hp : (h.msgs n).pages.map (h.setPart r p).page = (h.msgs n).pages.map h.page := by
    refine List.map_congr_left fun q hq => ?_
    have hq' : ∀ t, ((h.pages q).image = some t ∨ (h.pages q).audio = some t ∨ (h.pages q).text = some t) → t.1 ≠ r := by
      rintro t ht rfl
      exact hn ⟨q, hq, t.2, ht⟩
    show Page.mk _ _ _ _ = Page.mk _ _ _ _
    congr 1
    · exact so _ fun t ht => hq' t (.inl ht)
    · exact so _ fun t ht => hq' t (.inr (.inl ht))
    · exact so _ fun t ht => hq' t (.inr (.inr ht))
  have hl : (h.msgs n).dataParts.map (h.setPart r p).parts = (h.msgs n).dataParts.map h.parts := by
    refine List.map_congr_left fun q hq => ?_
    show (if q = r then p else h.parts q) = _
    rw [if_neg]
    rintro rfl
    exact hd hq
  unfold Heap.msg
  show Msg.mk _ _ _ _ _ _ = _
  congr 1

/-- `add_page` adds to the one message the slide as it is (and will be), and changes no other message -/
theorem C78_addPage (h : Heap) (m r : Nat) :
    outcome (addPageH m r h) = outcome (Msg.addPage (h.page r) (h.msg m)) ∧
    (after (addPageH m r h)).msg m = after (Msg.addPage (h.page r) (h.msg m)) ∧
    (∀ n, n ≠ m → (after (addPageH m r h)).msg n = h.msg n) ∧
    (∀ q, (after (addPageH m r h)).page q = h.page q) := by
  unfold addPageH Msg.addPage
  simp only [M.bind_apply, M.get]
  cases hc : (h.msg m).contentType with
  | error e => exact ⟨rfl, rfl, fun _ _ => rfl, fun _ => rfl⟩
  | ok ct =>
    simp only [M.lift_ok]
    by_cases e : ct = py! "application/vnd.wap.multipart.related"
    · have e' : ¬ (ct ≠ py! "application/vnd.wap.multipart.related") := fun x => x e
      simp only [if_neg e', M.modify, after, outcome]
      refine ⟨trivial, ?_, fun n hn => ?_, fun _ => rfl⟩
      · simp only [Heap.msg, Heap.setMsg, if_true, List.map_append]; rfl
      · simp only [Heap.msg, Heap.setMsg, if_neg hn]; rfl
    · have e' : ct ≠ py! "application/vnd.wap.multipart.related" := e
      simp only [if_pos e', M.modify, after, outcome]
      refine ⟨trivial, ?_, fun n hn => ?_, fun _ => rfl⟩
      · simp only [Heap.msg, Heap.setMsg, if_true, List.map_append]; rfl
      · simp only [Heap.msg, Heap.setMsg, if_neg hn]; rfl

/-! ### new objects -/

/-- a new part, slide or message is as empty as one a message owns, and nothing that exists is changed by making it -/
theorem C78_new {h : Heap} (hh : Reach h) :
    (outcome (newPart h) = .ok h.nextPart ∧ (after (newPart h)).parts h.nextPart = DataPart.new ∧
      (∀ q, q < h.nextPart → (after (newPart h)).parts q = h.parts q) ∧
      (∀ q, q < h.nextPage → (after (newPart h)).page q = h.page q) ∧
      ∀ n, n < h.nextMsg → (after (newPart h)).msg n = h.msg n) ∧
    (outcome (newPage h) = .ok h.nextPage ∧ (after (newPage h)).page h.nextPage = Page.new ∧
      (∀ q, q < h.nextPage → (after (newPage h)).page q = h.page q) ∧
      ∀ n, n < h.nextMsg → (after (newPage h)).msg n = h.msg n) ∧
    (outcome (newMsg h) = .ok h.nextMsg ∧ (after (newMsg h)).msg h.nextMsg = Msg.new ∧
      ∀ n, n < h.nextMsg → (after (newMsg h)).msg n = h.msg n) := by
  have w := C78_reach hh
  refine ⟨?_, ?_, ?_⟩
  · have ka : ∀ q, q < h.nextPart → (after (newPart h)).parts q = h.parts q := by
      intro q hq
      show (if q = h.nextPart then DataPart.new else h.parts q) = _
      rw [if_neg (Nat.ne_of_lt hq)]
    have kp : ∀ q, q < h.nextPage → (after (newPart h)).page q = h.page q := by
      intro q hq
      have so : ∀ {z : Option (Nat × Int × Int)}, ((h.pages q).image = z ∨ (h.pages q).audio = z ∨ (h.pages q).text = z) →
          (h.setPart h.nextPart DataPart.new).slot z = h.slot z := by
        intro z hz
        refine slot_other fun t ht => wf_slots w hq (t := t.2) ?_
        subst ht
        exact hz
      show Page.mk _ _ _ _ = Page.mk _ _ _ _
      congr 1
      · exact so (.inl rfl)
      · exact so (.inr (.inl rfl))
      · exact so (.inr (.inr rfl))
    exact ⟨rfl, by simp [newPart, after, Heap.setPart], ka, kp, fun n hn => msg_of_pages (h' := after (newPart h)) w rfl kp ka hn⟩
  · have kp : ∀ q, q < h.nextPage → (after (newPage h)).page q = h.page q := by
      intro q hq
      simp only [newPage, after, Heap.page, Heap.setPage, if_neg (Nat.ne_of_lt hq)]
      rfl
    refine ⟨rfl, ?_, kp, fun n hn => msg_of_pages (h' := after (newPage h)) w rfl kp (fun _ _ => rfl) hn⟩
    simp [newPage, after, Heap.page, Heap.setPage, Heap.slot, Page.new]
  · refine ⟨rfl, ?_, fun n hn => ?_⟩
    · simp only [newMsg, after, Heap.msg, Heap.setMsg, if_true]
      rfl
    · simp only [newMsg, after, Heap.msg, Heap.setMsg, if_neg (Nat.ne_of_lt hn)]
      rfl

/-- `add_data_part` adds to the one message the part as it is (and will be), and changes nothing else -/
theorem C78_addDataPart (h : Heap) (m r : Nat) :
    outcome (addDataPartH m r h) = .ok () ∧
    (after (addDataPartH m r h)).msg m = { h.msg m with dataParts := (h.msg m).dataParts ++ [h.parts r] } ∧
    (∀ n, n ≠ m → (after (addDataPartH m r h)).msg n = h.msg n) ∧
    (∀ q, (after (addDataPartH m r h)).page q = h.page q) ∧ (after (addDataPartH m r h)).parts = h.parts := by
  refine ⟨rfl, ?_, fun n hn => ?_, fun _ => rfl, rfl⟩
  · simp only [addDataPartH, after, Heap.msg, Heap.setMsg, if_true, List.map_append]; rfl
  · simp only [addDataPartH, after, Heap.msg, Heap.setMsg, if_neg hn]; rfl

/-- assigning a header changes that header of the one message, and nothing else -/
theorem C78_setHeader (h : Heap) (m : Nat) (k : Str) (v : HVal) :
    outcome (setHeaderH m k v h) = .ok () ∧
    (∃ hd, (after (setHeaderH m k v h)).msg m = { h.msg m with headers := hd } ∧ hd.get k = some v ∧
      ∀ k', k' ≠ k → hd.get k' = (h.msg m).headers.get k') ∧
    (∀ n, n ≠ m → (after (setHeaderH m k v h)).msg n = h.msg n) ∧
    (∀ q, (after (setHeaderH m k v h)).page q = h.page q) ∧ (after (setHeaderH m k v h)).parts = h.parts := by
  refine ⟨rfl, ⟨(h.msgs m).headers.set k v, ?_, ?_, ?_⟩, fun n hn => ?_, fun _ => rfl, rfl⟩
  · simp only [setHeaderH, after, Heap.msg, Heap.setMsg, if_true]; rfl
  · rw [dict_get_set, if_pos rfl]
  · intro k' hk
    rw [dict_get_set, if_neg (fun e => hk e.symm)]
    rfl
  · simp only [setHeaderH, after, Heap.msg, Heap.setMsg, if_neg hn]; rfl

/-- a slide after the assignment of a part, with times, to one of its slots -/
theorem C78_assign (h : Heap) (r : Nat) (x : Option (Nat × Int × Int)) :
    (∀ q, (after (assignSlot PageObj.putImage r x h)).page q = if q = r then { h.page r with image := h.slot x } else h.page q) ∧
    (∀ q, (after (assignSlot PageObj.putAudio r x h)).page q = if q = r then { h.page r with audio := h.slot x } else h.page q) ∧
    (∀ q, (after (assignSlot PageObj.putText r x h)).page q = if q = r then { h.page r with text := h.slot x } else h.page q) ∧
    ∀ put, outcome (assignSlot put r x h) = .ok () ∧ (after (assignSlot put r x h)).msgs = h.msgs ∧
      (after (assignSlot put r x h)).parts = h.parts := by
  refine ⟨fun q => ?_, fun q => ?_, fun q => ?_, fun _ => ⟨rfl, rfl, rfl⟩⟩ <;>
  · by_cases e : q = r
    · subst e
      simp only [assignSlot, after, Heap.page, Heap.setPage, if_true]
      rfl
    · simp only [assignSlot, after, Heap.page, Heap.setPage, if_neg e]
      rfl

/-- `smil` returns what it would for a message that owns its slides and parts, and changes nothing but what the parts in
the slides keep of their files -/
theorem C78_smil (env : Env) (m : Nat) (h : Heap) :
    outcome (smilH env m h) = (h.msg m).smil env ∧ PartlyRead env m (h.msgs m).headers h (after (smilH env m h)) := by
  obtain ⟨h', r, e⟩ := Sim.smilH env m h
  rw [e]
  have hp : PartlyRead env m (h.msgs m).headers h h' := by
    refine ⟨r.pages, fun n _ => by rw [r.msgs], by rw [r.msgs], r.maybe, fun x hx => ?_⟩
    rcases r.parts x with e | ⟨⟨q, hq, hi⟩, _⟩
    · exact e
    · exact absurd ⟨q, hq, hi⟩ hx
  cases (h.msg m).smil env <;> exact ⟨rfl, hp⟩

/-- a part made from a file is as the one a message owns, and nothing that exists is changed by making it -/
theorem C78_newFromFile {h : Heap} (hh : Reach h) (env : Env) (f : Str) :
    outcome (newPartFromFile env f h) = (DataPart.ofFile env f).map (fun _ => h.nextPart) ∧
    (∀ p, DataPart.ofFile env f = .ok p → (after (newPartFromFile env f h)).parts h.nextPart = p) ∧
    (∀ q, q < h.nextPart → (after (newPartFromFile env f h)).parts q = h.parts q) ∧
    (∀ q, q < h.nextPage → (after (newPartFromFile env f h)).page q = h.page q) ∧
    ∀ n, n < h.nextMsg → (after (newPartFromFile env f h)).msg n = h.msg n := by
  have w := C78_reach hh
  unfold newPartFromFile
  cases DataPart.ofFile env f with
  | error e => exact ⟨rfl, fun p hp => (by cases hp), fun _ _ => rfl, fun _ _ => rfl, fun _ _ => rfl⟩
  | ok p =>
    have ka : ∀ q, q < h.nextPart → (h.setPart h.nextPart p).parts q = h.parts q := fun q hq => by
      simp only [Heap.setPart, if_neg (Nat.ne_of_lt hq)]
    have kb : ∀ q, q < h.nextPage → (h.setPart h.nextPart p).page q = h.page q := by
      intro q hq
      have hs := w.slides q hq
      unfold Heap.page
      rw [slot_other, slot_other, slot_other]
      · rfl
      · exact fun t ht => hs t.1 ⟨t.2, .inr (.inr ht)⟩
      · exact fun t ht => hs t.1 ⟨t.2, .inr (.inl ht)⟩
      · exact fun t ht => hs t.1 ⟨t.2, .inl ht⟩
    refine ⟨rfl, ?_, ka, kb, fun n hn => ?_⟩
    · rintro p' ⟨⟩
      simp only [after, Heap.setPart, if_true]
    · exact msg_of_pages (h' := { h.setPart h.nextPart p with nextPart := h.nextPart + 1 }) w rfl kb ka hn

/-! ### a program with two messages that share a slide -/

/-- a slide with a text, in two messages (and twice in the second) -/
def sharedHeap : Heap :=
  let h := after (newMsg (after (newMsg (after (newPage empty)))))
  let h := after (addTextH 0 (.str (py! "hello")) (.int 0) (.int 0) h)
  after (addPageH 1 0 (after (addPageH 1 0 (after (addPageH 0 0 h)))))

theorem sharedHeap_reach : Reach sharedHeap := by
  unfold sharedHeap
  refine .step (.step (.step (.step (.step (.step (.step .start (.newPage _)) (.newMsg _)) (.newMsg _)) (.addText _ _ _ _ _ ?_))
    (.addPage _ _ _ ?_ ?_)) (.addPage _ _ _ ?_ ?_)) (.addPage _ _ _ ?_ ?_) <;> decide +kernel

/-- making objects here leaves the slide and both messages as they are -/
example : (after (newPage sharedHeap)).page 0 = sharedHeap.page 0 ∧ (after (newPage sharedHeap)).page 1 = Page.new ∧
    (after (newMsg sharedHeap)).msg 1 = sharedHeap.msg 1 :=
  ⟨(C78_new sharedHeap_reach).2.1.2.2.1 0 (by decide +kernel), (C78_new sharedHeap_reach).2.1.2.1,
    (C78_new sharedHeap_reach).2.2.2.2 1 (by decide +kernel)⟩

/-- both messages are encoded; the second, which shows the slide twice, to more octets -/
example : ((outcome (encodeH ⟨fun _ => none, fun _ => none⟩ id 5 0 sharedHeap)).map List.length).toOption = some 378 ∧
    ((outcome (encodeH ⟨fun _ => none, fun _ => none⟩ id 5 1 sharedHeap)).map List.length).toOption = some 456 := by
  decide +kernel

/-- a change of the slide is seen in the first message once and in the second twice -/
example : ((after (setDurationH 0 (.int 9) sharedHeap)).msg 0).pages.map (·.duration) = [9] ∧
    ((after (setDurationH 0 (.int 9) sharedHeap)).msg 1).pages.map (·.duration) = [9, 9] ∧
    (sharedHeap.msg 1).pages.map (·.duration) = [4000, 4000] := by decide +kernel

end Verif.Props

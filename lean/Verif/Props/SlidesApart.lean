import Verif.Props.Labels
import Verif.Props.MmsTrip
import Verif.Proofs.Cache
import Verif.Proofs.Heap
/-!
# Slides are sent one after the other, each as if it were the only one
-/
set_option autoImplicit false

namespace Verif.Props
open Verif Verif.Mms
open Verif.Spec.Wsp (uintvar)

/-! ### C122 the octets of a slide -/

/-- the message with other slides -/
def withSlides (m : Msg) (l : List Page) : Msg := { m with pages := l }

/-- how many media a slide shows -/
def mediaOf (p : Page) : Nat := p.image.isSome.toNat + p.audio.isSome.toNat + p.text.isSome.toNat

/-- the entry of the presentation `s`: lengths, `application/smil`, the label `<0000>`, the document -/
def presentation (s : Str) : List Nat :=
  uintvar 35 ++ uintvar s.length ++ (py! "application/smil" ++ [0] ++ (py! "Content-ID" ++ [0]) ++ (py! "<0000>" ++ [0])) ++ s

/-- the octets of a message: headers, number of entries, presentation, slides -/
def layout (hdr : List Nat) (n : Nat) (s : Str) (slides : List (List Nat)) : List Nat :=
  hdr ++ uintvar n ++ presentation s ++ slides.flatten

theorem presentation_sent {env : Env} {ord : Dict HVal → Dict HVal} (hord : ∀ d, (ord d).Perm d) (s : Str) :
    encodePart env ord (smilPart s) = .ok (presentation s) := by
  have h1 : (smilPart s).headers.index (py! "Content-Type") = .ok (.ct (py! "application/smil") []) := rfl
  have h3 : encodePartHeaders (ord (smilPart s).headers) = encodePartHeaders (smilPart s).headers := by
    rcases perm_two (hord (smilPart s).headers) with h | h <;> rw [h] <;> rfl
  have hl : (smilPart s).len env = .ok s.length := rfl
  have hr : (smilPart s).readData env = .ok s := rfl
  unfold encodePart
  rw [h1, h3]
  have hb := uintVar_octets s.length
  simp only [hl, hr]
  obtain ⟨ct, e1, lc, e2⟩ : ∃ ct, encodeCtPair (.ct (py! "application/smil") []) = .ok ct ∧ (ct.length = 17 ∧
      toOctets ct = .ok (py! "application/smil" ++ [0])) := ⟨_, rfl, rfl, rfl⟩
  obtain ⟨hs, e3, ls, e4⟩ : ∃ hs, encodePartHeaders (smilPart s).headers = .ok hs ∧ (hs.length = 18 ∧
      toOctets hs = .ok ((py! "Content-ID" ++ [0]) ++ (py! "<0000>" ++ [0]))) := ⟨_, rfl, rfl, rfl⟩
  have ha : toOctets (ints (encodeUintVar ((ct.length : Int) + hs.length))) = .ok (uintvar 35) := by
    rw [lc, ls]
    exact uintVar_octets 35
  simp only [bind, Except.bind, e1, e3, ha, hb, e2, e4, presentation, List.append_assoc]

/-- the slides are sent one after the other -/
theorem slides_sent (env : Env) (ord : Dict HVal → Dict HVal) : ∀ (ps : List Page),
    encodeParts env ord (slideParts ps) = (do
      let os ← ps.mapM (fun p => encodeParts env ord (slideParts [p]))
      .ok os.flatten)
  | [] => rfl
  | p :: ps => by
    have h1 : slideParts (p :: ps) = slideParts [p] ++ slideParts ps := by simp [slideParts]
    rw [h1, encodeParts_append, slides_sent env ord ps, List.mapM_cons]
    cases encodeParts env ord (slideParts [p]) with
    | error e => rfl
    | ok a =>
      simp only [bind, Except.bind]
      cases ps.mapM (fun p => encodeParts env ord (slideParts [p])) with
      | error e => rfl
      | ok os => rfl

theorem entries_count (m : Msg) : numEntries m = 1 + (m.pages.map mediaOf).sum + m.dataParts.length := by
  have key : ∀ p : Page, p.numberOfParts = mediaOf p := by
    rintro ⟨du, im, au, tx⟩
    cases im <;> cases au <;> cases tx <;> rfl
  have : m.pages.map Page.numberOfParts = m.pages.map mediaOf := List.map_congr_left fun p _ => key p
  unfold numEntries
  rw [this]

/-- what `encode` answers, step by step -/
theorem encode_steps (env : Env) (ord : Dict HVal → Dict HVal) (hord : ∀ d, (ord d).Perm d) (rnd : Nat) (m : Msg) (l : List Page) :
    answer (encode env ord rnd (withSlides m l)) = (do
      let hdr ← answer (encodeMessageHeader ord rnd m)
      let s ← (withSlides m l).smil env
      let os ← l.mapM (fun p => encodeParts env ord (slideParts [p]))
      .ok (layout hdr (1 + (l.map mediaOf).sum + m.dataParts.length) s os)) := by
  have hn := NoPages.encodeMessageHeader l ord rnd m
  have ho := OnlyHeaders.encodeMessageHeader ord rnd m
  unfold encode
  rw [M.bind_apply]
  unfold withSlides
  rw [hn]
  cases hh : encodeMessageHeader ord rnd m with
  | err e m' => rfl
  | ok hdr m' =>
    rw [hh] at ho
    have ho : m' = { m with headers := m'.headers } := ho
    generalize m'.headers = d at ho
    subst ho
    have hs : Msg.smil env { m with headers := d, pages := l } = Msg.smil env { m with pages := l } := rfl
    simp only [M.bind_apply, M.get, answer, encodeMessageBody, uintVar_octets, hs, entries_count, encodeParts,
      presentation_sent hord, slides_sent env ord l]
    simp only [bind, Except.bind]
    cases Msg.smil env { m with pages := l } with
    | error e => rfl
    | ok s =>
      simp only []
      cases l.mapM (fun p => encodeParts env ord (slideParts [p])) with
      | error e => rfl
      | ok os =>
        simp only [M.lift_ok, layout, List.append_assoc]
        rfl

theorem mapM_forall₂ {α β : Type} {f : α → Py β} : ∀ {l : List α} {os : List β}, l.mapM f = .ok os →
    List.Forall₂ (fun a b => f a = .ok b) l os
  | [], os, h => by
    cases h
    exact .nil
  | a :: l, os, h => by
    rw [List.mapM_cons] at h
    cases ha : f a with
    | error e => rw [ha] at h; cases h
    | ok b =>
      rw [ha] at h
      cases hl : l.mapM f with
      | error e => rw [hl] at h; cases h
      | ok bs =>
        rw [hl] at h
        cases h
        exact .cons ha (mapM_forall₂ hl)

theorem mapM_error {α β : Type} {f : α → Py β} {e : PyErr} : ∀ {l : List α}, l.mapM f = .error e →
    ∃ a b x, l = a ++ x :: b ∧ (∀ y ∈ a, ∃ o, f y = .ok o) ∧ f x = .error e
  | [], h => by cases h
  | a :: l, h => by
    rw [List.mapM_cons] at h
    cases ha : f a with
    | error e' =>
      rw [ha] at h
      cases h
      exact ⟨[], l, a, rfl, by simp, ha⟩
    | ok b =>
      rw [ha] at h
      cases hl : l.mapM f with
      | ok bs => rw [hl] at h; cases h
      | error e' =>
        rw [hl] at h
        cases h
        obtain ⟨u, v, x, h1, h2, h3⟩ := mapM_error hl
        exact ⟨a :: u, v, x, by rw [h1]; rfl, by
          intro y hy
          rcases List.mem_cons.1 hy with rfl | hy
          · exact ⟨b, ha⟩
          · exact h2 y hy, h3⟩

/-- C122: the octets of a message are its headers, the number of entries, the presentation and the octets of its slides one
after the other.  The headers are those of the message without slides.  The octets of a slide are those it has as the only
slide of the message, if the presentation of that message can be made. -/
theorem C122_slides (env : Env) (ord : Dict HVal → Dict HVal) (hord : ∀ d, (ord d).Perm d) (rnd : Nat) (m : Msg) (o : List Nat)
    (h : answer (encode env ord rnd m) = .ok o) :
    ∃ hdr s s0 os, m.smil env = .ok s ∧ (withSlides m []).smil env = .ok s0 ∧
      o = layout hdr (1 + (m.pages.map mediaOf).sum + m.dataParts.length) s os ∧
      answer (encode env ord rnd (withSlides m [])) = .ok (layout hdr (1 + m.dataParts.length) s0 []) ∧
      List.Forall₂ (fun p x => ∀ s1, (withSlides m [p]).smil env = .ok s1 →
        answer (encode env ord rnd (withSlides m [p])) = .ok (layout hdr (1 + mediaOf p + m.dataParts.length) s1 [x])) m.pages os := by
  have h0 : withSlides m m.pages = m := rfl
  have hs := encode_steps env ord hord rnd m m.pages
  rw [h0, h] at hs
  obtain ⟨s0, e0⟩ : ∃ s0, (withSlides m []).smil env = .ok s0 := ⟨_, rfl⟩
  cases hh : answer (encodeMessageHeader ord rnd m) with
  | error e => rw [hh] at hs; cases hs
  | ok hdr =>
    rw [hh] at hs
    cases hm : m.smil env with
    | error e => rw [hm] at hs; cases hs
    | ok s =>
      rw [hm] at hs
      cases hp : m.pages.mapM (fun p => encodeParts env ord (slideParts [p])) with
      | error e => rw [hp] at hs; cases hs
      | ok os =>
        rw [hp] at hs
        refine ⟨hdr, s, s0, os, rfl, e0, Except.ok.inj hs, ?_, ?_⟩
        · rw [encode_steps env ord hord, hh, e0]
          simp only [bind, Except.bind, List.mapM_nil, pure, Except.pure, List.map_nil, List.sum_nil, Nat.add_zero]
        · refine (mapM_forall₂ hp).imp ?_
          intro p x hx s1 h1
          rw [encode_steps env ord hord, hh, h1, List.mapM_cons, hx]
          simp only [bind, Except.bind, List.mapM_nil, pure, Except.pure, List.map_cons, List.map_nil, List.sum_cons, List.sum_nil,
            Nat.add_zero]

/-- C122: if the presentation can be made, a message that cannot be sent fails as the message without slides does, or as its
first slide that cannot be sent does on its own. -/
theorem C122_fails (env : Env) (ord : Dict HVal → Dict HVal) (hord : ∀ d, (ord d).Perm d) (rnd : Nat) (m : Msg) (e : PyErr) (s : Str)
    (hm : m.smil env = .ok s) (h : answer (encode env ord rnd m) = .error e) :
    answer (encode env ord rnd (withSlides m [])) = .error e ∨
    ((∃ o, answer (encode env ord rnd (withSlides m [])) = .ok o) ∧
      ∃ a b p, m.pages = a ++ p :: b ∧
      (∀ q ∈ a, ∀ s1, (withSlides m [q]).smil env = .ok s1 → ∃ o, answer (encode env ord rnd (withSlides m [q])) = .ok o) ∧
      ∀ s1, (withSlides m [p]).smil env = .ok s1 → answer (encode env ord rnd (withSlides m [p])) = .error e) := by
  have h0 : withSlides m m.pages = m := rfl
  have hs := encode_steps env ord hord rnd m m.pages
  rw [h0, h, hm] at hs
  obtain ⟨s0, e0⟩ : ∃ s0, (withSlides m []).smil env = .ok s0 := ⟨_, rfl⟩
  cases hh : answer (encodeMessageHeader ord rnd m) with
  | error e' =>
    rw [hh] at hs
    left
    rw [encode_steps env ord hord, hh]
    exact congrArg _ (Except.error.inj hs).symm
  | ok hdr =>
    rw [hh] at hs
    right
    cases hp : m.pages.mapM (fun p => encodeParts env ord (slideParts [p])) with
    | ok os => rw [hp] at hs; cases hs
    | error e' =>
      rw [hp] at hs
      have he : e = e' := Except.error.inj hs
      subst he
      obtain ⟨a, b, p, h1, h2, h3⟩ := mapM_error hp
      refine ⟨?_, a, b, p, h1, ?_, ?_⟩
      · rw [encode_steps env ord hord, hh, e0]
        exact ⟨_, rfl⟩
      · intro q hq s1 hs1
        obtain ⟨x, hx⟩ := h2 q hq
        rw [encode_steps env ord hord, hh, hs1, List.mapM_cons, hx]
        exact ⟨_, rfl⟩
      · intro s1 hs1
        rw [encode_steps env ord hord, hh, hs1, List.mapM_cons, h3]
        rfl

/-- C122: a message can be sent if its presentation can be made and each of its slides can be sent on its own, in whatever
order and however often they come. -/
theorem C122_sent (env : Env) (ord : Dict HVal → Dict HVal) (hord : ∀ d, (ord d).Perm d) (rnd : Nat) (m : Msg) (s : Str)
    (hm : m.smil env = .ok s) (h0 : ∃ o, answer (encode env ord rnd (withSlides m [])) = .ok o)
    (hp : ∀ p ∈ m.pages, ∃ o, answer (encode env ord rnd (withSlides m [p])) = .ok o) :
    ∃ o, answer (encode env ord rnd m) = .ok o := by
  cases hr : answer (encode env ord rnd m) with
  | ok o => exact ⟨o, rfl⟩
  | error e =>
    rcases C122_fails env ord hord rnd m e s hm hr with h | ⟨_, a, b, p, hpp, _, h⟩
    · obtain ⟨o, ho⟩ := h0
      rw [ho] at h
      cases h
    · obtain ⟨o, ho⟩ := hp p (by rw [hpp]; simp)
      have hs := encode_steps env ord hord rnd m [p]
      rw [ho] at hs
      cases hsm : (withSlides m [p]).smil env with
      | ok s1 =>
        rw [h s1 hsm] at ho
        cases ho
      | error e' =>
        rw [hsm] at hs
        cases hh : answer (encodeMessageHeader ord rnd m) <;> rw [hh] at hs <;> cases hs

/-- a call that raised nothing -/
def isSent {α : Type} : Py α → Bool
  | .ok _ => true
  | .error _ => false

theorem isSent_iff {α : Type} {x : Py α} (h : isSent x = true) : ∃ o, x = .ok o := by
  cases x with
  | ok o => exact ⟨o, rfl⟩
  | error e => cases h

/-- a photo with a text, then a text -/
def twoSlides : Msg := withSlides photoMsg (photoMsg.pages ++ [textPage (py! "Hi")])

example : (∃ o, answer (encode sampleEnv id 7 twoSlides) = .ok o) ∧ twoSlides.pages.map mediaOf = [2, 1] :=
  ⟨isSent_iff (by decide +kernel), rfl⟩
example : ∃ o, answer (encode sampleEnv id 7 (withSlides twoSlides [])) = .ok o := isSent_iff (by decide +kernel)
example : ∀ p ∈ twoSlides.pages, ∃ o, answer (encode sampleEnv id 7 (withSlides twoSlides [p])) = .ok o := by
  intro p hp
  have hp : p ∈ photoMsg.pages ++ [textPage (py! "Hi")] := hp
  simp only [photoMsg, List.cons_append, List.nil_append, List.mem_cons, List.not_mem_nil, or_false] at hp
  rcases hp with rfl | rfl <;> exact isSent_iff (by decide +kernel)

/-- a text, then a text without a type -/
def typelessSlides : Msg := withSlides photoMsg [textPage (py! "Hi"), { Page.new with text := some (
  { DataPart.new with data := some (py! "x"), headers := [] }, 0, 0) }]

example : (∃ s, typelessSlides.smil sampleEnv = .ok s) ∧ answer (encode sampleEnv id 7 typelessSlides) = .error .keyError :=
  ⟨⟨_, rfl⟩, by decide +kernel⟩

/-! A slide with audio and no text can be sent after a slide with a text, but not on its own (C53): the presentation of that
message cannot be made, which is why the theorems ask for it. -/

example : (∃ o, answer (encode sampleEnv id 7 (withSlides photoMsg [textPage (py! "Hi"),
      { Page.new with audio := some (textPart (py! "la"), 0, 0) }])) = .ok o) ∧
    answer (encode sampleEnv id 7 (withSlides photoMsg [{ Page.new with audio := some (textPart (py! "la"), 0, 0) }])) =
      .error .nameError :=
  ⟨isSent_iff (by decide +kernel), by decide +kernel⟩

end Verif.Props

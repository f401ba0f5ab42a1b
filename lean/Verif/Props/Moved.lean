import Verif.Proofs.Moved
import Verif.Props.Slides
import Mathlib.Data.Nat.Find
/-!
# C53: the presentation of any slides, also those with audio and no text
-/
set_option autoImplicit false

namespace Verif.Props
open Verif Verif.Mms
open Verif.Spec.Slides (Slide LastText TextShown Arranged AudioTexts)

/-- The presentation of any message.  If every slide with audio has a text, or one before it has, there is one `par` per
slide, in order, with the duration, the image and the audio of the slide and the text shown with it: its own, or the last
text before it if it has audio and no text, unless a later slide takes the text over.  Otherwise it raises NameError. -/
theorem C53_exact (env : Env) (m : Msg) (slides : List Slide) (h : List.Forall₂ (PageIs env) m.pages slides) :
    (AudioTexts slides → ∃ pars, m.smilBody env = .ok pars ∧ pars.length = slides.length ∧
      ∀ (j : Nat) (s : Slide) (p : ParNode), slides[j]? = some s → pars[j]? = some p →
        p.view.1 = s.duration ∧ Arranged slides j s p.view.2) ∧
    (¬ AudioTexts slides → m.smilBody env = .error .nameError) := by
  obtain ⟨h1, h2⟩ := smilPages_inv h [] _ inv_start
  simp only [List.nil_append, List.length_nil, Nat.zero_le, true_and, forall_const] at h1 h2
  unfold Msg.smilBody
  constructor
  · intro ha
    obtain ⟨st, e, inv⟩ := h1 ha
    refine ⟨st.pars, by rw [e]; rfl, inv.len, ?_⟩
    intro j s p hs hp
    obtain ⟨hd, hk⟩ := inv.pars j s p hs hp
    exact ⟨hd, arranged_of_kids hk⟩
  · intro ha
    unfold AudioTexts at ha
    push Not at ha
    rw [h2 ha]
    rfl

theorem textShown_unique {slides : List Slide} {i j j' : Nat} (h : TextShown slides j i) (h' : TextShown slides j' i) : j = j' := by
  have key : ∀ a b, TextShown slides a i → TextShown slides b i → ¬ a < b := by
    intro a b ⟨l1, _, l3⟩ ⟨r1, r2, _⟩ hlt
    rcases r2 with rfl | ⟨s, hs, ha⟩
    · have := l1.1; omega
    · rw [l3 b s hlt hs r1] at ha; cases ha
  have h1 := key j j' h h'
  have h2 := key j' j h' h
  omega

theorem textShown_exists {slides : List Slide} {i : Nat} {s : Slide} (hs : slides[i]? = some s) (ht : s.text.isSome) :
    ∃ j, TextShown slides j i := by
  classical
  let P : Nat → Prop := fun j => LastText slides j i ∧ (i = j ∨ ∃ x, slides[j]? = some x ∧ x.audio.isSome)
  have hi : P i := ⟨⟨Nat.le_refl _, ⟨s, hs, ht⟩, fun k _ h1 h2 => by omega⟩, .inl rfl⟩
  have hlen := (List.getElem?_eq_some_iff.1 hs).1
  have hP : P (Nat.findGreatest P slides.length) := Nat.findGreatest_spec (Nat.le_of_lt hlen) hi
  refine ⟨_, hP.1, hP.2, ?_⟩
  intro k x hk hx hl
  cases ha : x.audio with
  | none => rfl
  | some m =>
    have hkl := (List.getElem?_eq_some_iff.1 hx).1
    have := Nat.le_findGreatest (P := P) (Nat.le_of_lt hkl) ⟨hl, .inr ⟨x, hx, by rw [ha]; rfl⟩⟩
    omega

/-- no text is lost and none is shown twice: every slide's text is shown with exactly one slide, its own or a later one,
and never with one that has a text of its own -/
theorem C53_once (slides : List Slide) (i : Nat) (s : Slide) (hs : slides[i]? = some s) (ht : s.text.isSome) :
    ∃ j, TextShown slides j i ∧ (∀ k, TextShown slides k i → k = j) ∧ i ≤ j ∧
      ∀ x, slides[j]? = some x → x.text.isSome → j = i := by
  obtain ⟨j, hj⟩ := textShown_exists hs ht
  refine ⟨j, hj, fun k hk => textShown_unique hk hj, hj.1.1, ?_⟩
  intro x hx hxt
  by_contra hne
  rw [hj.1.2.2 j x (Nat.lt_of_le_of_ne hj.1.1 (fun h => hne h.symm)) (Nat.le_refl _) hx] at hxt
  cases hxt

/-- exactly the messages in which every slide with audio also has a text are presented slide by slide -/
theorem C53_iff (env : Env) (m : Msg) (slides : List Slide) (h : List.Forall₂ (PageIs env) m.pages slides) :
    (∃ pars, m.smilBody env = .ok pars ∧ pars.map ParNode.view = slides.map (fun s => (s.duration, s.elems))) ↔
      ∀ s ∈ slides, s.audio.isSome → s.text.isSome := by
  refine ⟨?_, C53_partial env m slides h⟩
  rintro ⟨pars, h1, h2⟩ s hs ha
  obtain ⟨e1, e2⟩ := C53_exact env m slides h
  have hat : AudioTexts slides := by
    by_contra hn
    rw [e2 hn] at h1
    cases h1
  obtain ⟨pars', h1', hlen, hv⟩ := e1 hat
  rw [h1] at h1'
  cases h1'
  obtain ⟨j, hj⟩ := List.getElem?_of_mem hs
  by_contra hnt
  obtain ⟨i, hi⟩ := hat j s hj ha
  have hlt : i < j := by
    refine Nat.lt_of_le_of_ne hi.1 ?_
    rintro rfl
    obtain ⟨x, hx, hxt⟩ := hi.2.1
    rw [hj] at hx
    cases hx
    exact hnt hxt
  obtain ⟨si, hsi, hst⟩ := hi.2.1
  obtain ⟨k, hk⟩ := textShown_exists hsi hst
  have hik : i < k := by
    by_contra hc
    have : k = i := by have := hk.1.1; omega
    subst this
    rw [hk.2.2 j s hlt hj hi] at ha
    cases ha
  have hkl := textShown_lt hk
  obtain ⟨x, hx⟩ : ∃ x, slides[k]? = some x := ⟨_, List.getElem?_eq_getElem hkl⟩
  obtain ⟨p, hp⟩ : ∃ p, pars[k]? = some p := ⟨_, List.getElem?_eq_getElem (by omega)⟩
  have hxt : x.text = none := hk.1.2.2 k x hik (Nat.le_refl _) hx
  obtain ⟨_, t, ht, ht1, _⟩ := hv k x p hx hp
  have hview : p.view = (x.duration, x.elems) := by
    have := congrArg (fun l => l[k]?) h2
    simp only [List.getElem?_map, hx, hp, Option.map_some, Option.some.injEq] at this
    exact this
  rw [hview, ht1 i si hk hsi] at ht
  have := congrArg List.length ht
  obtain ⟨mt, hmt⟩ := Option.isSome_iff_exists.1 hst
  simp [Spec.Slides.Slide.elems, Spec.Slides.Slide.imageElems, Spec.Slides.Slide.textElems, Spec.Slides.Slide.audioElems, hxt, hmt] at this

/-- three slides: a text, an audio, an audio -/
example : AudioTexts [textSlide (py! "Hi"), audioSlide, audioSlide] ∧
    TextShown [textSlide (py! "Hi"), audioSlide, audioSlide] 2 0 ∧ ¬ AudioTexts [audioSlide, textSlide (py! "Hi")] := by
  have key : ∀ j, LastText [textSlide (py! "Hi"), audioSlide, audioSlide] j 0 := by
    intro j
    refine ⟨Nat.zero_le _, ⟨_, rfl, rfl⟩, ?_⟩
    rintro (_ | _ | _ | k) s hk _ hs
    · omega
    · cases hs; rfl
    · cases hs; rfl
    · simp at hs
  refine ⟨fun j _ _ _ => ⟨0, key j⟩, ⟨key 2, .inr ⟨_, rfl, rfl⟩, ?_⟩, ?_⟩
  · rintro (_ | _ | _ | k) s hk hs
    · omega
    · omega
    · omega
    · simp at hs
  · intro h
    obtain ⟨i, hi, ⟨s, hs, ht⟩, _⟩ := h 0 audioSlide rfl rfl
    have : i = 0 := by omega
    subst this
    cases hs
    cases ht

end Verif.Props

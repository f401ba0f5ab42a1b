import Verif.Props.Slides
/-!
# C54: what the parts of a slide hold after any history of calls
-/
set_option autoImplicit false

namespace Verif.Props
open Verif Verif.Mms
open Verif.Spec.Slides

/-- steps that do not set this kind leave its slot -/
theorem slot_kept (k : Kind) : ∀ (h : List Step) (p : Page), (∀ s ∈ h, ¬ (s.spec.Ok ∧ s.spec.Sets k)) →
    slot (h.foldl (fun p s => stateOf (s.run p)) p) k = slot p k
  | [], p, _ => rfl
  | s :: r, p, hk => by
    rw [List.foldl_cons, slot_kept k r _ fun t ht => hk t (by simp [ht])]
    rcases step_cases s p with ⟨hok, p', hr, h⟩ | ⟨_, err, hr, _⟩
    · rw [hr]
      rcases h with ⟨k', a, b, e, f, x, y, part, hs, _, _, _, _, ho, _⟩ | ⟨d, n, hs, _, _, rfl⟩
      · refine ho k fun he => hk s List.mem_cons_self ⟨hok, ?_⟩
        rw [hs]
        exact he.symm
      · cases k <;> rfl
    · rw [hr]
      rfl

theorem pageAfter_split (a : List Step) (s : Step) (b : List Step) :
    pageAfter (a ++ s :: b) = b.foldl (fun p s => stateOf (s.run p)) (stateOf (s.run (pageAfter a))) := by
  unfold pageAfter
  rw [List.foldl_append, List.foldl_cons]

/-- C54: after an accepted `add_text`, and until the next one that is accepted, the slide has a text part with exactly this
text, whatever else is called and whatever happens to files. -/
theorem C54_text (h0 h : List Step) (e : Env) (t : Str) (tb te : Val) (b d : Int) (hb : IsInt tb b) (hd : IsInt te d)
    (ht : TimesOk b d) (hk : ∀ s ∈ h, ¬ (s.spec.Ok ∧ s.spec.Sets .text)) : ∃ part,
    (pageAfter (h0 ++ ⟨e, .inl (.text, .str t, tb, te)⟩ :: h)).text = some (part, b, d) ∧
    (∀ env, part.readData env = .ok t ∧ part.len env = .ok t.length) ∧
    ∀ n, part.headers.get n = if py! "Content-Type" = n then some (.ct (py! "text/plain") []) else none := by
  refine ⟨textPart t, ?_, fun env => ⟨rfl, rfl⟩, fun n => rfl⟩
  rw [pageAfter_split]
  have := slot_kept .text h (stateOf ((Step.mk e (.inl (.text, .str t, tb, te))).run (pageAfter h0))) hk
  simp only [slot] at this
  rw [this]
  simp only [Step.run, Page.addText, textSlot_ok hb hd ht]
  rfl

/-- C54: after an accepted `add_image` or `add_audio`, and until the next one of the same kind that is accepted, the slide
has a part with the contents of this file at the time they are asked for, its base name as location and the type guessed
from the name (by the system) when it was added. -/
theorem C54_file (h0 h : List Step) (e : Env) (k : Kind) (hk' : k ≠ .text) (f c : Str) (hf : e.files f = some c)
    (tb te : Val) (b d : Int) (hb : IsInt tb b) (hd : IsInt te d)
    (ht : TimesOk b d) (hk : ∀ s ∈ h, ¬ (s.spec.Ok ∧ s.spec.Sets k)) : ∃ part,
    slot (pageAfter (h0 ++ ⟨e, .inl (k, .str f, tb, te)⟩ :: h)) k = some (part, b, d) ∧
    (∀ env c', env.files f = some c' → part.readData env = .ok c' ∧ part.len env = .ok c'.length) ∧
    (∀ env, env.files f = none → part.readData env = .error .ioError ∧ part.len env = .error .osError) ∧
    ∀ n, part.headers.get n =
      if py! "Content-Location" = n then some (.v (.str (f.reverse.takeWhile (· ≠ 47)).reverse))
      else if py! "Content-Type" = n then some (.ct ((e.mime f).getD (py! "application/octet-stream")) []) else none := by
  obtain ⟨part, hp, hs⟩ := fileSlot_ok hf hb hd ht
  rw [ofFile_ok e f c hf] at hp
  injection hp with hp
  refine ⟨part, ?_, fun env c' hc' => ⟨?_, ?_⟩, fun env hc' => ⟨?_, ?_⟩, fun n => ?_⟩
  · rw [pageAfter_split, slot_kept k h _ hk]
    cases k with
    | text => exact absurd rfl hk'
    | image =>
      simp only [Step.run, Page.addImage, hs]
      rfl
    | audio =>
      simp only [Step.run, Page.addAudio, hs]
      rfl
  · simp only [← hp, DataPart.readData, hc']
  · simp only [← hp, DataPart.len, hc']
  · simp only [← hp, DataPart.readData, hc']
  · simp only [← hp, DataPart.len, hc']
  · rw [← hp]
    rfl

/-- C54: a slide has no part of a kind that was never added with success. -/
theorem C54_none (h : List Step) (k : Kind) (hk : ∀ s ∈ h, ¬ (s.spec.Ok ∧ s.spec.Sets k)) : slot (pageAfter h) k = none := by
  unfold pageAfter
  rw [slot_kept k h _ hk]
  cases k <;> rfl

/-- a text is set again without success after the duration was changed -/
example : ∀ s ∈ [Step.mk sampleEnv (.inr (.int 7)), ⟨sampleEnv, .inl (.text, .str (py! "hi"), .int 100, .int 50)⟩],
    ¬ (s.spec.Ok ∧ s.spec.Sets .text) := by
  intro s hs
  simp only [List.mem_cons, List.not_mem_nil, or_false] at hs
  rcases hs with rfl | rfl
  · rintro ⟨_, h⟩
    exact h
  · rintro ⟨⟨_, ⟨x, y, hx, hy, ht⟩, _⟩, _⟩
    cases hx
    cases hy
    exact ht (by decide)

end Verif.Props

import Verif.Proofs.Slides
import Verif.Model.Wap
import Verif.Proofs.Safe2
/-!
# Properties of slides, the SMIL presentation, data parts and WAP pushes
-/
set_option autoImplicit false

namespace Verif.Props
open Verif Verif.Mms
open Verif.Spec.Slides (IsInt TimesOk Kind Call Holds Lasts Slide Medium)

/-! ### C54 slides -/

/-- a call on a page, with the files as they are at that moment -/
structure Step where
  env : Env
  call : Sum (Kind × Val × Val × Val) Val

/-- the library's answer -/
def Step.run (s : Step) : M Page Unit :=
  match s.call with
  | .inl (.image, f, b, e) => Page.addImage s.env f b e
  | .inl (.audio, f, b, e) => Page.addAudio s.env f b e
  | .inl (.text, t, b, e) => Page.addText t b e
  | .inr d => Page.setDuration d

/-- `os.path.isfile` -/
def isFile (env : Env) : Val → Bool
  | .str f => (env.files f).isSome
  | _ => false

/-- the call as the specification sees it -/
def Step.spec (s : Step) : Call :=
  match s.call with
  | .inl (k, a, b, e) => .add k a b e (isFile s.env a)
  | .inr d => .setDuration d

/-- the page after a call, whether it raised or not -/
def stateOf {α : Type} : Res Page α → Page
  | .ok _ s => s
  | .err _ s => s

/-- the page after a history of calls -/
def pageAfter (h : List Step) : Page := h.foldl (fun p s => stateOf (s.run p)) Page.new

/-- the slot of a kind -/
def slot (p : Page) : Kind → Option (DataPart × Int × Int)
  | .image => p.image
  | .audio => p.audio
  | .text => p.text

theorem step_cases (s : Step) (p : Page) :
    (s.spec.Ok ∧ ∃ p', s.run p = .ok () p' ∧
      ((∃ k a b e f x y part, s.spec = .add k a b e f ∧ IsInt b x ∧ IsInt e y ∧ TimesOk x y ∧
          slot p' k = some (part, x, y) ∧ (∀ k', k' ≠ k → slot p' k' = slot p k') ∧ p'.duration = p.duration) ∨
       (∃ d n, s.spec = .setDuration d ∧ IsInt d n ∧ 0 < n ∧ p' = { p with duration := n }))) ∨
    (¬ s.spec.Ok ∧ ∃ err, s.run p = .err err p ∧ (err = .typeError ∨ err = .valueError ∨ err = .osError)) := by
  obtain ⟨env, call⟩ := s
  have files : ∀ (k : Kind) (hk : k ≠ .text) (f b e : Val),
      (Page.fileSlot env f b e = .error .typeError ∨ Page.fileSlot env f b e = .error .valueError ∨
        Page.fileSlot env f b e = .error .osError) ∧ ¬ (Call.add k f b e (isFile env f)).Ok ∨
      ∃ part x y, Page.fileSlot env f b e = .ok (part, x, y) ∧ IsInt b x ∧ IsInt e y ∧ TimesOk x y ∧
        (Call.add k f b e (isFile env f)).Ok := by
    intro k hk f b e
    cases hs : Page.fileSlot env f b e with
    | ok r =>
      obtain ⟨f', c, x, y, rfl, hf, hb, he, ht, part, hp, rfl⟩ := fileSlot_inv hs
      refine .inr ⟨part, x, y, rfl, hb, he, ht, ⟨f', rfl⟩, ⟨x, y, hb, he, ht⟩, .inr ?_⟩
      simp [isFile, hf]
    | error err =>
      refine .inl ⟨?_, ?_⟩
      · unfold Page.fileSlot at hs
        split at hs
        · split at hs
          · split at hs
            · injection hs with hs; subst hs; simp
            · split at hs
              · injection hs with hs; subst hs; simp
              · rename_i f' _ _ _ _ _ _ hn _
                cases hc : env.files f' with
                | none => simp [hc] at hn
                | some c => rw [ofFile_ok env _ _ hc] at hs; cases hs
          · injection hs with hs; subst hs; simp
        · injection hs with hs; subst hs; simp
      · rintro ⟨⟨f', rfl⟩, ⟨x, y, hb, he, ht⟩, h⟩
        rcases h with h | h
        · exact hk h
        · simp only [isFile, Option.isSome_iff_exists] at h
          obtain ⟨c, hc⟩ := h
          obtain ⟨part, _, hok⟩ := fileSlot_ok hc hb he ht
          rw [hok] at hs
          cases hs
  cases call with
  | inl t =>
    obtain ⟨k, f, b, e⟩ := t
    cases k with
    | image =>
      rcases files .image (by decide) f b e with ⟨h, hn⟩ | ⟨part, x, y, h, hb, he, ht, hok⟩
      · refine .inr ⟨hn, ?_⟩
        rcases h with h | h | h <;> exact ⟨_, by simp only [Step.run, Page.addImage, h]; rfl, by simp⟩
      · refine .inl ⟨hok, { p with image := some (part, x, y) },
          by simp only [Step.run, Page.addImage, h]; rfl, .inl ⟨.image, f, b, e, _, x, y, part, rfl, hb, he, ht, rfl, ?_, rfl⟩⟩
        intro k' hk'
        cases k' <;> first | rfl | exact absurd rfl hk'
    | audio =>
      rcases files .audio (by decide) f b e with ⟨h, hn⟩ | ⟨part, x, y, h, hb, he, ht, hok⟩
      · refine .inr ⟨hn, ?_⟩
        rcases h with h | h | h <;> exact ⟨_, by simp only [Step.run, Page.addAudio, h]; rfl, by simp⟩
      · refine .inl ⟨hok, { p with audio := some (part, x, y) },
          by simp only [Step.run, Page.addAudio, h]; rfl, .inl ⟨.audio, f, b, e, _, x, y, part, rfl, hb, he, ht, rfl, ?_, rfl⟩⟩
        intro k' hk'
        cases k' <;> first | rfl | exact absurd rfl hk'
    | text =>
      cases hs : Page.textSlot f b e with
      | ok r =>
        obtain ⟨t, x, y, rfl, hb, he, ht, rfl⟩ := textSlot_inv hs
        refine .inl ⟨⟨⟨t, rfl⟩, ⟨x, y, hb, he, ht⟩, .inl rfl⟩, { p with text := some (textPart t, x, y) },
          by simp only [Step.run, Page.addText, hs]; rfl, .inl ⟨.text, _, b, e, _, x, y, _, rfl, hb, he, ht, rfl, ?_, rfl⟩⟩
        intro k' hk'
        cases k' <;> first | rfl | exact absurd rfl hk'
      | error err =>
        refine .inr ⟨?_, err, by simp only [Step.run, Page.addText, hs]; rfl, ?_⟩
        · rintro ⟨⟨t, rfl⟩, ⟨x, y, hb, he, ht⟩, _⟩
          rw [textSlot_ok hb he ht] at hs
          cases hs
        · unfold Page.textSlot at hs
          split at hs
          · split at hs
            · split at hs
              · injection hs with hs; subst hs; simp
              · cases hs
            · injection hs with hs; subst hs; simp
          · injection hs with hs; subst hs; simp
  | inr d =>
    cases hd : asPyInt d with
    | none =>
      refine .inr ⟨?_, .typeError, by simp only [Step.run, Page.setDuration, hd]; rfl, by simp⟩
      rintro ⟨n, hn, _⟩
      exact (asPyInt_none d).1 hd ⟨n, hn⟩
    | some n =>
      have hn := (asPyInt_iff d n).1 hd
      by_cases h1 : n < 1
      · refine .inr ⟨?_, .valueError, by simp only [Step.run, Page.setDuration, hd, if_pos h1]; rfl, by simp⟩
        rintro ⟨m, hm, hm0⟩
        have := (asPyInt_iff d m).2 hm
        rw [hd] at this
        injection this with this
        omega
      · exact .inl ⟨⟨n, hn, by omega⟩, _, by simp only [Step.run, Page.setDuration, hd, if_neg h1]; rfl,
          .inr ⟨d, n, rfl, hn, by omega, rfl⟩⟩

/-- a file that exists, for the examples -/
def sampleEnv : Env := { files := fun f => if f = py! "/tmp/a.jpg" then some [1, 2, 3] else none, mime := fun _ => some (py! "image/jpeg") }

/-- a call succeeds exactly when its arguments have the right types, the file exists, and not 0 < end < begin (for
`set_duration`: the duration is positive) -/
theorem C54_accepts (s : Step) (p : Page) : (∃ p', s.run p = .ok () p') ↔ s.spec.Ok := by
  rcases step_cases s p with ⟨h1, p', h2, _⟩ | ⟨h1, err, h2, _⟩
  · exact ⟨fun _ => h1, fun _ => ⟨p', h2⟩⟩
  · refine ⟨?_, fun h => absurd h h1⟩
    rintro ⟨p', hp⟩
    rw [h2] at hp
    cases hp

/-- a call that is rejected raises TypeError, ValueError or OSError and leaves the slide as it was -/
theorem C54_rejected (s : Step) (p : Page) (h : ¬ s.spec.Ok) :
    ∃ err, s.run p = .err err p ∧ (err = .typeError ∨ err = .valueError ∨ err = .osError) := by
  rcases step_cases s p with ⟨h1, _⟩ | ⟨_, h2⟩
  · exact absurd h1 h
  · exact h2

example : ∃ s : Step, ¬ s.spec.Ok := ⟨⟨sampleEnv, .inl (.text, .str (py! "hi"), .int 100, .int 50)⟩, by
  rintro ⟨_, ⟨x, y, hx, hy, ht⟩, _⟩
  cases hx
  cases hy
  exact ht ⟨by decide, by decide⟩⟩

/-- a positive end before the beginning, with everything else in order, is a ValueError -/
theorem C54_value_error (env : Env) (k : Kind) (f c : Str) (tb te : Val) (b e : Int) (hf : env.files f = some c)
    (hb : IsInt tb b) (he : IsInt te e) (h1 : 0 < e) (h2 : e < b) (p : Page) :
    (Step.mk env (.inl (k, .str f, tb, te))).run p = .err .valueError p := by
  have h3 : e > 0 ∧ e < b := ⟨h1, h2⟩
  have hs : Page.fileSlot env (.str f) tb te = .error .valueError := by
    simp only [Page.fileSlot, (asPyInt_iff _ _).2 hb, (asPyInt_iff _ _).2 he, hf, if_pos h3, Option.isNone_some,
      Bool.false_eq_true, if_false]
  have ht : Page.textSlot (.str f) tb te = .error .valueError := by
    simp only [Page.textSlot, (asPyInt_iff _ _).2 hb, (asPyInt_iff _ _).2 he, if_pos h3]
  cases k
  · simp only [Step.run, Page.addImage, hs]; rfl
  · simp only [Step.run, Page.addAudio, hs]; rfl
  · simp only [Step.run, Page.addText, ht]; rfl

example := C54_value_error sampleEnv .image (py! "/tmp/a.jpg") _ (.int 9) (.int 5) 9 5 rfl (.int _ (by decide) (by decide))
  (.int _ (by decide) (by decide)) (by decide) (by decide)

/-- after any history of calls: each slot holds the times of the last successful call for it, the duration is that of
the last successful `set_duration` (4000 at first) and positive, `number_of_parts` counts the slots set -/
theorem C54_history (h : List Step) :
    (∀ k, Holds k (h.map Step.spec) ((slot (pageAfter h) k).map fun t => t.2)) ∧
    Lasts (h.map Step.spec) (pageAfter h).duration ∧ 0 < (pageAfter h).duration ∧
    (∀ k t, slot (pageAfter h) k = some t → TimesOk t.2.1 t.2.2) ∧
    (pageAfter h).numberOfParts =
      ([Kind.image, .audio, .text].filter (fun k => (slot (pageAfter h) k).isSome)).length := by
  have count : ∀ p : Page, p.numberOfParts = ([Kind.image, .audio, .text].filter (fun k => (slot p k).isSome)).length := by
    rintro ⟨d, i, a, t⟩
    cases i <;> cases a <;> cases t <;> rfl
  suffices hm : (∀ k, Holds k (h.map Step.spec) ((slot (pageAfter h) k).map fun t => t.2)) ∧
    Lasts (h.map Step.spec) (pageAfter h).duration ∧ 0 < (pageAfter h).duration ∧
    (∀ k t, slot (pageAfter h) k = some t → TimesOk t.2.1 t.2.2) from ⟨hm.1, hm.2.1, hm.2.2.1, hm.2.2.2, count _⟩
  induction h using List.reverseRecOn with
  | nil =>
    refine ⟨?_, .start, by decide, ?_⟩
    · intro k
      cases k <;> exact .start
    · intro k t ht
      cases k <;> cases ht
  | append_singleton l s ih =>
    obtain ⟨i1, i2, i3, i4⟩ := ih
    have hp : pageAfter (l ++ [s]) = stateOf (s.run (pageAfter l)) := by
      simp [pageAfter, List.foldl_append]
    rw [List.map_append, List.map_cons, List.map_nil, hp]
    rcases step_cases s (pageAfter l) with ⟨hok, p', hr, hc⟩ | ⟨hno, err, hr, _⟩
    · rw [hr]
      simp only [stateOf]
      rcases hc with ⟨k, a, b, e, f, x, y, part, hs, hb, he, ht, h1, h2, h3⟩ | ⟨d, n, hs, hd, hn, rfl⟩
      · rw [hs] at hok ⊢
        refine ⟨?_, ?_, by rw [h3]; exact i3, ?_⟩
        · intro k'
          by_cases hk : k' = k
          · subst hk
            rw [h1]
            exact .set _ a b e f x y hb he hok
          · rw [h2 k' hk]
            refine .keep _ _ _ ?_ (i1 k')
            rintro ⟨_, h⟩
            exact hk h.symm
        · rw [h3]
          refine .keep _ _ _ ?_ i2
          rintro ⟨_, d, hd⟩
          cases hd
        · intro k' t hk't
          by_cases hk : k' = k
          · subst hk
            rw [h1] at hk't
            injection hk't with hk't
            subst hk't
            exact ht
          · rw [h2 k' hk] at hk't
            exact i4 k' t hk't
      · rw [hs] at hok ⊢
        have hslot : ∀ k, slot { pageAfter l with duration := n } k = slot (pageAfter l) k := by
          intro k; cases k <;> rfl
        refine ⟨?_, .set _ d n hd hn, hn, ?_⟩
        · intro k
          rw [hslot]
          refine .keep _ _ _ ?_ (i1 k)
          rintro ⟨_, h⟩
          exact h
        · intro k t hk
          rw [hslot] at hk
          exact i4 k t hk
    · rw [hr]
      simp only [stateOf]
      refine ⟨?_, ?_, i3, i4⟩
      · intro k
        exact .keep _ _ _ (fun h => hno h.1) (i1 k)
      · exact .keep _ _ _ (fun h => hno h.1) i2

/-- the end written to the presentation never exceeds the duration of the slide, and is the end given if that does not -/
theorem C54_clip (d b e : Int) (a : Str) (h : (timing d b e).get (py! "end") = some a) :
    ∃ n, a = Spec.Slides.decimal n ∧ n ≤ d ∧ n ≤ e ∧ (n = d ∨ n = e) := by
  rw [timing_eq] at h
  unfold Spec.Slides.timeAttrs at h
  split at h
  · have : (Dict.get [(py! "begin", Spec.Slides.decimal b), (py! "end", Spec.Slides.decimal (min e d))] (py! "end")) =
        some (Spec.Slides.decimal (min e d)) := rfl
    rw [this] at h
    injection h with h
    exact ⟨min e d, h.symm, by omega, by omega, by omega⟩
  · cases h

example : (Step.mk sampleEnv (.inl (.image, .str (py! "/tmp/a.jpg"), .int 100, .int 0))).spec.Ok :=
  ⟨⟨_, rfl⟩, ⟨100, 0, .int _ (by decide) (by decide), .int _ (by decide) (by decide), by unfold TimesOk; omega⟩, .inr (by decide)⟩
example : ¬ (Step.mk sampleEnv (.inl (.text, .str (py! "hi"), .int 100, .int 50))).spec.Ok := by
  rintro ⟨_, ⟨x, y, hx, hy, ht⟩, _⟩
  cases hx
  cases hy
  exact ht ⟨by decide, by decide⟩
example : (pageAfter [⟨sampleEnv, .inl (.image, .str (py! "/tmp/a.jpg"), .int 1, .int 9)⟩,
    ⟨sampleEnv, .inl (.text, .str (py! "hi"), .int 100, .int 50)⟩, ⟨sampleEnv, .inr (.int 7)⟩]).numberOfParts = 1 := by
  decide +kernel

/-! ### C53 the SMIL presentation -/

/-- for every message whose pages are these slides, the presentation has one `par` per slide, in order, with the
duration and the media of the slide -/
def C53_full : Prop := ∀ (env : Env) (m : Msg) (slides : List Slide), List.Forall₂ (PageIs env) m.pages slides →
  ∃ pars, m.smilBody env = .ok pars ∧ pars.map ParNode.view = slides.map (fun s => (s.duration, s.elems))

/-- a page with this text (no times), with this duration -/
def textPage (t : Str) : Page := { Page.new with text := some (textPart t, 0, 0) }
/-- a page with an audio clip and no text -/
def audioPage : Page :=
  { Page.new with audio := some ({ DataPart.new with headers := [(py! "Content-Location", .v (.str (py! "a.amr")))] }, 0, 0) }
def textSlide (t : Str) : Slide := { duration := 4000, image := none, text := some ⟨t, 0, 0⟩, audio := none }
def audioSlide : Slide := { duration := 4000, image := none, text := none, audio := some ⟨py! "a.amr", 0, 0⟩ }

theorem textPage_is (env : Env) (t : Str) : PageIs env (textPage t) (textSlide t) :=
  ⟨rfl, .none, .some _ _ _ _ rfl, .none⟩

theorem audioPage_is (env : Env) : PageIs env audioPage audioSlide := ⟨rfl, .none, .none, .some _ _ _ _ (.location _ rfl)⟩

/-- a slide with audio and no text cannot be presented when no earlier slide has text: NameError -/
theorem C53_refuted : ¬ C53_full := by
  intro h
  obtain ⟨pars, h1, _⟩ := h sampleEnv { Msg.new with pages := [audioPage] } [audioSlide] (.cons (audioPage_is _) .nil)
  have h2 : Msg.smilBody sampleEnv { Msg.new with pages := [audioPage] } = .error .nameError := by decide +kernel
  rw [h2] at h1
  cases h1

/-- and when an earlier slide has text, that text moves from its slide to the one with the audio -/
theorem C53_text_moves (t : Str) (env : Env) :
    ∃ pars, Msg.smilBody env { Msg.new with pages := [textPage t, audioPage] } = .ok pars ∧
      pars.map ParNode.view = [(4000, []),
        (4000, [(py! "text", [(py! "src", t), (py! "region", py! "Text")]), (py! "audio", [(py! "src", py! "a.amr")])])] :=
  ⟨_, rfl, rfl⟩

/-- every slide with audio but no text breaks the presentation of the whole message, or takes over the text of another
slide: with no text before it, `smil()` raises NameError -/
theorem C53_audio_without_text (env : Env) (m : Msg) (before after : List Page) (p : Page) (x : DataPart × Int × Int)
    (hm : m.pages = before ++ p :: after) (hb : ∀ q ∈ before, q.text = none ∧ q.audio = none) (ht : p.text = none)
    (hi : p.image = none) (ha : p.audio = some x) (src : Str) (hs : Src env x.1 src)
    (hbi : ∀ q ∈ before, q.image = none) : m.smilBody env = .error .nameError := by
  have key : ∀ (l : List Page) (st : SmilSt), (∀ q ∈ l, q.text = none ∧ q.audio = none ∧ q.image = none) →
      st.textNode = none → smilPages env st (l ++ p :: after) = .error .nameError := by
    intro l
    induction l with
    | nil =>
      intro st _ hst
      obtain ⟨part, b, e⟩ := x
      simp only [List.nil_append, smilPages, smilPage, smilImage, hi, smilText, ht, ha, srcOf_ok hs, hst, bind, Except.bind]
    | cons q l ih =>
      intro st hl hst
      obtain ⟨h1, h2, h3⟩ := hl q (by simp)
      simp only [List.cons_append, smilPages, smilPage, smilImage, h3, smilText, h1, h2, bind, Except.bind]
      refine ih _ (fun q hq => hl q (by simp [hq])) ?_
      exact hst
  unfold Msg.smilBody
  rw [hm, key before _ (fun q hq => ⟨(hb q hq).1, (hb q hq).2, hbi q hq⟩) rfl]
  rfl

/-- an empty slide, one with audio and no text, and one with text -/
example : Msg.smilBody sampleEnv { Msg.new with pages := [Page.new] ++ audioPage :: [textPage (py! "Hi")] } = .error .nameError :=
  C53_audio_without_text sampleEnv _ [Page.new] [textPage (py! "Hi")] audioPage _ rfl (by simp [Page.new]) rfl rfl rfl (py! "a.amr")
    (.location _ rfl) (by simp [Page.new])

/-- the full claim for messages in which every slide with audio also has text.  Missing: slides with audio and no text,
for which it is false. -/
theorem C53_partial (env : Env) (m : Msg) (slides : List Slide) (h : List.Forall₂ (PageIs env) m.pages slides)
    (ht : ∀ s ∈ slides, s.audio.isSome → s.text.isSome) :
    ∃ pars, m.smilBody env = .ok pars ∧ pars.map ParNode.view = slides.map (fun s => (s.duration, s.elems)) := by
  obtain ⟨st, h1, _, h3⟩ := smilPages_ok h ht { pars := [], textNode := none, uid := 0 } (by intro p hp; cases hp)
  refine ⟨st.pars, ?_, by simpa using h3⟩
  unfold Msg.smilBody
  rw [h1]
  rfl

/-- the whole document: a head with the meta tags and the layout, and a body with one `par` per slide -/
theorem C53_document_partial (env : Env) (m : Msg) (slides : List Slide) (h : List.Forall₂ (PageIs env) m.pages slides)
    (ht : ∀ s ∈ slides, s.audio.isSome → s.text.isSome) :
    ∃ head pars, m.smilDoc env = .ok (.elem (py! "smil") [] [head, .elem (py! "body") [] pars]) ∧
      pars = slides.map (fun s => .elem (py! "par") [(py! "duration", Spec.Slides.decimal s.duration)]
        (s.elems.map (fun e => .elem e.1 e.2 []))) ∧
      head = .elem (py! "head") [] (m.metaTags.map (fun t => .elem (py! "meta") [t] []) ++
        [.elem (py! "layout") [] [
          .elem (py! "root-layout") [(py! "width", Spec.Slides.decimal m.width), (py! "height", Spec.Slides.decimal m.height)] [],
          .elem (py! "region") [(py! "id", py! "Image"), (py! "left", py! "0"), (py! "top", py! "0"),
            (py! "width", py! "176"), (py! "height", py! "144")] [],
          .elem (py! "region") [(py! "id", py! "Text"), (py! "left", py! "176"), (py! "top", py! "144"),
            (py! "width", py! "176"), (py! "height", py! "76")] []]]) := by
  obtain ⟨pars, h1, h2⟩ := C53_partial env m slides h ht
  refine ⟨m.smilHead, _, by unfold Msg.smilDoc; rw [h1]; rfl, ?_, ?_⟩
  · have : pars.map ParNode.toXml = (pars.map ParNode.view).map (fun v => Xml.elem (py! "par")
        [(py! "duration", Spec.Slides.decimal v.1)] (v.2.map (fun e => .elem e.1 e.2 []))) := by
      rw [List.map_map]
      refine List.map_congr_left ?_
      intro p _
      simp [ParNode.toXml, ParNode.view, intStr_decimal, MediaNode.toXml]
    rw [this, h2, List.map_map]
    rfl
  · simp only [Msg.smilHead, intStr_decimal]
    rfl

/-- the times written make a player show the medium in the documented interval -/
def C53_shown_full : Prop := ∀ d b e : Int, 0 < d → TimesOk b e → ∃ bo eo : Option Int,
  (timing d b e).get (py! "begin") = bo.map Spec.Slides.decimal ∧ (timing d b e).get (py! "end") = eo.map Spec.Slides.decimal ∧
  Spec.Slides.played d bo eo = Spec.Slides.shown d b e

theorem decimal_zero {n : Int} (h : Spec.Slides.decimal n = [48]) : n = 0 := by
  unfold Spec.Slides.decimal at h
  split at h
  · injection h with h; omega
  · rw [Spec.Slides.digits] at h
    split at h
    · injection h with h; omega
    · have hl := congrArg List.length h
      have : ∀ k, Spec.Slides.digits k ≠ [] := by
        intro k
        rw [Spec.Slides.digits]
        split <;> simp
      cases hd : Spec.Slides.digits (n.natAbs / 10) with
      | nil => exact absurd hd (this _)
      | cons a r => rw [hd] at hl; simp at hl

/-- with a begin and no end, the presentation says that the medium ends at 0 -/
theorem C53_shown_refuted : ¬ C53_shown_full := by
  intro h
  obtain ⟨bo, eo, h1, h2, h3⟩ := h 4000 1000 0 (by decide) (by unfold TimesOk; omega)
  have h4 : (timing 4000 1000 0).get (py! "end") = some [48] := by decide +kernel
  rw [h4] at h2
  cases eo with
  | none => cases h2
  | some n =>
    injection h2 with h2
    have := decimal_zero h2.symm
    subst this
    simp [Spec.Slides.played, Spec.Slides.shown] at h3

/-- the claim when the end is given and the begin is not negative, or when neither is given -/
theorem C53_shown_partial (d b e : Int) (h : (0 ≤ b ∧ 0 < e) ∨ (b ≤ 0 ∧ e ≤ 0)) : ∃ bo eo : Option Int,
    (timing d b e).get (py! "begin") = bo.map Spec.Slides.decimal ∧ (timing d b e).get (py! "end") = eo.map Spec.Slides.decimal ∧
    Spec.Slides.played d bo eo = Spec.Slides.shown d b e := by
  rw [timing_eq]
  unfold Spec.Slides.timeAttrs
  rcases h with ⟨h1, h2⟩ | ⟨h1, h2⟩
  · rw [if_pos (.inr h2)]
    refine ⟨some b, some (min e d), rfl, rfl, ?_⟩
    simp only [Spec.Slides.played, Spec.Slides.shown, Option.getD_some, Prod.mk.injEq]
    refine ⟨by omega, ?_⟩
    split <;> omega
  · rw [if_neg (by omega)]
    refine ⟨none, none, rfl, rfl, ?_⟩
    simp only [Spec.Slides.played, Spec.Slides.shown, Option.getD_none, Prod.mk.injEq]
    exact ⟨by omega, by rw [if_pos (.inl h2)]⟩

example := C53_shown_partial 100 5 9 (by decide)

theorem digits_value : ∀ n : Nat, (Spec.Slides.digits n).foldl (fun a c => 10 * a + (c - 48)) 0 = n := by
  intro n
  induction n using Nat.strongRecOn with
  | ind n ih =>
    rw [Spec.Slides.digits]
    split
    · simp
    · rw [List.foldl_append, ih (n / 10) (by omega)]
      simp only [List.foldl_cons, List.foldl_nil]
      omega

theorem digits_ge : ∀ n : Nat, ∀ c ∈ Spec.Slides.digits n, 48 ≤ c := by
  intro n
  induction n using Nat.strongRecOn with
  | ind n ih =>
    intro c hc
    rw [Spec.Slides.digits] at hc
    split at hc
    · rw [List.mem_singleton] at hc; omega
    · rcases List.mem_append.1 hc with hc | hc
      · exact ih (n / 10) (by omega) c hc
      · rw [List.mem_singleton] at hc; omega

theorem decimal_inj {m n : Int} (h : Spec.Slides.decimal m = Spec.Slides.decimal n) : m = n := by
  have hv : ∀ {a b : Nat}, Spec.Slides.digits a = Spec.Slides.digits b → a = b := by
    intro a b e
    rw [← digits_value a, e, digits_value]
  unfold Spec.Slides.decimal at h
  split at h <;> split at h
  · injection h with _ h
    have := hv h
    omega
  · have := digits_ge n.natAbs 45 (by rw [← h]; simp)
    omega
  · have := digits_ge m.natAbs 45 (by rw [h]; simp)
    omega
  · have := hv h
    omega

/-- and for no other times: an end that is not given after a begin is written as the end itself, and a negative begin
before an end as it is -/
theorem C53_shown_iff (d b e : Int) (hd : 0 < d) : (∃ bo eo : Option Int,
    (timing d b e).get (py! "begin") = bo.map Spec.Slides.decimal ∧ (timing d b e).get (py! "end") = eo.map Spec.Slides.decimal ∧
    Spec.Slides.played d bo eo = Spec.Slides.shown d b e) ↔ (0 ≤ b ∧ 0 < e) ∨ (b ≤ 0 ∧ e ≤ 0) := by
  refine ⟨?_, C53_shown_partial d b e⟩
  rintro ⟨bo, eo, h1, h2, h3⟩
  by_cases hbe : 0 < b ∨ 0 < e
  · rw [timing_eq, Spec.Slides.timeAttrs, if_pos hbe] at h1 h2
    have h1 : some (Spec.Slides.decimal b) = bo.map Spec.Slides.decimal := h1
    have h2 : some (Spec.Slides.decimal (min e d)) = eo.map Spec.Slides.decimal := h2
    cases bo with
    | none => cases h1
    | some x =>
      cases eo with
      | none => cases h2
      | some y =>
        injection h1 with h1
        injection h2 with h2
        have := decimal_inj h1
        have := decimal_inj h2
        simp only [Spec.Slides.played, Spec.Slides.shown, Option.getD_some, Prod.mk.injEq] at h3
        obtain ⟨h3, h4⟩ := h3
        split at h4 <;> omega
  · omega

/-- a message with two slides, for the examples -/
def sampleMsg : Msg := { Msg.new with pages := [textPage (py! "Hi"), { (textPage (py! "Yo")) with audio := audioPage.audio }] }

example : List.Forall₂ (PageIs sampleEnv) sampleMsg.pages
    [textSlide (py! "Hi"), { textSlide (py! "Yo") with audio := audioSlide.audio }] :=
  .cons (textPage_is _ _) (.cons ⟨rfl, .none, .some _ _ _ _ rfl, .some _ _ _ _ (.location _ rfl)⟩ .nil)
example : ∀ s ∈ [textSlide (py! "Hi"), { textSlide (py! "Yo") with audio := audioSlide.audio }], s.audio.isSome → s.text.isSome := by
  intro s hs
  simp only [List.mem_cons, List.not_mem_nil, or_false] at hs
  rcases hs with rfl | rfl <;> simp [textSlide]

/-! ### C55 data_parts -/

/-- `data_parts` gives a list that has the parts of every slide and the loose parts -/
def C55_full : Prop := ∀ (env : Env) (m : Msg), (∃ s, m.smil env = .ok s) → ∃ l, m.allDataParts env = .ok l ∧
  (∀ p ∈ m.pages, ∀ k t, slot p k = some t → t.1 ∈ l) ∧ ∀ p ∈ m.dataParts, p ∈ l

theorem C55_refuted : ¬ C55_full := by
  intro h
  obtain ⟨l, h1, _⟩ := h sampleEnv sampleMsg ⟨_, rfl⟩
  have h2 : sampleMsg.allDataParts sampleEnv = .error .attributeError := by decide +kernel
  rw [h2] at h1
  cases h1

/-- with any slide in the message, `data_parts` always fails: AttributeError if the presentation can be made -/
theorem C55_never (env : Env) (m : Msg) (h : m.pages ≠ []) :
    (∃ e, m.allDataParts env = .error e) ∧ ∀ s, m.smil env = .ok s → m.allDataParts env = .error .attributeError := by
  have hl : m.pages.length ≠ 0 := by
    intro h0; exact h (List.length_eq_zero_iff.1 h0)
  unfold Msg.allDataParts
  rw [if_pos hl]
  cases hs : m.smil env with
  | ok s => exact ⟨⟨_, rfl⟩, fun _ _ => rfl⟩
  | error e => exact ⟨⟨_, rfl⟩, fun _ h => by cases h⟩

example := C55_never sampleEnv sampleMsg (by decide)

/-- without slides it gives the loose parts in order.  Missing: messages with slides, for which it always fails. -/
theorem C55_partial (env : Env) (m : Msg) (h : m.pages = []) : m.allDataParts env = .ok m.dataParts := by
  unfold Msg.allDataParts
  rw [h]
  rfl

example (env : Env) := C55_partial env Msg.new rfl

/-- in particular for every received message -/
theorem C55_received_partial (env : Env) (data : List Nat) (m : Msg) (h : decodeData data = .ok m) :
    m.allDataParts env = .ok m.dataParts := by
  obtain ⟨_, _, _, _, _, _, rfl⟩ := decodeData_inv h
  exact C55_partial env _ rfl

example : sampleMsg.pages ≠ [] := by decide

/-! ### C56 length of a data part -/

/-- an operation on a data part -/
inductive PartOp
  | setData (d ct : Str) (params : Dict Val) | setText (t : Str) | fromFile (f : Str) | read

def PartOp.run (env : Env) : PartOp → M DataPart Unit
  | .setData d ct ps => DataPart.setData d ct ps
  | .setText t => DataPart.setText t
  | .fromFile f => DataPart.fromFile env f
  | .read => do let _ ← DataPart.getData env; pure ()

/-- the part after a call, whether it raised or not -/
def partOf' {α : Type} : Res DataPart α → DataPart
  | .ok _ s => s
  | .err _ s => s

/-- the part after a history of operations, each with the files as they were then -/
def partAfter (h : List (Env × PartOp)) : DataPart := h.foldl (fun p s => partOf' (s.2.run s.1 p)) DataPart.new

/-- `len(part) == len(part.data)` whenever both can be had -/
def LenOk (env : Env) (p : DataPart) : Prop := ∀ n d, p.len env = .ok n → p.readData env = .ok d → n = d.length

def C56_full : Prop := ∀ (h : List (Env × PartOp)) (env : Env), LenOk env (partAfter h)

/-- a file that is read, and then changes -/
theorem C56_refuted : ¬ C56_full := by
  intro h
  let e1 : Env := { files := fun _ => some [1, 2, 3], mime := fun _ => none }
  let e2 : Env := { files := fun _ => some [1], mime := fun _ => none }
  have := h [(e1, .fromFile (py! "f")), (e1, .read)] e2 1 [1, 2, 3] rfl rfl
  simp at this

/-- the file of a part is there, and what was read from it is what it holds -/
def Cached (env : Env) (p : DataPart) : Prop :=
  ∀ f, p.filename = some f → ∃ c, env.files f = some c ∧ (p.data = none ∨ p.data = some c)

theorem len_of_cached {env : Env} {p : DataPart} (h : Cached env p) :
    ∃ d, p.readData env = .ok d ∧ p.len env = .ok d.length := by
  unfold DataPart.len DataPart.readData
  cases hf : p.filename with
  | some f =>
    obtain ⟨c, hc, hd | hd⟩ := h f hf <;> exact ⟨c, by simp [hc, hd], by simp [hc]⟩
  | none => cases p.data <;> exact ⟨_, rfl, rfl⟩

theorem cached_step {env : Env} {p : DataPart} (h : Cached env p) (op : PartOp) : Cached env (partOf' (op.run env p)) := by
  cases op with
  | setData d ct ps => intro f hf; cases hf
  | setText t => intro f hf; cases hf
  | fromFile f =>
    simp only [PartOp.run, DataPart.fromFile]
    cases hc : env.files f with
    | none => exact h
    | some c =>
      intro f' hf
      simp only [M.modify, partOf', Option.some.injEq] at hf
      subst hf
      exact ⟨c, hc, .inl rfl⟩
  | read =>
    have hst : ∀ r : Res DataPart Str, partOf' (match r with | .ok _ s => (.ok () s : Res DataPart Unit) | .err e s => .err e s) = partOf' r := by
      intro r; cases r <;> rfl
    have : partOf' (PartOp.read.run env p) = partOf' (DataPart.getData env p) := by
      rw [← hst]
      show partOf' ((DataPart.getData env >>= fun _ => pure ()) p) = _
      rw [M.bind_apply]
      cases DataPart.getData env p <;> rfl
    rw [this]
    unfold DataPart.getData
    cases hr : p.readData env with
    | error e => exact h
    | ok d =>
      simp only []
      split
      · rename_i hc
        simp only [Bool.and_eq_true, Option.isNone_iff_eq_none, Option.isSome_iff_exists] at hc
        obtain ⟨hc1, f, hc2⟩ := hc
        intro f' hf
        obtain ⟨c, hfc, _⟩ := h f' hf
        have hf : p.filename = some f' := hf
        unfold DataPart.readData at hr
        rw [hc1, hf] at hr
        simp only [hfc] at hr
        injection hr with hr
        exact ⟨c, hfc, .inr (by rw [hr]; rfl)⟩
      · exact h

/-- the claim while files keep their contents: the data can be read, and the length is theirs.  Missing: files that change
after their contents were read. -/
theorem C56_partial (h : List (Env × PartOp)) (env : Env) (hc : ∀ s ∈ h, ∀ f, s.1.files f = env.files f) :
    ∃ d, (partAfter h).readData env = .ok d ∧ (partAfter h).len env = .ok d.length := by
  suffices hh : ∀ (l : List (Env × PartOp)) (p : DataPart), (∀ s ∈ l, ∀ f, s.1.files f = env.files f) → Cached env p →
      Cached env (l.foldl (fun p s => partOf' (s.2.run s.1 p)) p) by
    exact len_of_cached (hh h _ hc (by intro f hf; cases hf))
  intro l
  induction l with
  | nil => intro p _ hp; exact hp
  | cons s l ih =>
    intro p hl hp
    refine ih _ (fun t ht => hl t (by simp [ht])) ?_
    have hs := hl s (by simp)
    have hcs : Cached s.1 p := fun f h1 => by rw [hs f]; exact hp f h1
    have := cached_step hcs s.2
    exact fun f h1 => by rw [← hs f]; exact this f h1

example := C56_partial [(sampleEnv, .setText (py! "x")), (sampleEnv, .fromFile (py! "/tmp/a.jpg")), (sampleEnv, .read)] sampleEnv
  (by
    intro s hs f
    simp only [List.mem_cons, List.not_mem_nil, or_false] at hs
    rcases hs with rfl | rfl | rfl <;> rfl)

/-- and for data set directly, whatever happens to files: the length and the data are those given, until something else
is set -/
theorem C56_set_partial (h : List (Env × PartOp)) (e1 env : Env) (d ct : Str) (ps : Dict Val) (reads : List Env) :
    let p := partAfter (h ++ [(e1, .setData d ct ps)] ++ reads.map (fun e => (e, .read)))
    p.len env = .ok d.length ∧ p.readData env = .ok d := by
  intro p
  have key : ∀ (l : List Env) (q : DataPart), q.filename = none → q.data = some d →
      (l.map (fun e => (e, PartOp.read))).foldl (fun p s => partOf' (s.2.run s.1 p)) q = q := by
    intro l
    induction l with
    | nil => intro q _ _; rfl
    | cons e l ih =>
      intro q h1 h2
      have hg : DataPart.getData e q = .ok d q := by
        unfold DataPart.getData DataPart.readData
        rw [h2]
        simp [h1]
      have : partOf' (PartOp.read.run e q) = q := by
        show partOf' ((DataPart.getData e >>= fun _ => pure ()) q) = q
        rw [M.bind_ok hg]
        rfl
      simp only [List.map_cons, List.foldl_cons, this]
      exact ih q h1 h2
  have hp : p = { partAfter h with headers := [(py! "Content-Type", .ct ct ps)], filename := none, data := some d } := by
    show (h ++ [(e1, PartOp.setData d ct ps)] ++ reads.map (fun e => (e, PartOp.read))).foldl _ _ = _
    rw [List.foldl_append, List.foldl_append]
    exact key reads _ rfl rfl
  rw [hp]
  exact ⟨rfl, rfl⟩

example : (partAfter [(sampleEnv, .setText (py! "x")), (sampleEnv, .fromFile (py! "/tmp/a.jpg")), (sampleEnv, .read)]).len sampleEnv
    = .ok 3 := by decide +kernel

/-! ### C57 WAP pushes -/

/-- `extract_push_notification` of a push decodes exactly the payload -/
theorem C57_extract (tid h : Nat) (hdrs payload : List Nat) (hh : hdrs.length = h) :
    extractPushNotification (tid :: 0x06 :: h :: (hdrs ++ payload)) = decodeData payload := by
  subst hh
  unfold extractPushNotification
  simp

example : extractPushNotification [0, 6, 2, 9, 9, 0x98, 49, 0] = decodeData [0x98, 49, 0] := C57_extract 0 2 [9, 9] _ rfl

/-- whatever the third octet says: what is decoded starts that many octets after it, and is empty if there are fewer -/
theorem C57_any (tid h : Nat) (r : List Nat) :
    extractPushNotification (tid :: 0x06 :: h :: r) = decodeData (r.drop h) := by
  unfold extractPushNotification
  simp [show h + 3 = h + 1 + 1 + 1 from rfl]

/-- too short: ValueError -/
theorem C57_short (s : List Nat) (h : s.length < 3) : extractPushNotification s = .error .valueError := by
  match s, h with
  | [], _ => rfl
  | [_], _ => rfl
  | [_, _], _ => rfl

example := C57_short [0, 6] (by decide)

/-- not a push: AssertionError -/
theorem C57_other (tid t h : Nat) (r : List Nat) (ht : t ≠ 0x06) :
    extractPushNotification (tid :: t :: h :: r) = .error .assertionError := by
  simp [extractPushNotification, ht]

example := C57_other 0 5 0 [] (by decide)

/-- `is_a_wap_push_notification` looks at the second octet -/
theorem C57_is_push (s : List Nat) : ∃ b, isAWapPushNotification (.str s) = .ok b ∧
    (b = true ↔ ∃ tid r, s = tid :: 0x06 :: r) := by
  match s with
  | [] => exact ⟨false, rfl, by simp⟩
  | [a] => exact ⟨false, rfl, by simp⟩
  | a :: b :: r => exact ⟨b == 6, rfl, by simp⟩

/-- anything but a `str` is a TypeError -/
theorem C57_type (x : Val) (h : ∀ s, x ≠ .str s) : isAWapPushNotification x = .error .typeError := by
  cases x with
  | str s => exact absurd rfl (h s)
  | _ => rfl

example := C57_type (.int 5) (by intro s h; cases h)

/-- the header length of a push is a uintvar (WAP-230 8.2.4): two octets from 128 on, of which the code takes the first
one for the length -/
def C57_uintvar_full : Prop := ∀ (tid : Nat) (hdrs payload : List Nat),
  extractPushNotification (tid :: 0x06 :: (Spec.Wsp.uintvar hdrs.length ++ (hdrs ++ payload))) = decodeData payload

theorem C57_uintvar_refuted : ¬ C57_uintvar_full := by
  intro h
  have h0 := h 1 (List.replicate 130 0x98) []
  have h1 : extractPushNotification (1 :: 0x06 :: (Spec.Wsp.uintvar (List.replicate 130 0x98).length ++
      (List.replicate 130 0x98 ++ []))) = .error .runtimeError := by decide +kernel
  rw [h1] at h0
  have h2 : decodeData [] = .ok Msg.new := by decide +kernel
  rw [h2] at h0
  cases h0

theorem C57_uintvar_partial (tid : Nat) (hdrs payload : List Nat) (h : hdrs.length < 128) :
    extractPushNotification (tid :: 0x06 :: (Spec.Wsp.uintvar hdrs.length ++ (hdrs ++ payload))) = decodeData payload := by
  have : Spec.Wsp.uintvar hdrs.length = [hdrs.length] := by
    unfold Spec.Wsp.uintvar
    rw [Nat.div_eq_of_lt h, Nat.mod_eq_of_lt h, Spec.Wsp.uvHigh]
    rfl
  rw [this]
  exact C57_extract tid _ hdrs payload rfl

example := C57_uintvar_partial 0 [9, 9] [0x98, 49, 0] (by decide)

/-- with 128 octets of headers or more, the first octet of their length, which is at least 129, is taken for the whole of
it, and the rest of it for headers -/
theorem C57_uintvar_long (tid : Nat) (hdrs payload : List Nat) (h : 128 ≤ hdrs.length) :
    ∃ b t, Spec.Wsp.uintvar hdrs.length = b :: t ∧ t ≠ [] ∧ 129 ≤ b ∧ b < 256 ∧
      extractPushNotification (tid :: 0x06 :: (Spec.Wsp.uintvar hdrs.length ++ (hdrs ++ payload))) =
        decodeData ((t ++ (hdrs ++ payload)).drop b) := by
  have key : ∀ n, 0 < n → ∃ b t, Spec.Wsp.uvHigh n = b :: t ∧ 129 ≤ b ∧ b < 256 := by
    intro n
    induction n using Nat.strongRecOn with
    | ind n ih =>
      intro hn
      rw [Spec.Wsp.uvHigh]
      rw [dif_neg (by omega)]
      by_cases h0 : n / 128 = 0
      · rw [h0, Spec.Wsp.uvHigh, dif_pos rfl]
        exact ⟨_, [], rfl, by omega, by omega⟩
      · obtain ⟨b, t, e, h1⟩ := ih (n / 128) (by omega) (by omega)
        rw [e]
        exact ⟨b, _, rfl, h1⟩
  obtain ⟨b, t, e, h1, h2⟩ := key (hdrs.length / 128) (by omega)
  have hu : Spec.Wsp.uintvar hdrs.length = b :: (t ++ [hdrs.length % 128]) := by
    unfold Spec.Wsp.uintvar
    rw [e]
    rfl
  exact ⟨b, t ++ [hdrs.length % 128], hu, by simp, h1, h2, by rw [hu]; exact C57_any tid b _⟩

example := C57_uintvar_long 0 (List.replicate 200 9) [0x98, 49, 0] (by decide +kernel)

/-- `is_mms_notification`: a From and a Content-Location -/
theorem C57_is_notification (m : Msg) : isMmsNotification m = true ↔
    (∃ x, m.headers.get (py! "From") = some x ∧ x ≠ .v .none) ∧
    (∃ x, m.headers.get (py! "Content-Location") = some x ∧ x ≠ .v .none) := by
  have key : ∀ o : Option HVal, notNone o = true ↔ ∃ x, o = some x ∧ x ≠ .v .none := by
    intro o
    cases o with
    | none => simp [notNone]
    | some x =>
      cases x with
      | v y => cases y <;> simp [notNone]
      | _ => simp [notNone]
  unfold isMmsNotification
  rw [Bool.and_eq_true, key, key]

example : extractPushNotification [0, 6, 2, 9, 9, 0x98, 49, 0] = decodeData [0x98, 49, 0] := C57_extract 0 2 [9, 9] _ rfl

end Verif.Props

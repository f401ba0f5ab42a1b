import Verif.Proofs.Wsp1
import Verif.Model.Message
import Mathlib.Data.List.Forall2
import Verif.Spec.Slides
/-!
# Lemmas on slides, data parts and the SMIL presentation
-/
set_option autoImplicit false

namespace Verif.Mms
open Verif.Spec.Slides (IsInt TimesOk Slide Medium)

theorem asPyInt_iff (x : Val) (n : Int) : asPyInt x = some n ↔ IsInt x n := by
  constructor
  · intro h
    cases x with
    | int m =>
      simp only [asPyInt] at h
      split at h
      · rename_i hm
        injection h with h
        subst h
        simp only [isPyInt, Bool.and_eq_true, decide_eq_true_eq] at hm
        exact .int _ hm.1 hm.2
      · cases h
    | bool b =>
      cases b <;> (simp only [asPyInt] at h; injection h with h; subst h)
      · exact .false
      · exact .true
    | _ => cases h
  · intro h
    cases h with
    | int _ h1 h2 =>
      have : isPyInt n = true := by simp only [isPyInt, Bool.and_eq_true, decide_eq_true_eq]; exact ⟨h1, h2⟩
      simp only [asPyInt, this, if_true]
    | true => rfl
    | false => rfl

theorem asPyInt_none (x : Val) : asPyInt x = none ↔ ¬ ∃ n, IsInt x n := by
  constructor
  · rintro h ⟨n, hn⟩
    rw [(asPyInt_iff x n).2 hn] at h
    cases h
  · intro h
    cases hx : asPyInt x with
    | none => rfl
    | some n => exact absurd ⟨n, (asPyInt_iff x n).1 hx⟩ h

theorem ofFile_ok (env : Env) (f c : Str) (h : env.files f = some c) : DataPart.ofFile env f = .ok
    { DataPart.new with
      headers := [(py! "Content-Location", .v (.str (DataPart.basename f))),
        (py! "Content-Type", .ct ((env.mime f).getD (py! "application/octet-stream")) [])]
      data := none
      filename := some f } := by
  unfold DataPart.ofFile DataPart.fromFile
  rw [h]
  rfl

/-- the slot made by a call on a file -/
theorem fileSlot_ok {env : Env} {f c : Str} {tb te : Val} {b e : Int} (hf : env.files f = some c) (hb : IsInt tb b)
    (he : IsInt te e) (ht : TimesOk b e) : ∃ part, DataPart.ofFile env f = .ok part ∧
      Page.fileSlot env (.str f) tb te = .ok (part, b, e) := by
  refine ⟨_, ofFile_ok env f c hf, ?_⟩
  have hnt : ¬ (e > 0 ∧ e < b) := ht
  simp only [Page.fileSlot, (asPyInt_iff _ _).2 hb, (asPyInt_iff _ _).2 he, hf, Option.isNone_some, Bool.false_eq_true,
    if_false, if_neg hnt, ofFile_ok env f c hf, bind, Except.bind]

theorem fileSlot_inv {env : Env} {arg tb te : Val} {x : DataPart × Int × Int}
    (h : Page.fileSlot env arg tb te = .ok x) : ∃ f c b e, arg = .str f ∧ env.files f = some c ∧ IsInt tb b ∧
      IsInt te e ∧ TimesOk b e ∧ ∃ part, DataPart.ofFile env f = .ok part ∧ x = (part, b, e) := by
  cases arg with
  | str f =>
    cases hb : asPyInt tb with
    | none => simp [Page.fileSlot, hb] at h
    | some b =>
      cases he : asPyInt te with
      | none => simp [Page.fileSlot, hb, he] at h
      | some e =>
        simp only [Page.fileSlot, hb, he] at h
        cases hf : env.files f with
        | none => rw [hf] at h; simp at h
        | some c =>
          rw [hf] at h
          simp only [Option.isNone_some, Bool.false_eq_true, if_false] at h
          split at h
          · cases h
          · rename_i ht
            rw [ofFile_ok env f c hf] at h
            injection h with h
            exact ⟨f, c, b, e, rfl, hf, (asPyInt_iff _ _).1 hb, (asPyInt_iff _ _).1 he, ht, _, ofFile_ok env f c hf,
              h.symm⟩
  | _ => cases h

/-- the part made by `add_text` -/
def textPart (t : Str) : DataPart :=
  { DataPart.new with headers := [(py! "Content-Type", .ct (py! "text/plain") [])], data := some t }

theorem textSlot_ok {t : Str} {tb te : Val} {b e : Int} (hb : IsInt tb b) (he : IsInt te e) (ht : TimesOk b e) :
    Page.textSlot (.str t) tb te = .ok (textPart t, b, e) := by
  have hnt : ¬ (e > 0 ∧ e < b) := ht
  simp only [Page.textSlot, (asPyInt_iff _ _).2 hb, (asPyInt_iff _ _).2 he, if_neg hnt]
  rfl

theorem textSlot_inv {arg tb te : Val} {x : DataPart × Int × Int} (h : Page.textSlot arg tb te = .ok x) :
    ∃ t b e, arg = .str t ∧ IsInt tb b ∧ IsInt te e ∧ TimesOk b e ∧ x = (textPart t, b, e) := by
  cases arg with
  | str t =>
    cases hb : asPyInt tb with
    | none => simp [Page.textSlot, hb] at h
    | some b =>
      cases he : asPyInt te with
      | none => simp [Page.textSlot, hb, he] at h
      | some e =>
        simp only [Page.textSlot, hb, he] at h
        split at h
        · cases h
        · rename_i ht
          injection h with h
          exact ⟨t, b, e, rfl, (asPyInt_iff _ _).1 hb, (asPyInt_iff _ _).1 he, ht, h.symm⟩
  | _ => cases h

/-! ### SMIL -/

theorem natStr_decimal (n : Nat) : natStr n = Spec.Slides.digits n := by
  induction n using Nat.strongRecOn with
  | _ n ih =>
    rw [natStr, Spec.Slides.digits]
    split
    · rfl
    · rw [ih (n / 10) (by omega)]

theorem intStr_decimal (n : Int) : intStr n = Spec.Slides.decimal n := by
  unfold intStr Spec.Slides.decimal
  split
  · rw [natStr_decimal]
  · rename_i h
    rw [natStr_decimal, show n.toNat = n.natAbs by omega]

theorem timing_eq (d b e : Int) : timing d b e = Spec.Slides.timeAttrs d b e := by
  unfold timing Spec.Slides.timeAttrs
  simp only [gt_iff_lt, intStr_decimal]
  split
  · congr 4
    split
    · rw [show min e d = d by omega]
    · rw [show min e d = e by omega]
  · rfl

/-- where an image or audio clip is found: its Content-Location, or else its Content-ID, or else its data -/
inductive Src (env : Env) (part : DataPart) : Str → Prop
  | location (s : Str) (h : part.headers.get (py! "Content-Location") = some (.v (.str s))) : Src env part s
  | id (s : Str) (h1 : part.headers.get (py! "Content-Location") = none)
      (h : part.headers.get (py! "Content-ID") = some (.v (.str s))) : Src env part s
  | data (s : Str) (h1 : part.headers.get (py! "Content-Location") = none)
      (h2 : part.headers.get (py! "Content-ID") = none) (h : part.readData env = .ok s) : Src env part s

theorem srcOf_ok {env : Env} {part : DataPart} {s : Str} (h : Src env part s) : srcOf env part = .ok s := by
  cases h with
  | location h => simp only [srcOf, h, srcText]
  | id h1 h => simp only [srcOf, h1, h, srcText]
  | data h1 h2 h => simp only [srcOf, h1, h2, h]

/-- the slot of a page is this medium (`R` says where the medium comes from) -/
inductive SlotIs (R : DataPart → Str → Prop) : Option (DataPart × Int × Int) → Option Medium → Prop
  | none : SlotIs R none none
  | some (part : DataPart) (b e : Int) (src : Str) (h : R part src) :
      SlotIs R (some (part, b, e)) (some ⟨src, b, e⟩)

/-- the page is this slide -/
structure PageIs (env : Env) (p : Page) (s : Slide) : Prop where
  duration : p.duration = s.duration
  image : SlotIs (Src env) p.image s.image
  text : SlotIs (fun part src => part.readData env = .ok src) p.text s.text
  audio : SlotIs (Src env) p.audio s.audio

/-- what a `par` element shows -/
def ParNode.view (p : ParNode) : Int × List Spec.Slides.Elem := (p.duration, p.kids.map (fun n => (n.tag, n.attrs)))

/-- node identities in use are below the next one -/
def Fresh (st : SmilSt) : Prop := ∀ p ∈ st.pars, ∀ n ∈ p.kids, n.uid < st.uid

theorem removeNode_ne {uid : Nat} {l : List MediaNode} (h : ∀ n ∈ l, n.uid ≠ uid) : removeNode uid l = l := by
  unfold removeNode
  rw [List.filter_eq_self]
  intro n hn
  simpa using h n hn

theorem smilImage_ok {env : Env} {p : Page} {s : Slide} (h : PageIs env p s) (uid : Nat) :
    ∃ l, smilImage env p uid = .ok l ∧ (∀ n ∈ l, n.uid = uid) ∧ l.map (fun n => (n.tag, n.attrs)) =
      (s.image.toList.map fun m => (py! "img", [(py! "src", m.src), (py! "region", py! "Image")] ++
        Spec.Slides.timeAttrs s.duration m.begin_ m.end_)) := by
  obtain ⟨hd, hi, _, _⟩ := h
  unfold smilImage
  generalize p.image = pi at hi ⊢
  generalize s.image = si at hi ⊢
  cases hi with
  | none => exact ⟨[], rfl, by simp, rfl⟩
  | some part b e src hs =>
    refine ⟨_, by simp only [srcOf_ok hs, bind, Except.bind]; rfl, by simp, ?_⟩
    simp [hd, timing_eq]

theorem smilText_ok {env : Env} {p : Page} {s : Slide} (h : PageIs env p s) (uid : Nat) :
    ∃ o, smilText env p uid = .ok o ∧ (∀ n ∈ o, n.uid = uid) ∧ (o.isSome = s.text.isSome) ∧
      o.toList.map (fun n => (n.tag, n.attrs)) =
      (s.text.toList.map fun m => (py! "text", [(py! "src", m.src), (py! "region", py! "Text")] ++
        Spec.Slides.timeAttrs s.duration m.begin_ m.end_)) := by
  obtain ⟨hd, _, hi, _⟩ := h
  unfold smilText
  generalize p.text = pi at hi ⊢
  generalize s.text = si at hi ⊢
  cases hi with
  | none => exact ⟨none, rfl, by simp, rfl, rfl⟩
  | some part b e src hs =>
    refine ⟨_, by simp only [hs, bind, Except.bind]; rfl, by simp, rfl, ?_⟩
    simp [hd, timing_eq]

theorem smilPage_ok {env : Env} {p : Page} {s : Slide} (h : PageIs env p s) (ht : s.audio.isSome → s.text.isSome)
    (st : SmilSt) (hf : Fresh st) : ∃ st', smilPage env st p = .ok st' ∧ Fresh st' ∧
      st'.pars.map ParNode.view = st.pars.map ParNode.view ++ [(s.duration, s.elems)] := by
  obtain ⟨img, i1, i2, i3⟩ := smilImage_ok h st.uid
  obtain ⟨txt, t1, t2, t3, t4⟩ := smilText_ok h (st.uid + 1)
  have hau := h.audio
  have hd := h.duration
  unfold smilPage
  simp only [i1, t1, bind, Except.bind]
  generalize hpa : p.audio = pa at hau ⊢
  generalize hsa : s.audio = sa at hau ht
  cases hau with
  | none =>
    refine ⟨_, rfl, ?_, ?_⟩
    · intro q hq n hn
      simp only [List.mem_append, List.mem_singleton] at hq
      rcases hq with hq | rfl
      · have := hf q hq n hn
        simp only; omega
      · simp only [List.mem_append] at hn
        rcases hn with hn | hn
        · have := i2 n hn
          simp only; omega
        · cases txt with
          | none => simp at hn
          | some t =>
            simp only [List.mem_singleton] at hn
            have := t2 n (by simp [hn])
            simp only; omega
    · simp only [List.map_append, List.map_cons, List.map_nil]
      congr 1
      simp only [ParNode.view, Slide.elems, hd, hsa, Option.toList_none, List.map_nil, List.append_nil, List.map_append]
      rw [i3]
      congr 3
      rw [← t4]
      cases txt <;> rfl
  | some part b e src hs =>
    have hts := ht rfl
    cases txt with
    | none => rw [← t3] at hts; simp at hts
    | some t =>
      have htu : t.uid = st.uid + 1 := t2 t (by simp)
      simp only [srcOf_ok hs]
      refine ⟨_, rfl, ?_, ?_⟩
      · intro q hq n hn
        simp only [List.mem_append, List.mem_map, List.mem_singleton] at hq
        rcases hq with ⟨q', hq', rfl⟩ | rfl
        · have hn' : n ∈ q'.kids := (List.mem_filter.1 hn).1
          have := hf q' hq' n hn'
          simp only; omega
        · simp only [List.mem_append, List.mem_cons, List.not_mem_nil, or_false] at hn
          rcases hn with hn | rfl | rfl
          · have hn' := (List.mem_filter.1 hn).1
            simp only [List.mem_append, List.mem_singleton] at hn'
            rcases hn' with hn' | rfl
            · have := i2 n hn'
              simp only; omega
            · simp only; omega
          · simp only; omega
          · simp only; omega
      · have hold : st.pars.map (fun p => ({ p with kids := removeNode t.uid p.kids } : ParNode)) = st.pars := by
          refine (List.map_congr_left (g := id) ?_).trans (List.map_id _)
          intro q hq
          rw [removeNode_ne (fun n hn => by have := hf q hq n hn; omega)]
          rfl
        rw [hold]
        have himg : removeNode t.uid (img ++ [t]) = img := by
          unfold removeNode
          rw [List.filter_append]
          have := removeNode_ne (uid := t.uid) (l := img) (fun n hn => by have := i2 n hn; omega)
          unfold removeNode at this
          rw [this]
          simp
        simp only [himg, List.map_append, List.map_cons, List.map_nil]
        congr 1
        simp only [ParNode.view, Slide.elems, hd, hsa, Option.toList_some, List.map_cons, List.map_nil, List.map_append, timing_eq]
        rw [i3, ← t4]
        simp

theorem smilPages_ok {env : Env} {ps : List Page} {ss : List Slide} (h : List.Forall₂ (PageIs env) ps ss)
    (ht : ∀ s ∈ ss, s.audio.isSome → s.text.isSome) (st : SmilSt) (hf : Fresh st) :
    ∃ st', smilPages env st ps = .ok st' ∧ Fresh st' ∧
      st'.pars.map ParNode.view = st.pars.map ParNode.view ++ ss.map (fun s => (s.duration, s.elems)) := by
  induction h generalizing st with
  | nil => exact ⟨st, rfl, hf, by simp⟩
  | cons h1 h2 ih =>
    obtain ⟨st1, a1, a2, a3⟩ := smilPage_ok h1 (ht _ (by simp)) st hf
    obtain ⟨st2, b1, b2, b3⟩ := ih (fun s hs => ht s (by simp [hs])) st1 a2
    refine ⟨st2, ?_, b2, ?_⟩
    · simp only [smilPages, a1, bind, Except.bind, b1]
    · rw [b3, a3]; simp

end Verif.Mms

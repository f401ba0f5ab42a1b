import Verif.Spec.Changing
import Verif.Proofs.Cache
import Verif.Proofs.Repeat
/-!
# Lemmas on messages whose files change while they are encoded
-/
set_option autoImplicit false

namespace Verif.Mms
open Verif.Spec.Changing

/-! ### parts that are filled -/

/-- the part, perhaps with the contents of its file, read between two moments -/
def FillAt (w : World) (t t' : Nat) (p p' : DataPart) : Prop :=
  p' = p ∨ ∃ f d u, p.filename = some f ∧ p.data = none ∧ t ≤ u ∧ u < t' ∧ (w u).content f = some d ∧
    p' = { p with data := some d }

theorem fillAt_mono {w : World} {t t' u u' : Nat} {p p' : DataPart} (h : FillAt w t t' p p') (h1 : u ≤ t) (h2 : t' ≤ u') :
    FillAt w u u' p p' := by
  rcases h with h | ⟨f, d, v, a, b, c, e, g, i⟩
  · exact .inl h
  · exact .inr ⟨f, d, v, a, b, by omega, by omega, g, i⟩

theorem fillAt_trans {w : World} {t t' t'' : Nat} {p q r : DataPart} (ha : t ≤ t') (hb : t' ≤ t'') (h : FillAt w t t' p q)
    (h' : FillAt w t' t'' q r) : FillAt w t t'' p r := by
  rcases h with rfl | ⟨f, d, v, a, b, c, e, g, rfl⟩
  · exact fillAt_mono h' ha (Nat.le_refl _)
  · rcases h' with rfl | ⟨_, _, _, _, b', _⟩
    · exact .inr ⟨f, d, v, a, b, c, by omega, g, rfl⟩
    · cases b'

/-- the same for the part in a slot -/
inductive FillSlot (w : World) (t t' : Nat) : Option (DataPart × Int × Int) → Option (DataPart × Int × Int) → Prop
  | none : FillSlot w t t' none none
  | some {p p' : DataPart} (x : Int × Int) (h : FillAt w t t' p p') : FillSlot w t t' (some (p, x)) (some (p', x))

theorem fillSlot_refl (w : World) (t t' : Nat) : ∀ x, FillSlot w t t' x x
  | none => .none
  | some (_, x) => .some x (.inl rfl)

theorem fillSlot_mono {w : World} {t t' u u' : Nat} {x y : Option (DataPart × Int × Int)} (h : FillSlot w t t' x y)
    (h1 : u ≤ t) (h2 : t' ≤ u') : FillSlot w u u' x y := by
  cases h with
  | none => exact .none
  | some x h => exact .some x (fillAt_mono h h1 h2)

theorem fillSlot_trans {w : World} {t t' t'' : Nat} {x y z : Option (DataPart × Int × Int)} (ha : t ≤ t') (hb : t' ≤ t'')
    (h : FillSlot w t t' x y) (h' : FillSlot w t' t'' y z) : FillSlot w t t'' x z := by
  cases h with
  | none => cases h'; exact .none
  | some x h => cases h' with
    | some _ h' => exact .some x (fillAt_trans ha hb h h')

/-- the same for the parts of a slide -/
structure FillPage (w : World) (t t' : Nat) (p q : Page) : Prop where
  duration : q.duration = p.duration
  image : FillSlot w t t' p.image q.image
  audio : FillSlot w t t' p.audio q.audio
  text : FillSlot w t t' p.text q.text

theorem fillPage_refl (w : World) (t t' : Nat) (p : Page) : FillPage w t t' p p :=
  ⟨rfl, fillSlot_refl _ _ _ _, fillSlot_refl _ _ _ _, fillSlot_refl _ _ _ _⟩

theorem fillPage_mono {w : World} {t t' u u' : Nat} {p q : Page} (h : FillPage w t t' p q) (h1 : u ≤ t) (h2 : t' ≤ u') :
    FillPage w u u' p q :=
  ⟨h.1, fillSlot_mono h.2 h1 h2, fillSlot_mono h.3 h1 h2, fillSlot_mono h.4 h1 h2⟩

theorem fillPage_trans {w : World} {t t' t'' : Nat} {p q r : Page} (ha : t ≤ t') (hb : t' ≤ t'')
    (h : FillPage w t t' p q) (h' : FillPage w t' t'' q r) : FillPage w t t'' p r :=
  ⟨h'.1.trans h.1, fillSlot_trans ha hb h.2 h'.2, fillSlot_trans ha hb h.3 h'.3, fillSlot_trans ha hb h.4 h'.4⟩

abbrev FillPages (w : World) (t t' : Nat) : List Page → List Page → Prop := List.Forall₂ (FillPage w t t')

theorem fillPages_refl (w : World) (t t' : Nat) : ∀ l, FillPages w t t' l l
  | [] => .nil
  | p :: l => .cons (fillPage_refl w t t' p) (fillPages_refl w t t' l)

theorem fillPages_mono {w : World} {t t' u u' : Nat} {l l' : List Page} (h : FillPages w t t' l l') (h1 : u ≤ t)
    (h2 : t' ≤ u') : FillPages w u u' l l' := h.imp (fun _ _ h => fillPage_mono h h1 h2)

theorem fillPages_trans {w : World} {t t' t'' : Nat} {a b c : List Page} (ha : t ≤ t') (hb : t' ≤ t'')
    (h : FillPages w t t' a b) (h' : FillPages w t' t'' b c) : FillPages w t t'' a c := by
  induction h generalizing c with
  | nil => cases h'; exact .nil
  | cons h _ ih => cases h' with
    | cons h' t' => exact .cons (fillPage_trans ha hb h h') (ih t')

/-- what is relied on, at every later moment -/
def PartGood (w : World) (t0 : Nat) (s : DataPart × Nat) : Prop := t0 ≤ s.2 ∧ Steady w t0 s.1

def PartF (w : World) (s s' : DataPart × Nat) : Prop := s.2 ≤ s'.2 ∧ FillAt w s.2 s'.2 s.1 s'.1

theorem steady_fill {w : World} {t0 t t' : Nat} {p p' : DataPart} (h : Steady w t0 p) (h0 : t0 ≤ t)
    (hf : FillAt w t t' p p') : Steady w t0 p' := by
  rcases hf with rfl | ⟨f, d, v, a, b, c, e, g, rfl⟩
  · exact h
  · intro f' hf'
    have hf' : p.filename = some f' := hf'
    rw [a] at hf'
    injection hf' with hf'
    subst hf'
    obtain ⟨n, hn⟩ := (h f a).2 b
    refine ⟨fun d' hd' u hu => ?_, fun hd' => by cases hd'⟩
    injection hd' with hd'
    subst hd'
    obtain ⟨_, d2, h2, h3⟩ := hn v (by omega)
    rw [g] at h2
    injection h2 with h2
    subst h2
    rw [(hn u hu).1, h3]

/-- the part with the contents it holds, or those of its file at the moment `t0` -/
def frozen (w : World) (t0 : Nat) (p : DataPart) : DataPart :=
  match p.filename with
  | none => p
  | some f =>
    match p.data with
    | some _ => { p with filename := none }
    | none => { p with filename := none, data := (w t0).content f }

def frozenSlot (w : World) (t0 : Nat) (x : Option (DataPart × Int × Int)) : Option (DataPart × Int × Int) :=
  x.map (fun t => (frozen w t0 t.1, t.2))

def frozenPage (w : World) (t0 : Nat) (p : Page) : Page :=
  { p with image := frozenSlot w t0 p.image, audio := frozenSlot w t0 p.audio, text := frozenSlot w t0 p.text }

theorem frozen_headers (w : World) (t0 : Nat) (p : DataPart) : (frozen w t0 p).headers = p.headers := by
  unfold frozen
  split
  · rfl
  · split <;> rfl

theorem frozen_filename (w : World) (t0 : Nat) (p : DataPart) : (frozen w t0 p).filename = none := by
  unfold frozen
  split
  · assumption
  · split <;> rfl

theorem frozen_data {w : World} {t0 : Nat} {p : DataPart} {d : Str} (h : p.data = some d) :
    (frozen w t0 p).data = some d := by
  unfold frozen
  split
  · exact h
  · rw [h]

theorem fill_data {w : World} {t t' : Nat} {p p' : DataPart} {d : Str} (h : FillAt w t t' p p') (hd : p.data = some d) :
    p'.data = some d := by
  rcases h with rfl | ⟨_, _, _, _, b, _⟩
  · exact hd
  · rw [hd] at b; cases b

theorem fill_headers {w : World} {t t' : Nat} {p p' : DataPart} (h : FillAt w t t' p p') : p'.headers = p.headers := by
  rcases h with rfl | ⟨_, _, _, _, _, _, _, _, rfl⟩ <;> rfl

theorem fill_filename {w : World} {t t' : Nat} {p p' : DataPart} (h : FillAt w t t' p p') : p'.filename = p.filename := by
  rcases h with rfl | ⟨_, _, _, _, _, _, _, _, rfl⟩ <;> rfl

theorem fill_none {w : World} {t t' : Nat} {p p' : DataPart} (h : FillAt w t t' p p') (hf : p.filename = none) :
    p' = p := by
  rcases h with rfl | ⟨_, _, _, a, _⟩
  · rfl
  · rw [hf] at a; cases a

/-! ### simulation -/

/-- `f` gives what `g` gives on every state into which the one it leaves may be filled -/
def TSim {σ α : Type} (F : σ → σ → Prop) (G : σ → Prop) (f : M σ α) (g : σ → Py α) : Prop :=
  ∀ s, G s → ∃ s' x, F s s' ∧ (f s = match x with | .ok a => .ok a s' | .error e => .err e s') ∧ ∀ s'', F s' s'' → g s'' = x

theorem TSim.bind {σ α β : Type} {F : σ → σ → Prop} {G : σ → Prop} (ht : ∀ {a b c}, F a b → F b c → F a c)
    (hg : ∀ {a b}, G a → F a b → G b) {f : M σ α} {g : σ → Py α}
    {k : α → M σ β} {l : α → σ → Py β} (hf : TSim F G f g) (hk : ∀ a, TSim F G (k a) (l a)) :
    TSim F G (f >>= k) (fun s => g s >>= fun a => l a s) := by
  intro s hs
  obtain ⟨s1, x, h1, e1, u1⟩ := hf s hs
  cases x with
  | error e =>
    refine ⟨s1, .error e, h1, by rw [M.bind_err e1], fun s'' h => ?_⟩
    simp only [u1 s'' h]
    rfl
  | ok a =>
    obtain ⟨s2, y, h2, e2, u2⟩ := hk a s1 (hg hs h1)
    refine ⟨s2, y, ht h1 h2, by rw [M.bind_ok e1, e2], fun s'' h => ?_⟩
    simp only [u1 s'' (ht h2 h)]
    exact u2 s'' h

theorem TSim.lift {σ α : Type} {F : σ → σ → Prop} {G : σ → Prop} (hr : ∀ s, F s s) (x : Py α) :
    TSim F G (M.lift x) (fun _ => x) := by
  intro s _
  refine ⟨s, x, hr s, ?_, fun _ _ => rfl⟩
  cases x <;> rfl

theorem partF_refl (w : World) (s : DataPart × Nat) : PartF w s s := ⟨Nat.le_refl _, .inl rfl⟩

theorem partF_trans {w : World} {a b c : DataPart × Nat} (h : PartF w a b) (h' : PartF w b c) : PartF w a c :=
  ⟨Nat.le_trans h.1 h'.1, fillAt_trans h.1 h'.1 h.2 h'.2⟩

theorem partGood_fill {w : World} {t0 : Nat} {a b : DataPart × Nat} (h : PartGood w t0 a) (h' : PartF w a b) :
    PartGood w t0 b := ⟨Nat.le_trans h.1 h'.1, steady_fill h.2 h.1 h'.2⟩

theorem TSim.bindPart {α β : Type} {w : World} {t0 : Nat} {f : M (DataPart × Nat) α} {g : DataPart × Nat → Py α}
    {k : α → M (DataPart × Nat) β} {l : α → DataPart × Nat → Py β} (hf : TSim (PartF w) (PartGood w t0) f g)
    (hk : ∀ a, TSim (PartF w) (PartGood w t0) (k a) (l a)) :
    TSim (PartF w) (PartGood w t0) (f >>= k) (fun s => g s >>= fun a => l a s) :=
  TSim.bind (F := PartF w) (G := PartGood w t0) (fun h h' => partF_trans h h') (fun h h' => partGood_fill h h') hf hk

theorem TSim.getData (w : World) (t0 : Nat) (env : Env) : TSim (PartF w) (PartGood w t0) (getDataT w)
    (fun s => (frozen w t0 s.1).readData env) := by
  rintro ⟨p, t⟩ ⟨h0, hs⟩
  unfold getDataT
  simp only
  cases hd : p.data with
  | some d =>
    refine ⟨(p, t), .ok d, partF_refl _ _, rfl, fun s'' h => ?_⟩
    unfold DataPart.readData
    rw [frozen_data (fill_data h.2 hd)]
  | none =>
    cases hf : p.filename with
    | none =>
      refine ⟨(p, t), .ok [], partF_refl _ _, rfl, fun s'' h => ?_⟩
      rw [fill_none h.2 hf]
      unfold frozen DataPart.readData
      simp only [hf, hd]
    | some f =>
      obtain ⟨n, hn⟩ := (hs f hf).2 hd
      obtain ⟨_, d, h2, h3⟩ := hn t h0
      refine ⟨({ p with data := some d }, t + 1), .ok d,
        ⟨Nat.le_succ _, .inr ⟨f, d, t, hf, hd, Nat.le_refl _, Nat.lt_succ_self _, h2, rfl⟩⟩, by simp only [h2, hf], fun s'' h => ?_⟩
      unfold DataPart.readData
      rw [frozen_data (fill_data h.2 rfl)]

theorem TSim.len (w : World) (t0 : Nat) (env : Env) : TSim (PartF w) (PartGood w t0) (lenT w)
    (fun s => (frozen w t0 s.1).len env) := by
  rintro ⟨p, t⟩ ⟨h0, hs⟩
  unfold lenT DataPart.len
  simp only [frozen_filename]
  cases hf : p.filename with
  | none =>
    obtain ⟨s', x, h1, h2, h3⟩ := TSim.getData w t0 env (p, t) ⟨h0, hs⟩
    refine ⟨s', x >>= fun d => .ok d.length, h1, ?_, fun s'' h => ?_⟩
    · rw [h2]
      cases x <;> rfl
    · have := h3 s'' h
      simp only at this ⊢
      rw [this]
  | some f =>
    simp only
    cases hd : p.data with
    | some d =>
      have := (hs f hf).1 d hd t h0
      refine ⟨(p, t + 1), .ok d.length, ⟨Nat.le_succ _, .inl rfl⟩, by simp only [this], fun s'' h => ?_⟩
      unfold DataPart.readData
      rw [frozen_data (fill_data h.2 hd)]
      rfl
    | none =>
      obtain ⟨n, hn⟩ := (hs f hf).2 hd
      refine ⟨(p, t + 1), .ok n, ⟨Nat.le_succ _, .inl rfl⟩, by simp only [(hn t h0).1], fun s'' h => ?_⟩
      obtain ⟨d, e1, e2⟩ : ∃ d, (frozen w t0 s''.1).data = some d ∧ d.length = n := by
        rcases h.2 with h | ⟨f', d, v, a, b, c, e, g, h⟩
        · obtain ⟨_, d, e1, e2⟩ := hn t0 (Nat.le_refl _)
          refine ⟨d, ?_, e2⟩
          have h : s''.1 = p := h
          rw [h]
          unfold frozen
          simp only [hf, hd, e1]
        · have a : p.filename = some f' := a
          have c : t + 1 ≤ v := c
          rw [hf] at a
          injection a with a
          subst a
          obtain ⟨_, d2, e1, e2⟩ := hn v (by omega)
          rw [g] at e1
          injection e1 with e1
          subst e1
          exact ⟨d, frozen_data (by rw [h]), e2⟩
      unfold DataPart.readData
      rw [e1, ← e2]
      rfl

theorem TSim.srcOf (w : World) (t0 : Nat) (env : Env) : TSim (PartF w) (PartGood w t0) (srcOfT w)
    (fun s => Mms.srcOf env (frozen w t0 s.1)) := by
  intro s hs
  unfold srcOfT Mms.srcOf
  have hh : ∀ {s' s'' : DataPart × Nat}, PartF w s' s'' → (frozen w t0 s''.1).headers = s'.1.headers := by
    intro s' s'' h
    rw [frozen_headers, fill_headers h.2]
  rcases h : s.1.headers.get (py! "Content-Location") with _ | v
  · rcases h2 : s.1.headers.get (py! "Content-ID") with _ | v2
    · obtain ⟨s', x, h3, h4, h5⟩ := TSim.getData w t0 env s hs
      refine ⟨s', x, h3, h4, fun s'' h6 => ?_⟩
      simp only
      rw [hh h6, fill_headers h3.2, h]
      simp only
      rw [h2]
      exact h5 s'' h6
    · refine ⟨s, srcText v2, partF_refl _ _, ?_, fun s'' h6 => ?_⟩
      · show M.lift (srcText v2) s = _
        cases srcText v2 <;> rfl
      · simp only
        rw [hh h6, h]
        simp only
        rw [h2]
  · refine ⟨s, srcText v, partF_refl _ _, ?_, fun s'' h6 => ?_⟩
    · show M.lift (srcText v) s = _
      cases srcText v <;> rfl
    · simp only
      rw [hh h6, h]

theorem TSim.encodePart (w : World) (t0 : Nat) (env : Env) (ord : Dict HVal → Dict HVal) :
    TSim (PartF w) (PartGood w t0) (encodePartT w ord) (fun s => Mms.encodePart env ord (frozen w t0 s.1)) := by
  intro s hs
  have hh : ∀ {s' s'' : DataPart × Nat}, PartF w s' s'' → (frozen w t0 s''.1).headers = s'.1.headers := by
    intro s' s'' h
    rw [frozen_headers, fill_headers h.2]
  have base : TSim (PartF w) (PartGood w t0) (do
      let v ← M.lift (s.1.headers.index (py! "Content-Type"))
      let ct ← M.lift (encodeCtPair v)
      let hs ← M.lift (encodePartHeaders (ord s.1.headers))
      let a ← M.lift (toOctets (ints (encodeUintVar ((ct.length : Int) + hs.length))))
      let n ← lenT w
      let b ← M.lift (toOctets (ints (encodeUintVar n)))
      let c ← M.lift (toOctets ct)
      let d ← M.lift (toOctets hs)
      let data ← getDataT w
      pure (a ++ b ++ c ++ d ++ data)) (fun s' => do
      let v ← s.1.headers.index (py! "Content-Type")
      let ct ← encodeCtPair v
      let hs ← encodePartHeaders (ord s.1.headers)
      let a ← toOctets (ints (encodeUintVar ((ct.length : Int) + hs.length)))
      let n ← (frozen w t0 s'.1).len env
      let b ← toOctets (ints (encodeUintVar n))
      let c ← toOctets ct
      let d ← toOctets hs
      let data ← (frozen w t0 s'.1).readData env
      .ok (a ++ b ++ c ++ d ++ data)) := by
    have hr := partF_refl w
    refine TSim.bindPart (TSim.lift hr _) fun v => ?_
    refine TSim.bindPart (TSim.lift hr _) fun ct => ?_
    refine TSim.bindPart (TSim.lift hr _) fun hs => ?_
    refine TSim.bindPart (TSim.lift hr _) fun a => ?_
    refine TSim.bindPart (TSim.len w t0 env) fun n => ?_
    refine TSim.bindPart (TSim.lift hr _) fun b => ?_
    refine TSim.bindPart (TSim.lift hr _) fun c => ?_
    refine TSim.bindPart (TSim.lift hr _) fun d => ?_
    refine TSim.bindPart (TSim.getData w t0 env) fun data => ?_
    exact TSim.lift hr (.ok (a ++ b ++ c ++ d ++ data))
  obtain ⟨s', x, h1, h2, h3⟩ := base s hs
  refine ⟨s', x, h1, h2, fun s'' h => ?_⟩
  rw [← h3 s'' h]
  show Mms.encodePart env ord (frozen w t0 s''.1) = _
  unfold Mms.encodePart
  rw [hh (partF_trans h1 h)]

/-! ### slots, slides -/

def PageF (w : World) (s s' : Page × Nat) : Prop := s.2 ≤ s'.2 ∧ FillPage w s.2 s'.2 s.1 s'.1

/-- the parts of a slide -/
def slideHas (p : Page) (q : DataPart) : Prop := ∃ x, p.image = some (q, x) ∨ p.audio = some (q, x) ∨ p.text = some (q, x)

def PageGood (w : World) (t0 : Nat) (s : Page × Nat) : Prop := t0 ≤ s.2 ∧ ∀ q, slideHas s.1 q → Steady w t0 q

theorem pageF_refl (w : World) (s : Page × Nat) : PageF w s s := ⟨Nat.le_refl _, fillPage_refl _ _ _ _⟩

theorem pageF_trans {w : World} {a b c : Page × Nat} (h : PageF w a b) (h' : PageF w b c) : PageF w a c :=
  ⟨Nat.le_trans h.1 h'.1, fillPage_trans h.1 h'.1 h.2 h'.2⟩

theorem fillSlot_from {w : World} {t t' : Nat} {x : Option (DataPart × Int × Int)} {q : DataPart} {y : Int × Int}
    (h : FillSlot w t t' x (some (q, y))) : ∃ p, x = some (p, y) ∧ FillAt w t t' p q := by
  cases h with
  | some _ h => exact ⟨_, rfl, h⟩

theorem pageGood_fill {w : World} {t0 : Nat} {a b : Page × Nat} (h : PageGood w t0 a) (h' : PageF w a b) :
    PageGood w t0 b := by
  refine ⟨Nat.le_trans h.1 h'.1, fun q hq => ?_⟩
  obtain ⟨x, hx | hx | hx⟩ := hq
  · obtain ⟨p, e1, e2⟩ := fillSlot_from (hx ▸ h'.2.image)
    exact steady_fill (h.2 p ⟨x, .inl e1⟩) h.1 e2
  · obtain ⟨p, e1, e2⟩ := fillSlot_from (hx ▸ h'.2.audio)
    exact steady_fill (h.2 p ⟨x, .inr (.inl e1)⟩) h.1 e2
  · obtain ⟨p, e1, e2⟩ := fillSlot_from (hx ▸ h'.2.text)
    exact steady_fill (h.2 p ⟨x, .inr (.inr e1)⟩) h.1 e2

theorem TSim.bindPage {α β : Type} {w : World} {t0 : Nat} {f : M (Page × Nat) α} {g : Page × Nat → Py α}
    {k : α → M (Page × Nat) β} {l : α → Page × Nat → Py β} (hf : TSim (PageF w) (PageGood w t0) f g)
    (hk : ∀ a, TSim (PageF w) (PageGood w t0) (k a) (l a)) :
    TSim (PageF w) (PageGood w t0) (f >>= k) (fun s => g s >>= fun a => l a s) :=
  TSim.bind (F := PageF w) (G := PageGood w t0) (fun h h' => pageF_trans h h') (fun h h' => pageGood_fill h h') hf hk

/-- code on a slot -/
theorem onSlotT_sim {α : Type} {w : World} {t0 : Nat} {f : M (DataPart × Nat) α} {g : DataPart × Nat → Py α}
    (hf : TSim (PartF w) (PartGood w t0) f g) (put : Page → Option (DataPart × Int × Int) → Page)
    (x : DataPart × Int × Int) (s : Page × Nat) (hs : PartGood w t0 (x.1, s.2)) :
    ∃ p' t' r, s.2 ≤ t' ∧ FillSlot w s.2 t' (some x) (some (p', x.2)) ∧
      (onSlotT put x f s = match r with
        | .ok a => .ok a (put s.1 (some (p', x.2)), t')
        | .error e => .err e (put s.1 (some (p', x.2)), t')) ∧
      ∀ s'', PartF w (p', t') s'' → g s'' = r := by
  obtain ⟨⟨p', t'⟩, r, h1, h2, h3⟩ := hf (x.1, s.2) hs
  refine ⟨p', t', r, h1.1, .some x.2 h1.2, ?_, h3⟩
  unfold onSlotT
  rw [h2]
  cases r <;> rfl

theorem slot_future {w : World} {t t' : Nat} {p : DataPart} {x : Int × Int} {y : Option (DataPart × Int × Int)}
    (h : FillSlot w t t' (some (p, x)) y) : ∃ q, y = some (q, x) ∧ FillAt w t t' p q := by
  cases h with
  | some _ h => exact ⟨_, rfl, h⟩

theorem slot_future_none {w : World} {t t' : Nat} {y : Option (DataPart × Int × Int)}
    (h : FillSlot w t t' none y) : y = none := by
  cases h; rfl

theorem TSim.smilImage (w : World) (t0 : Nat) (env : Env) (u : Nat) : TSim (PageF w) (PageGood w t0) (smilImageT w u)
    (fun s => Mms.smilImage env (frozenPage w t0 s.1) u) := by
  intro s hs
  unfold smilImageT
  rw [M.bind_apply]
  simp only [M.get, Mms.smilImage]
  cases hp : s.1.image with
  | none =>
    refine ⟨s, .ok [], pageF_refl w s, rfl, fun s'' h => ?_⟩
    have := slot_future_none (hp ▸ h.2.image)
    simp only [frozenPage, this, frozenSlot, Option.map_none]
  | some x =>
    obtain ⟨p', t', r, h1, h2, h3, h4⟩ := onSlotT_sim (TSim.srcOf w t0 env) Page.putImage x s
      ⟨hs.1, hs.2 x.1 ⟨x.2, .inl hp⟩⟩
    refine ⟨(s.1.putImage (some (p', x.2)), t'), r >>= fun src => .ok [{
        uid := u, tag := py! "img",
        attrs := [(py! "src", src), (py! "region", py! "Image")] ++ timing s.1.duration x.2.1 x.2.2 }],
      ⟨h1, ⟨rfl, hp ▸ h2, fillSlot_refl _ _ _ _, fillSlot_refl _ _ _ _⟩⟩, ?_, fun s'' h => ?_⟩
    · simp only [M.bind_apply, h3]
      cases r <;> rfl
    · obtain ⟨q, e1, e2⟩ := slot_future h.2.image
      have hd : s''.1.duration = s.1.duration := h.2.duration
      simp only [frozenPage, e1, frozenSlot, Option.map_some, hd]
      rw [← h4 (q, s''.2) ⟨h.1, e2⟩]

theorem TSim.smilText (w : World) (t0 : Nat) (env : Env) (u : Nat) : TSim (PageF w) (PageGood w t0) (smilTextT w u)
    (fun s => Mms.smilText env (frozenPage w t0 s.1) u) := by
  intro s hs
  unfold smilTextT
  rw [M.bind_apply]
  simp only [M.get, Mms.smilText]
  cases hp : s.1.text with
  | none =>
    refine ⟨s, .ok none, pageF_refl w s, rfl, fun s'' h => ?_⟩
    have := slot_future_none (hp ▸ h.2.text)
    simp only [frozenPage, this, frozenSlot, Option.map_none]
  | some x =>
    obtain ⟨p', t', r, h1, h2, h3, h4⟩ := onSlotT_sim (TSim.getData w t0 env) Page.putText x s
      ⟨hs.1, hs.2 x.1 ⟨x.2, .inr (.inr hp)⟩⟩
    refine ⟨(s.1.putText (some (p', x.2)), t'), r >>= fun src => .ok (some {
        uid := u, tag := py! "text",
        attrs := [(py! "src", src), (py! "region", py! "Text")] ++ timing s.1.duration x.2.1 x.2.2 }),
      ⟨h1, ⟨rfl, fillSlot_refl _ _ _ _, fillSlot_refl _ _ _ _, hp ▸ h2⟩⟩, ?_, fun s'' h => ?_⟩
    · simp only [M.bind_apply, h3]
      cases r <;> rfl
    · obtain ⟨q, e1, e2⟩ := slot_future h.2.text
      have hd : s''.1.duration = s.1.duration := h.2.duration
      simp only [frozenPage, e1, frozenSlot, Option.map_some, hd]
      rw [← h4 (q, s''.2) ⟨h.1, e2⟩]

theorem TSim.smilPage (w : World) (t0 : Nat) (env : Env) (st : SmilSt) : TSim (PageF w) (PageGood w t0) (smilPageT w st)
    (fun s => Mms.smilPage env st (frozenPage w t0 s.1)) := by
  show TSim (PageF w) (PageGood w t0) _ (fun s => Mms.smilImage env (frozenPage w t0 s.1) st.uid >>= fun i =>
    Mms.smilText env (frozenPage w t0 s.1) (st.uid + 1) >>= fun t => smilAudio env st i t (frozenPage w t0 s.1))
  unfold smilPageT
  refine TSim.bindPage (TSim.smilImage w t0 env _) fun i => ?_
  refine TSim.bindPage (TSim.smilText w t0 env _) fun t => ?_
  intro s hs
  rw [M.bind_apply]
  simp only [M.get, smilAudio]
  cases hp : s.1.audio with
  | none =>
    refine ⟨s, .ok _, pageF_refl w s, rfl, fun s'' h => ?_⟩
    have := slot_future_none (hp ▸ h.2.audio)
    have hd : s''.1.duration = s.1.duration := h.2.duration
    simp only [frozenPage, this, frozenSlot, Option.map_none, hd]
    rfl
  | some x =>
    obtain ⟨p', t', r, h1, h2, h3, h4⟩ := onSlotT_sim (TSim.srcOf w t0 env) Page.putAudio x s
      ⟨hs.1, hs.2 x.1 ⟨x.2, .inr (.inl hp)⟩⟩
    have key : ∀ s'', PageF w (s.1.putAudio (some (p', x.2)), t') s'' →
        smilAudio env st i t (frozenPage w t0 s''.1) = (r >>= fun src =>
          match (match t with | some t => some t | none => st.textNode) with
          | none => .error .nameError
          | some tn => .ok {
              pars := st.pars.map (fun p => { p with kids := removeNode tn.uid p.kids }) ++ [⟨s.1.duration,
                removeNode tn.uid (i ++ (match t with | some t => [t] | none => [])) ++ [tn, {
                  uid := st.uid + 2, tag := py! "audio",
                  attrs := [(py! "src", src)] ++ timing s.1.duration x.2.1 x.2.2 }]⟩],
              textNode := (match t with | some t => some t | none => st.textNode), uid := st.uid + 3 }) := by
      intro s'' h
      obtain ⟨q, e1, e2⟩ := slot_future h.2.audio
      have hd : s''.1.duration = s.1.duration := h.2.duration
      unfold smilAudio
      simp only [frozenPage, e1, frozenSlot, Option.map_some, hd]
      rw [← h4 (q, s''.2) ⟨h.1, e2⟩]
      rfl
    refine ⟨(s.1.putAudio (some (p', x.2)), t'), _,
      ⟨h1, ⟨rfl, fillSlot_refl _ _ _ _, hp ▸ h2, fillSlot_refl _ _ _ _⟩⟩, ?_, fun s'' h => key s'' h⟩
    simp only [M.bind_apply, h3]
    cases r with
    | error e => rfl
    | ok src =>
      cases t with
      | some t => rfl
      | none => cases st.textNode <;> rfl

/-- what is sent for the part in a slot -/
def encodeSlotPure (env : Env) (ord : Dict HVal → Dict HVal) (x : Option (DataPart × Int × Int)) : Py (List Nat) :=
  match x with
  | none => .ok []
  | some x => encodePart env ord x.1

theorem TSim.encodeImage (w : World) (t0 : Nat) (env : Env) (ord : Dict HVal → Dict HVal) :
    TSim (PageF w) (PageGood w t0) (fun s => encodeSlotT w ord Page.putImage s.1.image s)
      (fun s => encodeSlotPure env ord (frozenPage w t0 s.1).image) := by
  intro s hs
  simp only [encodeSlotT, encodeSlotPure]
  cases hp : s.1.image with
  | none =>
    refine ⟨s, .ok [], pageF_refl w s, rfl, fun s'' h => ?_⟩
    simp only [frozenPage, slot_future_none (hp ▸ h.2.image), frozenSlot, Option.map_none]
  | some x =>
    obtain ⟨p', t', r, h1, h2, h3, h4⟩ := onSlotT_sim (TSim.encodePart w t0 env ord) Page.putImage x s
      ⟨hs.1, hs.2 x.1 ⟨x.2, .inl hp⟩⟩
    refine ⟨(s.1.putImage (some (p', x.2)), t'), r,
      ⟨h1, ⟨rfl, hp ▸ h2, fillSlot_refl _ _ _ _, fillSlot_refl _ _ _ _⟩⟩, h3, fun s'' h => ?_⟩
    obtain ⟨q, e1, e2⟩ := slot_future h.2.image
    simp only [frozenPage, e1, frozenSlot, Option.map_some]
    exact h4 (q, s''.2) ⟨h.1, e2⟩

theorem TSim.encodeAudio (w : World) (t0 : Nat) (env : Env) (ord : Dict HVal → Dict HVal) :
    TSim (PageF w) (PageGood w t0) (fun s => encodeSlotT w ord Page.putAudio s.1.audio s)
      (fun s => encodeSlotPure env ord (frozenPage w t0 s.1).audio) := by
  intro s hs
  simp only [encodeSlotT, encodeSlotPure]
  cases hp : s.1.audio with
  | none =>
    refine ⟨s, .ok [], pageF_refl w s, rfl, fun s'' h => ?_⟩
    simp only [frozenPage, slot_future_none (hp ▸ h.2.audio), frozenSlot, Option.map_none]
  | some x =>
    obtain ⟨p', t', r, h1, h2, h3, h4⟩ := onSlotT_sim (TSim.encodePart w t0 env ord) Page.putAudio x s
      ⟨hs.1, hs.2 x.1 ⟨x.2, .inr (.inl hp)⟩⟩
    refine ⟨(s.1.putAudio (some (p', x.2)), t'), r,
      ⟨h1, ⟨rfl, fillSlot_refl _ _ _ _, hp ▸ h2, fillSlot_refl _ _ _ _⟩⟩, h3, fun s'' h => ?_⟩
    obtain ⟨q, e1, e2⟩ := slot_future h.2.audio
    simp only [frozenPage, e1, frozenSlot, Option.map_some]
    exact h4 (q, s''.2) ⟨h.1, e2⟩

theorem TSim.encodeText (w : World) (t0 : Nat) (env : Env) (ord : Dict HVal → Dict HVal) :
    TSim (PageF w) (PageGood w t0) (fun s => encodeSlotT w ord Page.putText s.1.text s)
      (fun s => encodeSlotPure env ord (frozenPage w t0 s.1).text) := by
  intro s hs
  simp only [encodeSlotT, encodeSlotPure]
  cases hp : s.1.text with
  | none =>
    refine ⟨s, .ok [], pageF_refl w s, rfl, fun s'' h => ?_⟩
    simp only [frozenPage, slot_future_none (hp ▸ h.2.text), frozenSlot, Option.map_none]
  | some x =>
    obtain ⟨p', t', r, h1, h2, h3, h4⟩ := onSlotT_sim (TSim.encodePart w t0 env ord) Page.putText x s
      ⟨hs.1, hs.2 x.1 ⟨x.2, .inr (.inr hp)⟩⟩
    refine ⟨(s.1.putText (some (p', x.2)), t'), r,
      ⟨h1, ⟨rfl, fillSlot_refl _ _ _ _, fillSlot_refl _ _ _ _, hp ▸ h2⟩⟩, h3, fun s'' h => ?_⟩
    obtain ⟨q, e1, e2⟩ := slot_future h.2.text
    simp only [frozenPage, e1, frozenSlot, Option.map_some]
    exact h4 (q, s''.2) ⟨h.1, e2⟩

theorem encodePageT_steps (w : World) (ord : Dict HVal → Dict HVal) (o : List Nat) :
    encodePageT w ord o = (do
      let a ← fun s => encodeSlotT w ord Page.putImage s.1.image s
      let b ← fun s => encodeSlotT w ord Page.putAudio s.1.audio s
      let c ← fun s => encodeSlotT w ord Page.putText s.1.text s
      pure (o ++ a ++ b ++ c)) := by
  funext s
  obtain ⟨⟨du, im, au, tx⟩, t⟩ := s
  unfold encodePageT
  simp only [M.bind_apply, M.get]
  have h1 : ∀ {a s'}, encodeSlotT w ord Page.putImage im (⟨du, im, au, tx⟩, t) = .ok a s' →
      s'.1.audio = au ∧ s'.1.text = tx := by
    intro a s' h
    cases im with
    | none => cases h; exact ⟨rfl, rfl⟩
    | some x =>
      simp only [encodeSlotT, onSlotT] at h
      split at h
      · cases h; exact ⟨rfl, rfl⟩
      · cases h
  have h2 : ∀ {a : List Nat} {x} {s0 s' : Page × Nat}, encodeSlotT w ord Page.putAudio x s0 = .ok a s' →
      s'.1.text = s0.1.text := by
    intro a x s0 s' h
    cases x with
    | none => cases h; rfl
    | some x =>
      simp only [encodeSlotT, onSlotT] at h
      split at h
      · cases h; rfl
      · cases h
  cases hI : encodeSlotT w ord Page.putImage im (⟨du, im, au, tx⟩, t) with
  | err e s => rfl
  | ok a s1 =>
    obtain ⟨e1, e2⟩ := h1 hI
    simp only [e1]
    cases hA : encodeSlotT w ord Page.putAudio au s1 with
    | err e s => rfl
    | ok b s2 =>
      have := h2 hA
      simp only [this, e2]

theorem encodeParts_slots (env : Env) (ord : Dict HVal → Dict HVal) (p : Page) (o : List Nat) :
    (do
      let a ← encodeSlotPure env ord p.image
      let b ← encodeSlotPure env ord p.audio
      let c ← encodeSlotPure env ord p.text
      .ok (o ++ a ++ b ++ c) : Py (List Nat)) =
    (do
      let r ← encodeParts env ord (p.dataParts.map (fun t => t.1))
      .ok (o ++ r)) := by
  obtain ⟨du, im, au, tx⟩ := p
  have e1 : (Page.dataParts ⟨du, im, au, tx⟩).map (fun t => t.1) = slotParts im ++ (slotParts au ++ slotParts tx) := by
    cases im <;> cases au <;> cases tx <;> rfl
  have e2 : ∀ x, encodeParts env ord (slotParts x) = encodeSlotPure env ord x := by
    intro x
    cases x with
    | none => rfl
    | some x =>
      simp only [slotParts, encodeParts, encodeSlotPure]
      cases encodePart env ord x.1 <;> simp [bind, Except.bind]
  rw [e1, encodeParts_append, encodeParts_append, e2, e2, e2]
  cases encodeSlotPure env ord im with
  | error e => rfl
  | ok a =>
    cases encodeSlotPure env ord au with
    | error e => rfl
    | ok b =>
      cases encodeSlotPure env ord tx with
      | error e => rfl
      | ok c => simp [bind, Except.bind]

theorem TSim.encodePage (w : World) (t0 : Nat) (env : Env) (ord : Dict HVal → Dict HVal) (o : List Nat) :
    TSim (PageF w) (PageGood w t0) (encodePageT w ord o) (fun s => do
      let r ← encodeParts env ord ((frozenPage w t0 s.1).dataParts.map (fun t => t.1))
      .ok (o ++ r)) := by
  simp only [← encodeParts_slots]
  rw [encodePageT_steps]
  refine TSim.bindPage (TSim.encodeImage w t0 env ord) fun a => ?_
  refine TSim.bindPage (TSim.encodeAudio w t0 env ord) fun b => ?_
  refine TSim.bindPage (TSim.encodeText w t0 env ord) fun c => ?_
  exact TSim.lift (pageF_refl w) (.ok (o ++ a ++ b ++ c))

/-! ### messages -/

def PagesF (w : World) (s s' : List Page × Nat) : Prop := s.2 ≤ s'.2 ∧ FillPages w s.2 s'.2 s.1 s'.1

def PagesGood (w : World) (t0 : Nat) (s : List Page × Nat) : Prop := t0 ≤ s.2 ∧ ∀ p ∈ s.1, ∀ q, slideHas p q → Steady w t0 q

/-- the loop over the pages, without caching -/
def pureLoop {β : Type} (g : β → Page → Py β) : β → List Page → Py β
  | b, [] => .ok b
  | b, p :: ps => do
    let b ← g b p
    pureLoop g b ps

theorem eachPageT_sim {β : Type} {w : World} {t0 : Nat} {f : β → M (Page × Nat) β} {g : β → Page → Py β}
    (h : ∀ b, TSim (PageF w) (PageGood w t0) (f b) (fun s => g b (frozenPage w t0 s.1))) (b : β) :
    TSim (PagesF w) (PagesGood w t0) (fun s => eachPageT f b s.1 s.2)
      (fun s => pureLoop g b (s.1.map (frozenPage w t0))) := by
  rintro ⟨l, t⟩ hs
  induction l generalizing b t with
  | nil =>
    refine ⟨([], t), .ok b, ⟨Nat.le_refl _, .nil⟩, rfl, fun s'' h => ?_⟩
    have : s''.1 = [] := List.forall₂_nil_left_iff.1 h.2
    simp only
    rw [this]
    rfl
  | cons p l ih =>
    obtain ⟨⟨p', t'⟩, x, h1, h2, h3⟩ := h b (p, t) ⟨hs.1, hs.2 p (by simp)⟩
    simp only [eachPageT, h2]
    cases x with
    | error e =>
      refine ⟨(p' :: l, t'), .error e, ⟨h1.1, .cons h1.2 (fillPages_refl _ _ _ _)⟩, rfl, fun s'' hf => ?_⟩
      obtain ⟨q, r, e1, e2, e3⟩ := List.forall₂_cons_left_iff.1 hf.2
      have h3 := h3 (q, s''.2) ⟨hf.1, e1⟩
      simp only at h3
      rw [e3]
      simp only [List.map_cons, pureLoop, h3]
      rfl
    | ok b' =>
      obtain ⟨⟨l', t''⟩, y, g1, g2, g3⟩ := ih b' t' ⟨Nat.le_trans hs.1 h1.1, fun q hq => hs.2 q (by simp [hq])⟩
      simp only at g2
      have g1a : t' ≤ t'' := g1.1
      have h1a : t ≤ t' := h1.1
      refine ⟨(p' :: l', t''), y, ⟨Nat.le_trans h1a g1a, .cons (fillPage_mono h1.2 (Nat.le_refl _) g1a)
        (fillPages_mono g1.2 h1a (Nat.le_refl _))⟩, ?_, fun s'' hf => ?_⟩
      · simp only [g2]
        cases y <;> rfl
      · obtain ⟨q, r, e1, e2, e3⟩ := List.forall₂_cons_left_iff.1 hf.2
        have hf1 : t'' ≤ s''.2 := hf.1
        have h3 := h3 (q, s''.2) ⟨Nat.le_trans g1a hf1, fillPage_mono e1 g1a (Nat.le_refl _)⟩
        have g3 := g3 (r, s''.2) ⟨hf1, e2⟩
        simp only at h3 g3
        rw [e3]
        simp only [List.map_cons, pureLoop, h3]
        exact g3

theorem smilPages_loop (env : Env) : ∀ (l : List Page) (st : SmilSt), pureLoop (smilPage env) st l = smilPages env st l
  | [], _ => rfl
  | p :: l, st => by simp only [pureLoop, smilPages, smilPages_loop env l]

theorem encodeParts_loop (env : Env) (ord : Dict HVal → Dict HVal) : ∀ (l : List Page) (o : List Nat),
    pureLoop (fun (o : List Nat) (p : Page) => do
      let r ← encodeParts env ord (p.dataParts.map (fun t => t.1))
      .ok (o ++ r)) o l = (do
      let r ← encodeParts env ord (slideParts l)
      .ok (o ++ r))
  | [], o => by simp [pureLoop, slideParts, encodeParts, bind, Except.bind]
  | p :: l, o => by
    simp only [pureLoop, slideParts, encodeParts_append, encodeParts_loop env ord l]
    cases encodeParts env ord (p.dataParts.map (fun t => t.1)) with
    | error e => rfl
    | ok a =>
      cases encodeParts env ord (slideParts l) with
      | error e => rfl
      | ok b => simp [bind, Except.bind]

theorem smilT_sim (w : World) (t0 : Nat) (env : Env) (m : Msg) (t : Nat) (hs : PagesGood w t0 (m.pages, t)) :
    ∃ l t' x, PagesF w (m.pages, t) (l, t') ∧ (smilT w (m, t) = match x with
      | .ok a => .ok a ({ m with pages := l }, t')
      | .error e => .err e ({ m with pages := l }, t')) ∧
      ∀ l'' t'', PagesF w (l, t') (l'', t'') → ({ m with pages := l''.map (frozenPage w t0) } : Msg).smil env = x := by
  obtain ⟨⟨l, t'⟩, x, h1, h2, h3⟩ := eachPageT_sim (TSim.smilPage w t0 env) { pars := [], textNode := none, uid := 0 }
    (m.pages, t) hs
  simp only at h2
  refine ⟨l, t', x >>= fun st => .ok ((Xml.elem (py! "smil") [] [m.smilHead, .elem (py! "body") [] (st.pars.map ParNode.toXml)]).write []),
    h1, ?_, fun l'' t'' h => ?_⟩
  · unfold smilT
    simp only [h2]
    cases x <;> rfl
  · have h3 := h3 (l'', t'') h
    simp only at h3
    unfold Msg.smil Msg.smilDoc Msg.smilBody
    simp only [← smilPages_loop]
    rw [h3]
    cases x <;> rfl

theorem frozen_numberOfParts (w : World) (t0 : Nat) (p : Page) : (frozenPage w t0 p).numberOfParts = p.numberOfParts := by
  obtain ⟨du, im, au, tx⟩ := p
  cases im <;> cases au <;> cases tx <;> rfl

theorem fill_numberOfParts {w : World} {t t' : Nat} {p q : Page} (h : FillPage w t t' p q) :
    q.numberOfParts = p.numberOfParts := by
  obtain ⟨du, im, au, tx⟩ := p
  obtain ⟨du', im', au', tx'⟩ := q
  obtain ⟨h0, h1, h2, h3⟩ := h
  simp only at h0 h1 h2 h3
  cases h1 <;> cases h2 <;> cases h3 <;> rfl

theorem fill_numberOfParts_list {w : World} {t0 t t' : Nat} {l l' : List Page} (h : FillPages w t t' l l') :
    (l'.map (frozenPage w t0)).map Page.numberOfParts = l.map Page.numberOfParts := by
  induction h with
  | nil => rfl
  | cons h _ ih => simp only [List.map_cons, frozen_numberOfParts, fill_numberOfParts h, ih]

theorem pagesF_refl (w : World) (s : List Page × Nat) : PagesF w s s := ⟨Nat.le_refl _, fillPages_refl _ _ _ _⟩

theorem pagesF_trans {w : World} {a b c : List Page × Nat} (h : PagesF w a b) (h' : PagesF w b c) : PagesF w a c :=
  ⟨Nat.le_trans h.1 h'.1, fillPages_trans h.1 h'.1 h.2 h'.2⟩

theorem pagesGood_fill {w : World} {t0 : Nat} {a b : List Page × Nat} (h : PagesGood w t0 a) (h' : PagesF w a b) :
    PagesGood w t0 b := by
  obtain ⟨l, t⟩ := a
  obtain ⟨l', t'⟩ := b
  obtain ⟨h1, h2⟩ := h
  obtain ⟨g1, g2⟩ := h'
  simp only at h1 h2 g1 g2
  refine ⟨Nat.le_trans h1 g1, ?_⟩
  simp only
  clear g1
  induction g2 with
  | nil => simp
  | cons h _ ih =>
    intro p hp q hq
    rcases List.mem_cons.1 hp with rfl | hp
    · obtain ⟨x, hx | hx | hx⟩ := hq
      · obtain ⟨p, e1, e2⟩ := fillSlot_from (hx ▸ h.image)
        exact steady_fill (h2 _ (by simp) p ⟨x, .inl e1⟩) h1 e2
      · obtain ⟨p, e1, e2⟩ := fillSlot_from (hx ▸ h.audio)
        exact steady_fill (h2 _ (by simp) p ⟨x, .inr (.inl e1)⟩) h1 e2
      · obtain ⟨p, e1, e2⟩ := fillSlot_from (hx ▸ h.text)
        exact steady_fill (h2 _ (by simp) p ⟨x, .inr (.inr e1)⟩) h1 e2
    · exact ih (fun p hp => h2 p (by simp [hp])) p hp q hq

theorem encodePartT_own (w : World) (env : Env) (ord : Dict HVal → Dict HVal) {p : DataPart} (h : p.filename = none) (t : Nat) :
    encodePartT w ord (p, t) = match encodePart env ord p with
      | .ok a => .ok a (p, t)
      | .error e => .err e (p, t) := by
  have hd : getDataT w (p, t) = match p.readData env with
      | .ok a => .ok a (p, t)
      | .error e => .err e (p, t) := by
    unfold getDataT DataPart.readData
    simp only [h]
    cases p.data <;> rfl
  have hl : lenT w (p, t) = match p.len env with
      | .ok a => .ok a (p, t)
      | .error e => .err e (p, t) := by
    unfold lenT DataPart.len
    simp only [h, hd]
    cases p.readData env <;> rfl
  unfold encodePartT encodePart
  simp only [M.bind_apply, M.get]
  cases p.headers.index (py! "Content-Type") with
  | error e => rfl
  | ok v =>
  simp only [M.lift_ok, bind_ok_eq]
  cases encodeCtPair v with
  | error e => rfl
  | ok ct =>
  simp only [M.lift_ok, bind_ok_eq]
  cases encodePartHeaders (ord p.headers) with
  | error e => rfl
  | ok hs =>
  simp only [M.lift_ok, bind_ok_eq]
  cases toOctets (ints (encodeUintVar ((ct.length : Int) + hs.length))) with
  | error e => rfl
  | ok a =>
  simp only [M.lift_ok, bind_ok_eq, hl]
  cases p.len env with
  | error e => rfl
  | ok n =>
  simp only [bind_ok_eq]
  cases toOctets (ints (encodeUintVar n)) with
  | error e => rfl
  | ok b =>
  simp only [M.lift_ok, bind_ok_eq]
  cases toOctets ct with
  | error e => rfl
  | ok c =>
  simp only [M.lift_ok, bind_ok_eq]
  cases toOctets hs with
  | error e => rfl
  | ok d =>
  simp only [M.lift_ok, bind_ok_eq, hd]
  cases p.readData env <;> rfl

theorem encodeMessageBodyT_sim (w : World) (t0 : Nat) (env : Env) (ord : Dict HVal → Dict HVal) (m : Msg) (t : Nat)
    (hs : PagesGood w t0 (m.pages, t)) :
    ∃ l t' x, PagesF w (m.pages, t) (l, t') ∧ (encodeMessageBodyT w ord (m, t) = match x with
      | .ok a => .ok a ({ m with pages := l }, t')
      | .error e => .err e ({ m with pages := l }, t')) ∧
      encodeMessageBody env ord { m with pages := l.map (frozenPage w t0) } = x := by
  unfold encodeMessageBodyT encodeMessageBody numEntries
  rw [M.bind_apply]
  simp only [M.get]
  rw [M.bind_apply, uintVar_octets]
  simp only [M.lift_ok]
  rw [M.bind_apply]
  obtain ⟨l1, t1, x1, h1, e1, u1⟩ := smilT_sim w t0 env m t hs
  rw [e1]
  cases x1 with
  | error e =>
    refine ⟨l1, t1, .error e, h1, rfl, ?_⟩
    rw [u1 l1 t1 (pagesF_refl w _), uintVar_octets]
    rfl
  | ok smil =>
    simp only
    rw [encodePartT_own w env ord (p := smilPart smil) rfl]
    cases hb : encodePart env ord (smilPart smil) with
    | error e =>
      refine ⟨l1, t1, .error e, h1, rfl, ?_⟩
      rw [u1 l1 t1 (pagesF_refl w _), uintVar_octets]
      simp only [bind_ok_eq, encodeParts, hb]
      rfl
    | ok b =>
      simp only
      obtain ⟨⟨l2, t2⟩, x2, h2, e2, u2⟩ := eachPageT_sim (g := fun (o : List Nat) (p : Page) => do
        let r ← encodeParts env ord (p.dataParts.map (fun t => t.1))
        .ok (o ++ r)) (TSim.encodePage w t0 env ord)
        (Spec.Wsp.uintvar (1 + (m.pages.map Page.numberOfParts).sum + m.dataParts.length) ++ b) (l1, t1) (pagesGood_fill hs h1)
      simp only at e2
      have u3 := u2 (l2, t2) (pagesF_refl w _)
      simp only [encodeParts_loop] at u3
      refine ⟨l2, t2, x2, pagesF_trans h1 h2, ?_, ?_⟩
      · rw [e2]
        cases x2 <;> rfl
      · rw [u1 l2 t2 h2, ← u3, fill_numberOfParts_list (pagesF_trans h1 h2).2, uintVar_octets]
        simp only [bind_ok_eq, encodeParts, hb]
        cases encodeParts env ord (slideParts (l2.map (frozenPage w t0))) with
        | error e => rfl
        | ok r => simp only [bind_ok_eq, List.append_assoc]

theorem headerPages_kept {ord : Dict HVal → Dict HVal} {rnd : Nat} (m : Msg) :
    (encodeMessageHeader ord rnd m).state.pages = m.pages := by
  have hn := NoPages.encodeMessageHeader m.pages ord rnd m
  have hm : ({ m with pages := m.pages } : Msg) = m := rfl
  rw [hm] at hn
  cases hh : encodeMessageHeader ord rnd m with
  | err e m1 =>
    rw [hh] at hn
    injection hn with _ hn
    show m1.pages = _
    rw [hn]
  | ok h m1 =>
    rw [hh] at hn
    injection hn with _ hn
    show m1.pages = _
    rw [hn]

theorem encodeT_some (w : World) (env : Env) (ord : Dict HVal → Dict HVal) (rnd : Nat) (m : Msg) (t : Nat)
    (hs : PagesGood w t (m.pages, t)) :
    ∃ m' t' x, PagesF w (m.pages, t) (m'.pages, t') ∧ (encodeT w ord rnd (m, t) = match x with
      | .ok a => .ok a (m', t')
      | .error e => .err e (m', t')) ∧
      (encode env ord rnd { m with pages := m'.pages.map (frozenPage w t) }).val = x := by
  have hp := headerPages_kept (ord := ord) (rnd := rnd) m
  cases hh : encodeMessageHeader ord rnd m with
  | err e m1 =>
    rw [hh] at hp
    have hp : m1.pages = m.pages := hp
    refine ⟨m1, t, .error e, by rw [hp]; exact pagesF_refl w _, ?_, ?_⟩
    · unfold encodeT
      rw [M.bind_apply]
      simp only [hh]
    · unfold encode
      rw [M.bind_apply, NoPages.encodeMessageHeader _ ord rnd m, hh]
      rfl
  | ok h m1 =>
    rw [hh] at hp
    have hp : m1.pages = m.pages := hp
    obtain ⟨l, t', x, h1, h2, h3⟩ := encodeMessageBodyT_sim w t env ord m1 t (by rw [hp]; exact hs)
    refine ⟨{ m1 with pages := l }, t', x >>= fun b => .ok (h ++ b), hp ▸ h1, ?_, ?_⟩
    · unfold encodeT
      rw [M.bind_apply]
      simp only [hh]
      rw [M.bind_apply, h2]
      cases x <;> rfl
    · unfold encode
      rw [M.bind_apply, NoPages.encodeMessageHeader _ ord rnd m, hh]
      simp only [M.bind_apply, M.get]
      rw [h3]
      cases x <;> rfl

theorem encodeT_sim (w : World) (env : Env) (ord : Dict HVal → Dict HVal) (rnd : Nat) (m : Msg) (t : Nat)
    (hs : PagesGood w t (m.pages, t)) :
    PagesF w (m.pages, t) ((encodeT w ord rnd (m, t)).state.1.pages, (encodeT w ord rnd (m, t)).state.2) ∧
    (encode env ord rnd { m with pages := (encodeT w ord rnd (m, t)).state.1.pages.map (frozenPage w t) }).val =
      (encodeT w ord rnd (m, t)).val := by
  obtain ⟨m', t', x, h1, h2, h3⟩ := encodeT_some w env ord rnd m t hs
  rw [h2]
  cases x with
  | ok a => exact ⟨h1, h3⟩
  | error e => exact ⟨h1, h3⟩

end Verif.Mms

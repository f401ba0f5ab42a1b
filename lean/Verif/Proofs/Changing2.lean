import Verif.Proofs.Changing
/-!
# Lemmas on messages whose files change: what is left in the parts, and files that stay as they are
-/
set_option autoImplicit false

namespace Verif.Mms
open Verif.Spec.Changing

/-! ### parts only change by being read -/

/-- `f` changes the state only as `F` allows -/
def Fil {σ α : Type} (F : σ → σ → Prop) (f : M σ α) : Prop := ∀ s, F s (f s).state

theorem Fil.bind {σ α β : Type} {F : σ → σ → Prop} (ht : ∀ a b c, F a b → F b c → F a c) {f : M σ α} {k : α → M σ β}
    (hf : Fil F f) (hk : ∀ a, Fil F (k a)) : Fil F (f >>= k) := by
  intro s
  rw [M.bind_apply]
  have := hf s
  cases h : f s with
  | err e s' => rw [h] at this; exact this
  | ok a s' => rw [h] at this; exact ht _ _ _ this (hk a s')

theorem Fil.lift {σ α : Type} {F : σ → σ → Prop} (hr : ∀ s, F s s) (x : Py α) : Fil F (M.lift x) := by
  intro s
  cases x <;> exact hr s

theorem Fil.getDataT (w : World) : Fil (PartF w) (getDataT w) := by
  rintro ⟨p, t⟩
  unfold Mms.getDataT
  simp only
  cases hd : p.data with
  | some d => exact partF_refl w _
  | none =>
    cases hf : p.filename with
    | none => exact partF_refl w _
    | some f =>
      simp only
      cases hc : (w t).content f with
      | none => exact ⟨Nat.le_succ _, .inl rfl⟩
      | some c => exact ⟨Nat.le_succ _, .inr ⟨f, c, t, hf, hd, Nat.le_refl _, Nat.lt_succ_self _, hc, by rw [hf]; rfl⟩⟩

theorem Fil.lenT (w : World) : Fil (PartF w) (lenT w) := by
  rintro ⟨p, t⟩
  unfold Mms.lenT
  simp only
  cases hf : p.filename with
  | some f =>
    simp only
    cases (w t).size f <;> exact ⟨Nat.le_succ _, .inl rfl⟩
  | none =>
    have := Fil.getDataT w (p, t)
    simp only
    cases h : Mms.getDataT w (p, t) with
    | ok a s => rw [h] at this; exact this
    | err e s => rw [h] at this; exact this

theorem Fil.srcOfT (w : World) : Fil (PartF w) (srcOfT w) := by
  intro s
  unfold Mms.srcOfT
  cases s.1.headers.get (py! "Content-Location") with
  | some x => exact Fil.lift (partF_refl w) (srcText x) s
  | none =>
    cases s.1.headers.get (py! "Content-ID") with
    | some x => exact Fil.lift (partF_refl w) (srcText x) s
    | none => exact Fil.getDataT w s

theorem Fil.encodePartT (w : World) (ord : Dict HVal → Dict HVal) : Fil (PartF w) (encodePartT w ord) := by
  have ht : ∀ a b c, PartF w a b → PartF w b c → PartF w a c := fun _ _ _ h h' => partF_trans h h'
  have hr := partF_refl w
  unfold Mms.encodePartT
  refine .bind ht (fun s => hr s) fun s => .bind ht (.lift hr _) fun v => .bind ht (.lift hr _) fun ct =>
    .bind ht (.lift hr _) fun hs => .bind ht (.lift hr _) fun a => .bind ht (.lenT w) fun n => .bind ht (.lift hr _) fun b =>
    .bind ht (.lift hr _) fun c => .bind ht (.lift hr _) fun d => .bind ht (.getDataT w) fun data => fun s => hr s

theorem onSlotT_image {α : Type} {w : World} {f : M (DataPart × Nat) α} (hf : Fil (PartF w) f) {s : Page × Nat}
    {x : DataPart × Int × Int} (h : s.1.image = some x) : PageF w s (onSlotT Page.putImage x f s).state := by
  obtain ⟨p, t⟩ := s
  have := hf (x.1, t)
  unfold onSlotT
  cases hx : f (x.1, t) with
  | ok a y =>
    rw [hx] at this
    exact ⟨this.1, rfl, by rw [h]; exact .some x.2 this.2, fillSlot_refl _ _ _ _, fillSlot_refl _ _ _ _⟩
  | err e y =>
    rw [hx] at this
    exact ⟨this.1, rfl, by rw [h]; exact .some x.2 this.2, fillSlot_refl _ _ _ _, fillSlot_refl _ _ _ _⟩

theorem onSlotT_audio {α : Type} {w : World} {f : M (DataPart × Nat) α} (hf : Fil (PartF w) f) {s : Page × Nat}
    {x : DataPart × Int × Int} (h : s.1.audio = some x) : PageF w s (onSlotT Page.putAudio x f s).state := by
  obtain ⟨p, t⟩ := s
  have := hf (x.1, t)
  unfold onSlotT
  cases hx : f (x.1, t) with
  | ok a y =>
    rw [hx] at this
    exact ⟨this.1, rfl, fillSlot_refl _ _ _ _, by rw [h]; exact .some x.2 this.2, fillSlot_refl _ _ _ _⟩
  | err e y =>
    rw [hx] at this
    exact ⟨this.1, rfl, fillSlot_refl _ _ _ _, by rw [h]; exact .some x.2 this.2, fillSlot_refl _ _ _ _⟩

theorem onSlotT_text {α : Type} {w : World} {f : M (DataPart × Nat) α} (hf : Fil (PartF w) f) {s : Page × Nat}
    {x : DataPart × Int × Int} (h : s.1.text = some x) : PageF w s (onSlotT Page.putText x f s).state := by
  obtain ⟨p, t⟩ := s
  have := hf (x.1, t)
  unfold onSlotT
  cases hx : f (x.1, t) with
  | ok a y =>
    rw [hx] at this
    exact ⟨this.1, rfl, fillSlot_refl _ _ _ _, fillSlot_refl _ _ _ _, by rw [h]; exact .some x.2 this.2⟩
  | err e y =>
    rw [hx] at this
    exact ⟨this.1, rfl, fillSlot_refl _ _ _ _, fillSlot_refl _ _ _ _, by rw [h]; exact .some x.2 this.2⟩

theorem pageF_tr (w : World) : ∀ a b c, PageF w a b → PageF w b c → PageF w a c := fun _ _ _ h h' => pageF_trans h h'

/-- the state after a step that only computes -/
theorem state_pure {σ α β : Type} (f : M σ α) (k : α → M σ β) (hk : ∀ a s, (k a s).state = s) (s : σ) :
    ((f >>= k) s).state = (f s).state := by
  rw [M.bind_apply]
  cases f s with
  | ok a s' => exact hk a s'
  | err e s' => rfl

theorem Fil.smilImageT (w : World) (u : Nat) : Fil (PageF w) (smilImageT w u) := by
  intro s
  unfold Mms.smilImageT
  rw [M.bind_apply]
  simp only [M.get]
  cases hp : s.1.image with
  | none => exact pageF_refl w s
  | some x =>
    simp only
    rw [state_pure _ _ (fun _ _ => rfl)]
    exact onSlotT_image (.srcOfT w) hp

theorem Fil.smilTextT (w : World) (u : Nat) : Fil (PageF w) (smilTextT w u) := by
  intro s
  unfold Mms.smilTextT
  rw [M.bind_apply]
  simp only [M.get]
  cases hp : s.1.text with
  | none => exact pageF_refl w s
  | some x =>
    simp only
    rw [state_pure _ _ (fun _ _ => rfl)]
    exact onSlotT_text (.getDataT w) hp

theorem Fil.smilPageT (w : World) (st : SmilSt) : Fil (PageF w) (smilPageT w st) := by
  unfold Mms.smilPageT
  refine .bind (pageF_tr w) (.smilImageT w _) fun i => .bind (pageF_tr w) (.smilTextT w _) fun t => ?_
  intro s
  rw [M.bind_apply]
  simp only [M.get]
  cases hp : s.1.audio with
  | none => exact pageF_refl w s
  | some x =>
    simp only
    rw [state_pure]
    · exact onSlotT_audio (.srcOfT w) hp
    · intro a s'
      cases t with
      | some t => rfl
      | none => cases st.textNode <;> rfl

theorem Fil.encodePageT (w : World) (ord : Dict HVal → Dict HVal) (o : List Nat) : Fil (PageF w) (encodePageT w ord o) := by
  rw [encodePageT_steps]
  refine .bind (pageF_tr w) ?_ fun a => .bind (pageF_tr w) ?_ fun b => .bind (pageF_tr w) ?_ fun c => ?_
  · intro s
    simp only
    cases hp : s.1.image with
    | none => exact pageF_refl w s
    | some x => exact onSlotT_image (.encodePartT w ord) hp
  · intro s
    simp only
    cases hp : s.1.audio with
    | none => exact pageF_refl w s
    | some x => exact onSlotT_audio (.encodePartT w ord) hp
  · intro s
    simp only
    cases hp : s.1.text with
    | none => exact pageF_refl w s
    | some x => exact onSlotT_text (.encodePartT w ord) hp
  · exact fun s => pageF_refl w s

theorem eachPageT_fill {β : Type} {w : World} {f : β → M (Page × Nat) β} (hf : ∀ b, Fil (PageF w) (f b)) :
    ∀ (l : List Page) (b : β) (t : Nat), PagesF w (l, t) (eachPageT f b l t).state
  | [], b, t => pagesF_refl w _
  | p :: l, b, t => by
    have h1 := hf b (p, t)
    unfold eachPageT
    cases hx : f b (p, t) with
    | err e y =>
      rw [hx] at h1
      exact ⟨h1.1, .cons h1.2 (fillPages_refl _ _ _ _)⟩
    | ok b' y =>
      obtain ⟨p', t'⟩ := y
      rw [hx] at h1
      have h1 : PageF w (p, t) (p', t') := h1
      have h2 := eachPageT_fill hf l b' t'
      simp only
      cases hy : eachPageT f b' l t' with
      | err e z =>
        rw [hy] at h2
        exact ⟨Nat.le_trans h1.1 h2.1, .cons (fillPage_mono h1.2 (Nat.le_refl _) h2.1)
          (fillPages_mono h2.2 h1.1 (Nat.le_refl _))⟩
      | ok r z =>
        rw [hy] at h2
        exact ⟨Nat.le_trans h1.1 h2.1, .cons (fillPage_mono h1.2 (Nat.le_refl _) h2.1)
          (fillPages_mono h2.2 h1.1 (Nat.le_refl _))⟩

/-- the slides of a message, and the moment -/
def MsgF (w : World) (s s' : Msg × Nat) : Prop := PagesF w (s.1.pages, s.2) (s'.1.pages, s'.2)

theorem msgF_tr (w : World) : ∀ a b c, MsgF w a b → MsgF w b c → MsgF w a c := fun _ _ _ h h' => pagesF_trans h h'

theorem msgF_refl (w : World) (s : Msg × Nat) : MsgF w s s := pagesF_refl w _

theorem Fil.smilT (w : World) : Fil (MsgF w) (smilT w) := by
  intro s
  have := eachPageT_fill (w := w) (fun b => Fil.smilPageT w b) s.1.pages { pars := [], textNode := none, uid := 0 } s.2
  unfold Mms.smilT
  cases h : eachPageT (Mms.smilPageT w) { pars := [], textNode := none, uid := 0 } s.1.pages s.2 with
  | ok a x => rw [h] at this; exact this
  | err e x => rw [h] at this; exact this

theorem encodePartT_smil (w : World) (ord : Dict HVal → Dict HVal) (smil : Str) (t : Nat) :
    ∃ x : Py (List Nat), encodePartT w ord (smilPart smil, t) = match x with
      | .ok a => .ok a (smilPart smil, t)
      | .error e => .err e (smilPart smil, t) :=
  ⟨_, encodePartT_own w { files := fun _ => none, mime := fun _ => none } ord rfl t⟩

theorem Fil.bodyT (w : World) (ord : Dict HVal → Dict HVal) : Fil (MsgF w) (encodeMessageBodyT w ord) := by
  unfold encodeMessageBodyT
  refine .bind (msgF_tr w) (fun s => msgF_refl w s) fun s => .bind (msgF_tr w) (.lift (msgF_refl w) _) fun a =>
    .bind (msgF_tr w) (.smilT w) fun smil => ?_
  intro s
  obtain ⟨x, hx⟩ := encodePartT_smil w ord smil s.2
  simp only
  rw [hx]
  cases x with
  | error e => exact msgF_refl w s
  | ok b =>
    have := eachPageT_fill (w := w) (fun o => Fil.encodePageT w ord o) s.1.pages (a ++ b) s.2
    simp only
    cases h : eachPageT (Mms.encodePageT w ord) (a ++ b) s.1.pages s.2 with
    | ok a x => rw [h] at this; exact this
    | err e x => rw [h] at this; exact this

theorem Fil.headerT (w : World) (ord : Dict HVal → Dict HVal) (rnd : Nat) : Fil (MsgF w) (fun s : Msg × Nat =>
    match encodeMessageHeader ord rnd s.1 with
    | .ok a m => .ok a (m, s.2)
    | .err e m => .err e (m, s.2)) := by
  intro s
  have := headerPages_kept (ord := ord) (rnd := rnd) s.1
  simp only
  cases h : encodeMessageHeader ord rnd s.1 with
  | ok a m =>
    rw [h] at this
    show PagesF w _ (m.pages, s.2)
    rw [show m.pages = s.1.pages from this]
    exact pagesF_refl w _
  | err a m =>
    rw [h] at this
    show PagesF w _ (m.pages, s.2)
    rw [show m.pages = s.1.pages from this]
    exact pagesF_refl w _

theorem Fil.encodeT (w : World) (ord : Dict HVal → Dict HVal) (rnd : Nat) : Fil (MsgF w) (encodeT w ord rnd) := by
  unfold Mms.encodeT
  exact .bind (msgF_tr w) (.headerT w ord rnd) fun h => .bind (msgF_tr w) (.bodyT w ord) fun b => fun s => msgF_refl w s

/-! ### parts that were sent hold their contents -/

/-- the part needs no file any more -/
def PartFull (p : DataPart) : Prop := p.filename = none ∨ ∃ d, p.data = some d

def PageFull (p : Page) : Prop := ∀ q, slideHas p q → PartFull q

theorem bind_okM {σ α β : Type} {m : M σ α} {f : α → M σ β} {s s' : σ} {b : β} (h : (m >>= f) s = .ok b s') :
    ∃ a s1, m s = .ok a s1 ∧ f a s1 = .ok b s' := by
  rw [M.bind_apply] at h
  cases hm : m s with
  | err e s1 => rw [hm] at h; cases h
  | ok a s1 => rw [hm] at h; exact ⟨a, s1, rfl, h⟩

theorem getDataT_full {w : World} {s s' : DataPart × Nat} {d : Str} (h : getDataT w s = .ok d s') : PartFull s'.1 := by
  unfold getDataT at h
  cases hd : s.1.data with
  | some d => simp only [hd] at h; cases h; exact .inr ⟨_, hd⟩
  | none =>
    simp only [hd] at h
    cases hf : s.1.filename with
    | none => simp only [hf] at h; cases h; exact .inl hf
    | some f =>
      simp only [hf] at h
      split at h
      · cases h; exact .inr ⟨_, rfl⟩
      · cases h

theorem encodePartT_full {w : World} {ord : Dict HVal → Dict HVal} {s s' : DataPart × Nat} {o : List Nat}
    (h : encodePartT w ord s = .ok o s') : PartFull s'.1 := by
  unfold encodePartT at h
  obtain ⟨_, _, _, h⟩ := bind_okM h
  obtain ⟨_, _, _, h⟩ := bind_okM h
  obtain ⟨_, _, _, h⟩ := bind_okM h
  obtain ⟨_, _, _, h⟩ := bind_okM h
  obtain ⟨_, _, _, h⟩ := bind_okM h
  obtain ⟨_, _, _, h⟩ := bind_okM h
  obtain ⟨_, _, _, h⟩ := bind_okM h
  obtain ⟨_, _, _, h⟩ := bind_okM h
  obtain ⟨_, _, _, h⟩ := bind_okM h
  obtain ⟨_, _, h1, h⟩ := bind_okM h
  injection h with _ h
  subst h
  exact getDataT_full h1

theorem encodeSlotT_full {w : World} {ord : Dict HVal → Dict HVal} {put : Page → Option (DataPart × Int × Int) → Page}
    {x : Option (DataPart × Int × Int)} {s s' : Page × Nat} {o : List Nat} (h : encodeSlotT w ord put x s = .ok o s') :
    (x = none ∧ s' = s) ∨ ∃ y t, PartFull y.1 ∧ s' = (put s.1 (some y), t) := by
  cases x with
  | none => cases h; exact .inl ⟨rfl, rfl⟩
  | some x =>
    simp only [encodeSlotT, onSlotT] at h
    cases hp : encodePartT w ord (x.1, s.2) with
    | err e y => rw [hp] at h; cases h
    | ok a y => rw [hp] at h; cases h; exact .inr ⟨_, _, encodePartT_full hp, rfl⟩

theorem encodePageT_full {w : World} {ord : Dict HVal → Dict HVal} {s s' : Page × Nat} {o o' : List Nat}
    (h : encodePageT w ord o s = .ok o' s') : PageFull s'.1 := by
  rw [encodePageT_steps] at h
  obtain ⟨_, s1, h1, h⟩ := bind_okM h
  obtain ⟨_, s2, h2, h⟩ := bind_okM h
  obtain ⟨_, s3, h3, h⟩ := bind_okM h
  injection h with _ h
  subst h
  have k1 : ∀ q x, s1.1.image = some (q, x) → PartFull q := by
    rcases encodeSlotT_full h1 with ⟨a, rfl⟩ | ⟨y, t, a, rfl⟩
    · intro q x hq; rw [a] at hq; cases hq
    · intro q x hq; cases hq; exact a
  have k2 : (∀ q x, s2.1.audio = some (q, x) → PartFull q) ∧ s2.1.image = s1.1.image := by
    rcases encodeSlotT_full h2 with ⟨a, rfl⟩ | ⟨y, t, a, rfl⟩
    · exact ⟨fun q x hq => (by rw [a] at hq; cases hq), rfl⟩
    · exact ⟨fun q x hq => (by cases hq; exact a), rfl⟩
  have k3 : (∀ q x, s3.1.text = some (q, x) → PartFull q) ∧ s3.1.image = s2.1.image ∧ s3.1.audio = s2.1.audio := by
    rcases encodeSlotT_full h3 with ⟨a, rfl⟩ | ⟨y, t, a, rfl⟩
    · exact ⟨fun q x hq => (by rw [a] at hq; cases hq), rfl, rfl⟩
    · exact ⟨fun q x hq => (by cases hq; exact a), rfl, rfl⟩
  rintro q ⟨x, hx | hx | hx⟩
  · rw [k3.2.1, k2.2] at hx; exact k1 q x hx
  · rw [k3.2.2] at hx; exact k2.1 q x hx
  · exact k3.1 q x hx

theorem eachPageT_full {w : World} {ord : Dict HVal → Dict HVal} : ∀ {l l' : List Page} {o o' : List Nat} {t t' : Nat},
    eachPageT (encodePageT w ord) o l t = .ok o' (l', t') → ∀ p ∈ l', PageFull p
  | [], _, _, _, _, _, h => by cases h; simp
  | p :: l, l', o, o', t, t', h => by
    unfold eachPageT at h
    cases hx : encodePageT w ord o (p, t) with
    | err e y => rw [hx] at h; cases h
    | ok b y =>
      obtain ⟨p', t1⟩ := y
      rw [hx] at h
      simp only at h
      cases hy : eachPageT (encodePageT w ord) b l t1 with
      | err e z => rw [hy] at h; cases h
      | ok r z =>
        obtain ⟨l1, t2⟩ := z
        rw [hy] at h
        cases h
        intro q hq
        rcases List.mem_cons.1 hq with rfl | hq
        · exact encodePageT_full hx
        · exact eachPageT_full hy q hq

theorem encodeT_full {w : World} {ord : Dict HVal → Dict HVal} {rnd : Nat} {s s' : Msg × Nat} {o : List Nat}
    (h : encodeT w ord rnd s = .ok o s') : ∀ p ∈ s'.1.pages, PageFull p := by
  unfold encodeT at h
  obtain ⟨_, _, _, h⟩ := bind_okM h
  obtain ⟨_, s2, h1, h⟩ := bind_okM h
  injection h with _ h
  subst h
  unfold encodeMessageBodyT at h1
  obtain ⟨_, _, _, h1⟩ := bind_okM h1
  obtain ⟨_, _, _, h1⟩ := bind_okM h1
  obtain ⟨smil, s3, _, h1⟩ := bind_okM h1
  simp only at h1
  split at h1
  · cases h1
  · split at h1
    · rename_i hp; cases h1; exact eachPageT_full hp
    · cases h1

/-! ### files that stay as they are -/

/-- the result of `g`, with a moment -/
def withTime {σ α : Type} (t : Nat) : Res σ α → Res (σ × Nat) α
  | .ok a s => .ok a (s, t)
  | .err e s => .err e (s, t)

/-- `f` does what `g` does, at whatever moment -/
def Timed {σ α : Type} (f : M (σ × Nat) α) (g : M σ α) : Prop := ∀ s t, ∃ t', f (s, t) = withTime t' (g s)

theorem Timed.bind {σ α β : Type} {f : M (σ × Nat) α} {g : M σ α} {k : α → M (σ × Nat) β} {l : α → M σ β}
    (hf : Timed f g) (hk : ∀ a, Timed (k a) (l a)) : Timed (f >>= k) (g >>= l) := by
  intro s t
  obtain ⟨t1, h1⟩ := hf s t
  rw [M.bind_apply, M.bind_apply, h1]
  cases g s with
  | err e s' => exact ⟨t1, rfl⟩
  | ok a s' => exact hk a s' t1

theorem Timed.lift {σ α : Type} (x : Py α) : Timed (M.lift x : M (σ × Nat) α) (M.lift x) := by
  intro s t
  refine ⟨t, ?_⟩
  cases x <;> rfl

theorem Timed.pure {σ α : Type} (x : α) : Timed (Pure.pure x : M (σ × Nat) α) (Pure.pure x) := fun _ t => ⟨t, rfl⟩

theorem Timed.getDataT (env : Env) : Timed (getDataT (still env)) (DataPart.getData env) := by
  intro p t
  unfold Mms.getDataT DataPart.getData DataPart.readData
  simp only [still]
  cases hd : p.data with
  | some d => exact ⟨t, rfl⟩
  | none =>
    cases hf : p.filename with
    | none => exact ⟨t, rfl⟩
    | some f =>
      simp only
      cases env.files f with
      | none => exact ⟨t + 1, rfl⟩
      | some c => exact ⟨t + 1, by simp [withTime]⟩

theorem lenT_still (env : Env) (p : DataPart) (t : Nat) : ∃ t', lenT (still env) (p, t) = withTime t' (M.lift (p.len env) p) := by
  unfold lenT DataPart.len
  simp only
  cases hf : p.filename with
  | some f =>
    refine ⟨t + 1, ?_⟩
    simp only [still]
    cases env.files f <;> rfl
  | none =>
    refine ⟨t, ?_⟩
    unfold Mms.getDataT DataPart.readData
    simp only [hf]
    cases p.data <;> rfl

theorem Timed.srcOfT (env : Env) : Timed (srcOfT (still env)) (srcOfC env) := by
  intro p t
  unfold Mms.srcOfT srcOfC
  simp only
  cases p.headers.get (py! "Content-Location") with
  | some x => exact Timed.lift (srcText x) p t
  | none =>
    cases p.headers.get (py! "Content-ID") with
    | some x => exact Timed.lift (srcText x) p t
    | none => exact Timed.getDataT env p t

theorem Timed.encodePartT (env : Env) (ord : Dict HVal → Dict HVal) : Timed (encodePartT (still env) ord) (encodePartC env ord) := by
  intro p t
  unfold Mms.encodePartT encodePartC
  rw [M.bind_apply, M.bind_apply]
  simp only [M.get]
  rw [M.bind_apply, M.bind_apply]
  cases p.headers.index (py! "Content-Type") with
  | error e => exact ⟨t, rfl⟩
  | ok v =>
  simp only [M.lift_ok]
  rw [M.bind_apply, M.bind_apply]
  cases encodeCtPair v with
  | error e => exact ⟨t, rfl⟩
  | ok ct =>
  simp only [M.lift_ok]
  rw [M.bind_apply, M.bind_apply]
  cases encodePartHeaders (ord p.headers) with
  | error e => exact ⟨t, rfl⟩
  | ok hs =>
  simp only [M.lift_ok]
  rw [M.bind_apply, M.bind_apply]
  cases toOctets (ints (encodeUintVar ((ct.length : Int) + hs.length))) with
  | error e => exact ⟨t, rfl⟩
  | ok a =>
  simp only [M.lift_ok]
  rw [M.bind_apply, M.bind_apply]
  obtain ⟨t1, h1⟩ := lenT_still env p t
  rw [h1]
  cases p.len env with
  | error e => exact ⟨t1, rfl⟩
  | ok n =>
  exact Timed.bind (.lift _) (fun b => .bind (.lift _) fun c => .bind (.lift _) fun d => .bind (.getDataT env) fun data =>
    .pure _) p t1

theorem Timed.onSlot {α : Type} {f : M (DataPart × Nat) α} {g : M DataPart α} (h : Timed f g)
    (put : Page → Option (DataPart × Int × Int) → Page) (x : DataPart × Int × Int) :
    Timed (onSlotT put x f) (Mms.onSlot put x g) := by
  intro p t
  obtain ⟨t', h1⟩ := h x.1 t
  refine ⟨t', ?_⟩
  unfold onSlotT Mms.onSlot
  simp only [h1]
  cases g x.1 <;> rfl

theorem Timed.smilImageT (env : Env) (u : Nat) : Timed (smilImageT (still env) u) (smilImageC env u) := by
  intro p t
  unfold Mms.smilImageT smilImageC
  rw [M.bind_apply, M.bind_apply]
  simp only [M.get]
  cases p.image with
  | none => exact ⟨t, rfl⟩
  | some x => exact Timed.bind (.onSlot (.srcOfT env) _ _) (fun a => .pure _) p t

theorem Timed.smilTextT (env : Env) (u : Nat) : Timed (smilTextT (still env) u) (smilTextC env u) := by
  intro p t
  unfold Mms.smilTextT smilTextC
  rw [M.bind_apply, M.bind_apply]
  simp only [M.get]
  cases p.text with
  | none => exact ⟨t, rfl⟩
  | some x => exact Timed.bind (.onSlot (.getDataT env) _ _) (fun a => .pure _) p t

theorem Timed.smilPageT (env : Env) (st : SmilSt) : Timed (smilPageT (still env) st) (smilPageC env st) := by
  unfold Mms.smilPageT smilPageC
  refine .bind (.smilImageT env _) fun i => .bind (.smilTextT env _) fun x => ?_
  intro p t
  rw [M.bind_apply, M.bind_apply]
  simp only [M.get]
  cases p.audio with
  | none => exact ⟨t, rfl⟩
  | some a =>
    refine Timed.bind (.onSlot (.srcOfT env) _ _) (fun src => ?_) p t
    intro p t
    refine ⟨t, ?_⟩
    cases x with
    | some x => rfl
    | none => cases st.textNode <;> rfl

theorem Timed.encodeSlotT (env : Env) (ord : Dict HVal → Dict HVal) (put : Page → Option (DataPart × Int × Int) → Page)
    (x : Option (DataPart × Int × Int)) : Timed (encodeSlotT (still env) ord put x) (encodeSlotC env ord put x) := by
  cases x with
  | none => exact .pure _
  | some x => exact .onSlot (.encodePartT env ord) put x

theorem Timed.encodePageT (env : Env) (ord : Dict HVal → Dict HVal) (o : List Nat) :
    Timed (encodePageT (still env) ord o) (encodePageC env ord o) := by
  intro p t
  unfold Mms.encodePageT encodePageC
  rw [M.bind_apply, M.bind_apply]
  exact Timed.bind (.encodeSlotT env ord _ _) (fun a => .bind (.encodeSlotT env ord _ _) fun b =>
    .bind (.encodeSlotT env ord _ _) fun c => .pure _) p t

theorem eachPageT_still {β : Type} {f : β → M (Page × Nat) β} {g : β → M Page β} (h : ∀ b, Timed (f b) (g b)) :
    ∀ (l : List Page) (b : β) (t : Nat), ∃ t', eachPageT f b l t = withTime t' (eachPage g b l)
  | [], b, t => ⟨t, rfl⟩
  | p :: l, b, t => by
    obtain ⟨t1, h1⟩ := h b p t
    unfold eachPageT eachPage
    rw [h1]
    cases g b p with
    | err e p' => exact ⟨t1, rfl⟩
    | ok b' p' =>
      obtain ⟨t2, h2⟩ := eachPageT_still h l b' t1
      refine ⟨t2, ?_⟩
      simp only [withTime]
      rw [h2]
      cases eachPage g b' l <;> rfl

theorem Timed.smilT (env : Env) : Timed (smilT (still env)) (smilC env) := by
  intro m t
  obtain ⟨t', h⟩ := eachPageT_still (Timed.smilPageT env) m.pages { pars := [], textNode := none, uid := 0 } t
  refine ⟨t', ?_⟩
  unfold Mms.smilT smilC
  simp only [h]
  cases eachPage (smilPageC env) { pars := [], textNode := none, uid := 0 } m.pages <;> rfl

theorem Timed.encodeT (env : Env) (ord : Dict HVal → Dict HVal) (rnd : Nat) :
    Timed (encodeT (still env) ord rnd) (encodeC env ord rnd) := by
  unfold Mms.encodeT encodeC
  refine .bind (fun m t => ⟨t, ?_⟩) fun h => .bind ?_ fun b => .pure _
  · cases encodeMessageHeader ord rnd m <;> rfl
  · intro m t
    unfold encodeMessageBodyT encodeMessageBodyC
    rw [M.bind_apply, M.bind_apply]
    refine Timed.bind (.lift _) (fun a => .bind (.smilT env) fun smil => ?_) m t
    intro m t
    simp only
    rw [M.bind_apply, encodePartT_own (still env) env ord (p := smilPart smil) rfl]
    cases encodePart env ord (smilPart smil) with
    | error e => exact ⟨t, rfl⟩
    | ok b =>
      obtain ⟨t', h⟩ := eachPageT_still (Timed.encodePageT env ord) m.pages (a ++ b) t
      refine ⟨t', ?_⟩
      simp only [h, M.lift_ok]
      cases eachPage (encodePageC env ord) (a ++ b) m.pages <;> rfl

end Verif.Mms

import Verif.Model.Cache
import Verif.Spec.Files
import Verif.Proofs.MmsEnc4
/-!
# The functions with caching give the same octets and exceptions as those without
-/
set_option autoImplicit false

namespace Verif.Mms
open Verif.Spec.Files

/-! ### parts -/

theorem loaded_idem (env : Env) (p : DataPart) : loaded env (loaded env p) = loaded env p := by
  rcases p with ⟨c, h, f, d⟩
  cases d with
  | some d => rfl
  | none =>
    cases f with
    | none => rfl
    | some f =>
      show loaded env { ctParams := c, headers := h, filename := some f, data := env.files f } =
        { ctParams := c, headers := h, filename := some f, data := env.files f }
      cases hf : env.files f with
      | none => exact congrArg (DataPart.mk c h (some f)) hf
      | some x => rfl

theorem maybe_refl (env : Env) (p : DataPart) : Maybe env p p := .inl rfl

theorem maybe_loaded_eq {env : Env} {p p' : DataPart} (h : Maybe env p p') : loaded env p' = loaded env p := by
  rcases h with rfl | rfl
  · rfl
  · exact loaded_idem env p

theorem maybe_trans {env : Env} {p q r : DataPart} (h : Maybe env p q) (h' : Maybe env q r) : Maybe env p r := by
  rcases h' with rfl | rfl
  · exact h
  · exact .inr (maybe_loaded_eq h)

theorem loaded_headers (env : Env) (p : DataPart) : (loaded env p).headers = p.headers := by
  unfold loaded
  split <;> rfl

theorem loaded_filename (env : Env) (p : DataPart) : (loaded env p).filename = p.filename := by
  unfold loaded
  split <;> rfl

theorem loaded_readData (env : Env) (p : DataPart) : (loaded env p).readData env = p.readData env := by
  rcases p with ⟨c, h, f, d⟩
  cases d with
  | some d => rfl
  | none =>
    cases f with
    | none => rfl
    | some f =>
      simp only [loaded, DataPart.readData]
      cases env.files f <;> rfl

theorem maybe_headers {env : Env} {p p' : DataPart} (h : Maybe env p p') : p'.headers = p.headers := by
  rcases h with rfl | rfl
  · rfl
  · exact loaded_headers env p

theorem maybe_readData {env : Env} {p p' : DataPart} (h : Maybe env p p') : p'.readData env = p.readData env := by
  rcases h with rfl | rfl
  · rfl
  · exact loaded_readData env p

theorem maybe_len {env : Env} {p p' : DataPart} (h : Maybe env p p') : p'.len env = p.len env := by
  rcases h with rfl | rfl
  · rfl
  · unfold DataPart.len
    rw [loaded_filename, loaded_readData]

theorem maybe_srcOf {env : Env} {p p' : DataPart} (h : Maybe env p p') : Mms.srcOf env p' = Mms.srcOf env p := by
  unfold Mms.srcOf
  rw [(maybe_headers h), (maybe_readData h)]

theorem maybe_encodePart {env : Env} {p p' : DataPart} (h : Maybe env p p') (ord : Dict HVal → Dict HVal) :
    Mms.encodePart env ord p' = Mms.encodePart env ord p := by
  unfold Mms.encodePart
  rw [(maybe_headers h), (maybe_readData h), (maybe_len h)]

theorem getData_eq (env : Env) (p : DataPart) : DataPart.getData env p =
    match p.readData env with
    | .ok d => .ok d (loaded env p)
    | .error e => .err e p := by
  rcases p with ⟨c, h, f, d⟩
  unfold DataPart.getData
  cases d with
  | some d => rfl
  | none =>
    cases f with
    | none => rfl
    | some f =>
      simp only [loaded, DataPart.readData]
      cases env.files f <;> rfl

theorem bind_ok_eq {α β : Type} (a : α) (f : α → Py β) : (Except.ok a >>= f : Py β) = f a := rfl

/-! ### simulation -/

/-- `f` gives what `g` gives, and changes the state only by `R` -/
def Sim {σ α : Type} (R : σ → σ → Prop) (f : M σ α) (g : σ → Py α) : Prop :=
  ∀ s, ∃ s', R s s' ∧ f s = match g s with | .ok a => .ok a s' | .error e => .err e s'

theorem Sim.lift {σ α : Type} {R : σ → σ → Prop} (hr : ∀ s, R s s) (x : Py α) : Sim R (M.lift x) (fun _ => x) := by
  intro s
  refine ⟨s, hr s, ?_⟩
  cases x <;> rfl

theorem Sim.bind {σ α β : Type} {R : σ → σ → Prop} (ht : ∀ {a b c}, R a b → R b c → R a c) {f : M σ α} {g : σ → Py α}
    {k : α → M σ β} {l : α → σ → Py β} (hf : Sim R f g) (hk : ∀ a, Sim R (k a) (l a))
    (hl : ∀ a s s', R s s' → l a s' = l a s) : Sim R (f >>= k) (fun s => g s >>= fun a => l a s) := by
  intro s
  obtain ⟨s1, h1, e1⟩ := hf s
  cases hg : g s with
  | error e =>
    rw [hg] at e1
    exact ⟨s1, h1, by rw [M.bind_err e1]; simp only [hg]; rfl⟩
  | ok a =>
    rw [hg] at e1
    obtain ⟨s2, h2, e2⟩ := hk a s1
    refine ⟨s2, ht h1 h2, ?_⟩
    rw [M.bind_ok e1, e2, hl a s s1 h1]
    simp only [hg]
    rfl

theorem Sim.getData (env : Env) : Sim (Maybe env) (DataPart.getData env) (fun p => p.readData env) := by
  intro p
  rw [getData_eq]
  simp only
  cases p.readData env with
  | ok d => exact ⟨_, .inr rfl, rfl⟩
  | error e => exact ⟨_, .inl rfl, rfl⟩

theorem Sim.srcOf (env : Env) : Sim (Maybe env) (srcOfC env) (Mms.srcOf env) := by
  intro p
  unfold srcOfC Mms.srcOf
  rcases h : p.headers.get (py! "Content-Location") with _ | v
  · rcases h2 : p.headers.get (py! "Content-ID") with _ | w
    · exact Sim.getData env p
    · simp only
      cases srcText w <;> exact ⟨p, .inl rfl, rfl⟩
  · simp only
    cases srcText v <;> exact ⟨p, .inl rfl, rfl⟩

theorem encodePartC_eq (env : Env) (ord : Dict HVal → Dict HVal) (p : DataPart) :
    encodePartC env ord p = match encodePart env ord p with
      | .ok o => .ok o (loaded env p)
      | .error e => .err e p := by
  simp only [encodePartC, encodePart, M.bind_apply, M.get]
  cases h : p.headers.index (py! "Content-Type") with
  | error e => rfl
  | ok v =>
    rw [M.lift_ok]
    simp only [bind_ok_eq]
    cases encodeCtPair v with
    | error e => rfl
    | ok ct =>
      simp only [M.lift_ok, bind_ok_eq]
      cases encodePartHeaders (ord p.headers) with
      | error e => rfl
      | ok hs =>
        simp only [M.lift_ok, bind_ok_eq]
        cases toOctets (ints (encodeUintVar ((ct.length : Int) + hs.length))) with
        | error e => rfl
        | ok a =>
          simp only [M.lift_ok, bind_ok_eq]
          cases p.len env with
          | error e => rfl
          | ok n =>
            simp only [M.lift_ok, bind_ok_eq]
            cases toOctets (ints (encodeUintVar n)) with
            | error e => rfl
            | ok b =>
              simp only [M.lift_ok, bind_ok_eq]
              cases toOctets ct with
              | error e => rfl
              | ok c =>
                simp only [M.lift_ok, bind_ok_eq]
                cases toOctets hs with
                | error e => rfl
                | ok d =>
                  simp only [M.lift_ok, bind_ok_eq, getData_eq]
                  cases p.readData env <;> rfl

/-! ### slots, slides -/

theorem maybeSlot_refl (env : Env) : ∀ x, MaybeSlot env x x
  | none => .none
  | some (_, t) => .some t (.inl rfl)

theorem maybeSlot_trans {env : Env} {x y z : Option (DataPart × Int × Int)} (h : MaybeSlot env x y)
    (h' : MaybeSlot env y z) : MaybeSlot env x z := by
  cases h with
  | none => exact h'
  | some t h =>
    cases h' with
    | some t h' => exact .some t (maybe_trans h h')

theorem maybePage_refl (env : Env) (p : Page) : MaybePage env p p :=
  ⟨rfl, maybeSlot_refl _ _, maybeSlot_refl _ _, maybeSlot_refl _ _⟩

theorem maybePage_trans {env : Env} {p q r : Page} (h : MaybePage env p q) (h' : MaybePage env q r) :
    MaybePage env p r :=
  ⟨h'.1.trans h.1, maybeSlot_trans h.2 h'.2, maybeSlot_trans h.3 h'.3, maybeSlot_trans h.4 h'.4⟩

theorem maybeSlot_loaded {env : Env} {x y : Option (DataPart × Int × Int)} (h : MaybeSlot env x y) :
    loadedSlot env y = loadedSlot env x := by
  cases h with
  | none => rfl
  | some t h => simp [loadedSlot, maybe_loaded_eq h]

theorem maybePage_loaded {env : Env} {p q : Page} (h : MaybePage env p q) : loadedPage env q = loadedPage env p := by
  unfold loadedPage
  rw [maybeSlot_loaded h.2, maybeSlot_loaded h.3, maybeSlot_loaded h.4, h.1]

theorem loadedSlot_maybe (env : Env) : ∀ x, MaybeSlot env x (loadedSlot env x)
  | none => .none
  | some (_, t) => .some t (.inr rfl)

theorem loadedPage_maybe (env : Env) (p : Page) : MaybePage env p (loadedPage env p) :=
  ⟨rfl, loadedSlot_maybe _ _, loadedSlot_maybe _ _, loadedSlot_maybe _ _⟩

theorem smilImage_maybe {env : Env} {p q : Page} (h : MaybePage env p q) (u : Nat) :
    smilImage env q u = smilImage env p u := by
  unfold smilImage
  have h2 := h.2
  rw [h.1]
  cases hp : p.image with
  | none => rw [hp] at h2; cases hq : q.image with
    | none => rfl
    | some x => rw [hq] at h2; cases h2
  | some x =>
    obtain ⟨x, b, e⟩ := x
    rw [hp] at h2
    cases hq : q.image with
    | none => rw [hq] at h2; cases h2
    | some y =>
      rw [hq] at h2
      cases h2 with
      | some t h => simp only [maybe_srcOf h]

theorem smilText_maybe {env : Env} {p q : Page} (h : MaybePage env p q) (u : Nat) :
    smilText env q u = smilText env p u := by
  unfold smilText
  have h2 := h.4
  rw [h.1]
  cases hp : p.text with
  | none => rw [hp] at h2; cases hq : q.text with
    | none => rfl
    | some x => rw [hq] at h2; cases h2
  | some x =>
    obtain ⟨x, b, e⟩ := x
    rw [hp] at h2
    cases hq : q.text with
    | none => rw [hq] at h2; cases h2
    | some y =>
      rw [hq] at h2
      cases h2 with
      | some t h => simp only [maybe_readData h]

/-- code on a slot -/
theorem onSlot_sim {α : Type} {env : Env} {f : M DataPart α} {g : DataPart → Py α} (hf : Sim (Maybe env) f g)
    (put : Page → Option (DataPart × Int × Int) → Page) (x : DataPart × Int × Int) (p : Page) : ∃ y,
    MaybeSlot env (some x) (some y) ∧ onSlot put x f p = match g x.1 with
      | .ok a => .ok a (put p (some y))
      | .error e => .err e (put p (some y)) := by
  obtain ⟨s', h1, h2⟩ := hf x.1
  refine ⟨(s', x.2), .some x.2 h1, ?_⟩
  unfold onSlot
  rw [h2]
  cases g x.1 <;> rfl

theorem Sim.smilImage (env : Env) (u : Nat) : Sim (MaybePage env) (smilImageC env u) (fun p => Mms.smilImage env p u) := by
  intro p
  unfold smilImageC
  rw [M.bind_apply]
  simp only [M.get, Mms.smilImage]
  cases hp : p.image with
  | none => exact ⟨p, maybePage_refl env p, rfl⟩
  | some x =>
    obtain ⟨y, h1, h2⟩ := onSlot_sim (Sim.srcOf env) Page.putImage x p
    refine ⟨p.putImage (some y), ⟨rfl, hp ▸ h1, maybeSlot_refl _ _, maybeSlot_refl _ _⟩, ?_⟩
    simp only [M.bind_apply, h2]
    cases Mms.srcOf env x.1 <;> rfl

theorem Sim.smilText (env : Env) (u : Nat) : Sim (MaybePage env) (smilTextC env u) (fun p => Mms.smilText env p u) := by
  intro p
  unfold smilTextC
  rw [M.bind_apply]
  simp only [M.get, Mms.smilText]
  cases hp : p.text with
  | none => exact ⟨p, maybePage_refl env p, rfl⟩
  | some x =>
    obtain ⟨y, h1, h2⟩ := onSlot_sim (Sim.getData env) Page.putText x p
    refine ⟨p.putText (some y), ⟨rfl, maybeSlot_refl _ _, maybeSlot_refl _ _, hp ▸ h1⟩, ?_⟩
    simp only [M.bind_apply, h2]
    cases x.1.readData env <;> rfl

/-- the end of `smilPage` -/
def smilAudio (env : Env) (st : SmilSt) (img : List MediaNode) (txt : Option MediaNode) (page : Page) : Py SmilSt := do
  let textNode := match txt with | some t => some t | none => st.textNode
  let kids := img ++ (match txt with | some t => [t] | none => [])
  match page.audio with
  | none => .ok { pars := st.pars ++ [⟨page.duration, kids⟩], textNode := textNode, uid := st.uid + 3 }
  | some (part, b, e) => do
    let src ← srcOf env part
    let audio : MediaNode :=
      { uid := st.uid + 2, tag := py! "audio", attrs := [(py! "src", src)] ++ timing page.duration b e }
    match textNode with
    | none => .error .nameError
    | some t =>
      let pars := st.pars.map (fun p => { p with kids := removeNode t.uid p.kids })
      let kids := removeNode t.uid kids ++ [t, audio]
      .ok { pars := pars ++ [⟨page.duration, kids⟩], textNode := textNode, uid := st.uid + 3 }

theorem smilAudio_maybe {env : Env} {p q : Page} (h : MaybePage env p q) (st : SmilSt) (i : List MediaNode)
    (t : Option MediaNode) : smilAudio env st i t q = smilAudio env st i t p := by
  unfold smilAudio
  have h2 := h.3
  rw [h.1]
  cases hp : p.audio with
  | none => rw [hp] at h2; cases hq : q.audio with
    | none => rfl
    | some x => rw [hq] at h2; cases h2
  | some x =>
    obtain ⟨x, b, e⟩ := x
    rw [hp] at h2
    cases hq : q.audio with
    | none => rw [hq] at h2; cases h2
    | some y =>
      rw [hq] at h2
      cases h2 with
      | some t h => simp only [maybe_srcOf h]

theorem smilPage_maybe {env : Env} {p q : Page} (h : MaybePage env p q) (st : SmilSt) :
    smilPage env st q = smilPage env st p := by
  show (smilImage env q st.uid >>= fun i => smilText env q (st.uid + 1) >>= fun t => smilAudio env st i t q) =
    (smilImage env p st.uid >>= fun i => smilText env p (st.uid + 1) >>= fun t => smilAudio env st i t p)
  simp only [smilImage_maybe h, smilText_maybe h, smilAudio_maybe h]

theorem Sim.smilPage (env : Env) (st : SmilSt) : Sim (MaybePage env) (smilPageC env st) (fun p => Mms.smilPage env st p) := by
  show Sim (MaybePage env) _ (fun p => Mms.smilImage env p st.uid >>= fun i => Mms.smilText env p (st.uid + 1) >>=
    fun t => smilAudio env st i t p)
  unfold smilPageC
  refine Sim.bind (R := MaybePage env) maybePage_trans (Sim.smilImage env _) (fun i => ?_) (fun i s s' h => ?_)
  · refine Sim.bind (R := MaybePage env) maybePage_trans (Sim.smilText env _) (fun t => ?_) (fun t s s' h => smilAudio_maybe h _ _ _)
    intro p
    rw [M.bind_apply]
    simp only [M.get, smilAudio]
    cases hp : p.audio with
    | none => exact ⟨p, maybePage_refl env p, rfl⟩
    | some x =>
      obtain ⟨y, h1, h2⟩ := onSlot_sim (Sim.srcOf env) Page.putAudio x p
      refine ⟨p.putAudio (some y), ⟨rfl, maybeSlot_refl _ _, hp ▸ h1, maybeSlot_refl _ _⟩, ?_⟩
      simp only [M.bind_apply, h2]
      cases Mms.srcOf env x.1 with
      | error e => rfl
      | ok src =>
        cases t with
        | some t => rfl
        | none => cases st.textNode <;> rfl
  · simp only [smilText_maybe h, smilAudio_maybe h]

/-! ### messages -/

theorem maybePages_refl (env : Env) : ∀ l, MaybePages env l l
  | [] => .nil
  | p :: l => .cons (maybePage_refl env p) (maybePages_refl env l)

theorem maybePages_trans {env : Env} {a b c : List Page} (h : MaybePages env a b) (h' : MaybePages env b c) :
    MaybePages env a c := by
  induction h generalizing c with
  | nil => exact h'
  | cons h _ ih =>
    cases h' with
    | cons h' t' => exact .cons (maybePage_trans h h') (ih t')

theorem maybePages_loaded {env : Env} {a b : List Page} (h : MaybePages env a b) :
    b.map (loadedPage env) = a.map (loadedPage env) := by
  induction h with
  | nil => rfl
  | cons h _ ih => rw [List.map_cons, List.map_cons, maybePage_loaded h, ih]

theorem smilPages_maybe {env : Env} {a b : List Page} (h : MaybePages env a b) : ∀ st,
    smilPages env st b = smilPages env st a := by
  induction h with
  | nil => intro st; rfl
  | cons h _ ih =>
    intro st
    simp only [smilPages, smilPage_maybe h, ih]

theorem eachPage_smil (env : Env) : ∀ (l : List Page) (st : SmilSt), ∃ l', MaybePages env l l' ∧
    eachPage (smilPageC env) st l = match smilPages env st l with
      | .ok s => .ok s l'
      | .error e => .err e l'
  | [], st => ⟨[], .nil, rfl⟩
  | p :: l, st => by
    obtain ⟨p', h1, h2⟩ := Sim.smilPage env st p
    simp only [eachPage, smilPages, h2]
    cases hs : smilPage env st p with
    | error e => exact ⟨p' :: l, .cons h1 (maybePages_refl env l), rfl⟩
    | ok s =>
      obtain ⟨l', h3, h4⟩ := eachPage_smil env l s
      refine ⟨p' :: l', .cons h1 h3, ?_⟩
      simp only [h4, bind, Except.bind]
      cases smilPages env s l <;> rfl

theorem smilC_eq (env : Env) (m : Msg) : ∃ l, MaybePages env m.pages l ∧
    smilC env m = match m.smil env with
      | .ok s => .ok s { m with pages := l }
      | .error e => .err e { m with pages := l } := by
  obtain ⟨l, h1, h2⟩ := eachPage_smil env m.pages { pars := [], textNode := none, uid := 0 }
  refine ⟨l, h1, ?_⟩
  unfold smilC Msg.smil Msg.smilDoc Msg.smilBody
  rw [h2]
  cases smilPages env { pars := [], textNode := none, uid := 0 } m.pages <;> rfl

/-- the part in a slot -/
def slotParts : Option (DataPart × Int × Int) → List DataPart
  | some x => [x.1]
  | none => []

theorem encodeSlotC_eq (env : Env) (ord : Dict HVal → Dict HVal) (put : Page → Option (DataPart × Int × Int) → Page)
    (x : Option (DataPart × Int × Int)) (p : Page) (hp : put p x = p) :
    encodeSlotC env ord put x p =
      match encodeParts env ord (slotParts x) with
      | .ok o => .ok o (put p (loadedSlot env x))
      | .error e => .err e p := by
  cases x with
  | none => unfold encodeSlotC; simp only [slotParts, encodeParts, loadedSlot, Option.map_none, hp]; rfl
  | some x =>
    obtain ⟨x, t⟩ := x
    simp only [encodeSlotC, onSlot, encodePartC_eq, slotParts, encodeParts, loadedSlot, Option.map_some]
    cases encodePart env ord x with
    | ok o => simp [bind, Except.bind]
    | error e =>
      show Res.err e (put p (some (x, t))) = _
      rw [hp]
      rfl

theorem encodeParts_append (env : Env) (ord : Dict HVal → Dict HVal) : ∀ (a b : List DataPart),
    encodeParts env ord (a ++ b) = (do
      let x ← encodeParts env ord a
      let y ← encodeParts env ord b
      .ok (x ++ y))
  | [], b => by
    simp only [List.nil_append, encodeParts, bind, Except.bind]
    cases encodeParts env ord b <;> rfl
  | p :: a, b => by
    simp only [List.cons_append, encodeParts, encodeParts_append env ord a b, bind, Except.bind]
    cases encodePart env ord p with
    | error e => rfl
    | ok x =>
      cases encodeParts env ord a with
      | error e => rfl
      | ok y =>
        cases encodeParts env ord b with
        | error e => rfl
        | ok z => simp

theorem encodePageC_eq (env : Env) (ord : Dict HVal → Dict HVal) (o : List Nat) (p : Page) : ∃ p', MaybePage env p p' ∧
    encodePageC env ord o p = match encodeParts env ord (p.dataParts.map (fun t => t.1)) with
      | .ok r => .ok (o ++ r) (loadedPage env p)
      | .error e => .err e p' := by
  obtain ⟨du, im, au, tx⟩ := p
  have e1 : (Page.dataParts ⟨du, im, au, tx⟩).map (fun t => t.1) =
      slotParts im ++ (slotParts au ++
        slotParts tx) := by
    cases im <;> cases au <;> cases tx <;> rfl
  rw [e1, encodeParts_append, encodeParts_append]
  unfold encodePageC
  rw [M.bind_apply]
  simp only [M.get]
  have hI := encodeSlotC_eq env ord Page.putImage im ⟨du, im, au, tx⟩ rfl
  generalize encodeParts env ord (slotParts im) = A at *
  have hA := encodeSlotC_eq env ord Page.putAudio au ⟨du, loadedSlot env im, au, tx⟩ rfl
  generalize encodeParts env ord (slotParts au) = B at *
  have hT := encodeSlotC_eq env ord Page.putText tx
    ⟨du, loadedSlot env im, loadedSlot env au, tx⟩ rfl
  generalize encodeParts env ord (slotParts tx) = C at *
  cases A with
  | error e =>
    refine ⟨_, maybePage_refl env _, ?_⟩
    rw [M.bind_err hI]
    rfl
  | ok a =>
    rw [M.bind_ok hI]
    cases B with
    | error e =>
      refine ⟨⟨du, loadedSlot env im, au, tx⟩, ⟨rfl, loadedSlot_maybe _ _, maybeSlot_refl _ _, maybeSlot_refl _ _⟩, ?_⟩
      erw [M.bind_err hA]
      rfl
    | ok b =>
      erw [M.bind_ok hA]
      cases C with
      | error e =>
        refine ⟨⟨du, loadedSlot env im, loadedSlot env au, tx⟩,
          ⟨rfl, loadedSlot_maybe _ _, loadedSlot_maybe _ _, maybeSlot_refl _ _⟩, ?_⟩
        erw [M.bind_err hT]
        rfl
      | ok c =>
        refine ⟨_, maybePage_refl env _, ?_⟩
        erw [M.bind_ok hT]
        show Res.ok (o ++ a ++ b ++ c) _ = Res.ok (o ++ (a ++ (b ++ c))) _
        rw [List.append_assoc, List.append_assoc]
        rfl

theorem eachPage_encode (env : Env) (ord : Dict HVal → Dict HVal) : ∀ (l : List Page) (o : List Nat), ∃ l',
    MaybePages env l l' ∧ eachPage (encodePageC env ord) o l = match encodeParts env ord (slideParts l) with
      | .ok r => .ok (o ++ r) (l.map (loadedPage env))
      | .error e => .err e l'
  | [], o => ⟨[], .nil, by simp [eachPage, slideParts, encodeParts]⟩
  | p :: l, o => by
    obtain ⟨p', h1, h2⟩ := encodePageC_eq env ord o p
    simp only [eachPage, slideParts, encodeParts_append, h2]
    cases hs : encodeParts env ord (p.dataParts.map (fun t => t.1)) with
    | error e => exact ⟨p' :: l, .cons h1 (maybePages_refl env l), rfl⟩
    | ok s =>
      obtain ⟨l', h3, h4⟩ := eachPage_encode env ord l (o ++ s)
      refine ⟨loadedPage env p :: l', .cons (loadedPage_maybe env p) h3, ?_⟩
      simp only [h4, bind, Except.bind]
      cases encodeParts env ord (slideParts l) with
      | error e => rfl
      | ok r => simp

theorem maybeSlot_parts {env : Env} {ord : Dict HVal → Dict HVal} {x y : Option (DataPart × Int × Int)}
    (h : MaybeSlot env x y) : encodeParts env ord (slotParts y) =
      encodeParts env ord (slotParts x) := by
  cases h with
  | none => rfl
  | some t h => simp only [slotParts, encodeParts, maybe_encodePart h]

theorem dataParts_split (p : Page) : p.dataParts.map (fun t => t.1) =
      (slotParts p.image) ++
        ((slotParts p.audio) ++
        (slotParts p.text)) := by
  obtain ⟨du, im, au, tx⟩ := p
  cases im <;> cases au <;> cases tx <;> rfl

theorem slideParts_maybe {env : Env} {a b : List Page} (h : MaybePages env a b) (ord : Dict HVal → Dict HVal) :
    encodeParts env ord (slideParts b) = encodeParts env ord (slideParts a) := by
  induction h with
  | nil => rfl
  | cons h _ ih =>
    simp only [slideParts, encodeParts_append, dataParts_split, ih, maybeSlot_parts h.2, maybeSlot_parts h.3,
      maybeSlot_parts h.4]

theorem encodeMessageBodyC_eq (env : Env) (ord : Dict HVal → Dict HVal) (m : Msg) : ∃ l, MaybePages env m.pages l ∧
    encodeMessageBodyC env ord m = match encodeMessageBody env ord m with
      | .ok o => .ok o { m with pages := m.pages.map (loadedPage env) }
      | .error e => .err e { m with pages := l } := by
  unfold encodeMessageBodyC encodeMessageBody
  rw [M.bind_apply]
  simp only [M.get]
  cases ha : toOctets (ints (encodeUintVar (numEntries m))) with
  | error e => exact ⟨m.pages, maybePages_refl env _, rfl⟩
  | ok a =>
    rw [M.bind_ok (M.lift_ok _ _), M.bind_apply]
    obtain ⟨l, h1, h2⟩ := smilC_eq env m
    rw [h2]
    simp only [encodeParts, bind, Except.bind]
    cases hs : m.smil env with
    | error e => exact ⟨l, h1, rfl⟩
    | ok smil =>
      simp only
      show ∃ l, _ ∧ (do let b ← M.lift (encodePart env ord (smilPart smil)); _ : M Msg (List Nat)) _ = _
      cases hp : encodePart env ord (smilPart smil) with
      | error e => exact ⟨l, h1, rfl⟩
      | ok b =>
        rw [M.bind_ok (M.lift_ok _ _)]
        obtain ⟨l', h3, h4⟩ := eachPage_encode env ord l (a ++ b)
        rw [slideParts_maybe h1] at h4
        simp only [h4]
        cases encodeParts env ord (slideParts m.pages) with
        | error e => exact ⟨l', maybePages_trans h1 h3, rfl⟩
        | ok r =>
          refine ⟨l, h1, ?_⟩
          simp only [maybePages_loaded h1, List.append_assoc]

/-- encoding with caching, in terms of encoding without -/
theorem encodeC_eq (env : Env) (ord : Dict HVal → Dict HVal) (rnd : Nat) (m : Msg) :
    (∃ o m', encode env ord rnd m = .ok o m' ∧ encodeC env ord rnd m = .ok o (loadedMsg env m')) ∨
    (∃ e m' m'', encode env ord rnd m = .err e m' ∧ encodeC env ord rnd m = .err e m'' ∧ MaybeMsg env m' m'') := by
  unfold encode encodeC
  rw [M.bind_apply, M.bind_apply]
  cases hh : encodeMessageHeader ord rnd m with
  | err e m' =>
    exact .inr ⟨e, m', m', rfl, rfl, maybePages_refl env _, rfl, rfl, rfl, rfl, rfl⟩
  | ok h m' =>
    obtain ⟨l, h1, h2⟩ := encodeMessageBodyC_eq env ord m'
    simp only
    rw [M.bind_apply, M.bind_apply, h2]
    simp only [M.get]
    cases hb : encodeMessageBody env ord m' with
    | error e =>
      exact .inr ⟨e, m', { m' with pages := l }, rfl, rfl, h1, rfl, rfl, rfl, rfl, rfl⟩
    | ok o => exact .inl ⟨_, m', rfl, rfl⟩

/-! ### headers are encoded alike whatever the slides -/

/-- the slides play no part in `f` -/
def NoPages {α : Type} (l : List Page) (f : M Msg α) : Prop := ∀ m, f { m with pages := l } =
  match f m with
  | .ok a m' => .ok a { m' with pages := l }
  | .err e m' => .err e { m' with pages := l }

theorem NoPages.lift {α : Type} (l : List Page) (x : Py α) : NoPages l (M.lift x) := by
  intro m
  cases x <;> rfl

theorem NoPages.bind {α β : Type} {l : List Page} {f : M Msg α} {k : α → M Msg β} (hf : NoPages l f)
    (hk : ∀ a, NoPages l (k a)) : NoPages l (f >>= k) := by
  intro m
  rw [M.bind_apply, M.bind_apply, hf m]
  cases f m with
  | err e m' => rfl
  | ok a m' => exact hk a m'

theorem NoPages.encodeAndDelete (l : List Page) (n : Str) : NoPages l (Mms.encodeAndDelete n) := by
  intro m
  unfold Mms.encodeAndDelete
  simp only [M.bind_apply, M.get]
  cases m.headers.index n with
  | error e => rfl
  | ok v =>
    simp only [M.lift_ok]
    cases headerOctets n v <;> rfl

theorem NoPages.encodeMessageHeader (l : List Page) (ord : Dict HVal → Dict HVal) (rnd : Nat) :
    NoPages l (Mms.encodeMessageHeader ord rnd) := by
  unfold Mms.encodeMessageHeader
  refine .bind (fun m => rfl) fun _ => .bind (.encodeAndDelete l _) fun a => .bind (.encodeAndDelete l _) fun b =>
    .bind (.encodeAndDelete l _) fun c => ?_
  intro m
  simp only [M.bind_apply, M.get]
  cases encodeRest (ord m.headers) with
  | error e => rfl
  | ok r =>
    simp only [M.lift_ok]
    cases encodeCtHeader m.headers <;> rfl

theorem maybeSlot_parts_length {env : Env} {x y : Option (DataPart × Int × Int)} (h : MaybeSlot env x y) :
    y.isSome = x.isSome := by
  cases h <;> rfl

theorem numberOfParts_maybe {env : Env} {p q : Page} (h : MaybePage env p q) : q.numberOfParts = p.numberOfParts := by
  have key : ∀ p : Page, p.numberOfParts = p.image.isSome.toNat + p.audio.isSome.toNat + p.text.isSome.toNat := by
    rintro ⟨du, im, au, tx⟩
    cases im <;> cases au <;> cases tx <;> rfl
  rw [key, key, maybeSlot_parts_length h.2, maybeSlot_parts_length h.3, maybeSlot_parts_length h.4]

theorem encodeMessageBody_maybe {env : Env} {m : Msg} {l : List Page} (h : MaybePages env m.pages l)
    (ord : Dict HVal → Dict HVal) : encodeMessageBody env ord { m with pages := l } = encodeMessageBody env ord m := by
  have h1 : (l.map Page.numberOfParts) = m.pages.map Page.numberOfParts := by
    obtain ⟨ps, d, t, hd, w, hh⟩ := m
    simp only at h ⊢
    induction h with
    | nil => rfl
    | cons h _ ih => rw [List.map_cons, List.map_cons, numberOfParts_maybe h, ih]
  have h2 : ({ m with pages := l } : Msg).smil env = m.smil env := by
    unfold Msg.smil Msg.smilDoc Msg.smilBody
    rw [smilPages_maybe h]
    rfl
  unfold encodeMessageBody numEntries
  simp only [h1, h2, encodeParts, slideParts_maybe h]

theorem loadedPages_maybe (env : Env) : ∀ l, MaybePages env l (l.map (loadedPage env))
  | [] => .nil
  | p :: l => .cons (loadedPage_maybe env p) (loadedPages_maybe env l)

theorem encode_pages {env : Env} {ord : Dict HVal → Dict HVal} {rnd : Nat} {m : Msg} {l : List Page}
    (hl : MaybePages env m.pages l) : encode env ord rnd { m with pages := l } =
      match encode env ord rnd m with
      | .ok o m' => .ok o { m' with pages := l }
      | .err e m' => .err e { m' with pages := l } := by
  unfold encode
  rw [M.bind_apply, M.bind_apply, NoPages.encodeMessageHeader l ord rnd m]
  cases hh : encodeMessageHeader ord rnd m with
  | err e m1 => rfl
  | ok hd m1 =>
    have hp : m1.pages = m.pages := by
      obtain ⟨_, _, _, _, _, _, _, _, _, _, _, _, _, _, _, _, _, rfl⟩ := emh_inv hh
      rfl
    simp only [M.bind_apply, M.get]
    rw [encodeMessageBody_maybe (hp ▸ hl)]
    cases hb : encodeMessageBody env ord m1 <;> rfl

theorem encode_maybe {env : Env} {ord : Dict HVal → Dict HVal} {rnd : Nat} {m m' : Msg} {o : List Nat} {l : List Page}
    (hl : MaybePages env m.pages l) (h : encode env ord rnd m = .ok o m') :
    encode env ord rnd { m with pages := l } = .ok o { m' with pages := l } := by
  rw [encode_pages hl, h]

theorem encode_err_maybe {env : Env} {ord : Dict HVal → Dict HVal} {rnd : Nat} {m m' : Msg} {e : PyErr} {l : List Page}
    (hl : MaybePages env m.pages l) (h : encode env ord rnd m = .err e m') :
    encode env ord rnd { m with pages := l } = .err e { m' with pages := l } := by
  rw [encode_pages hl, h]

theorem loadedPage_idem (env : Env) (p : Page) : loadedPage env (loadedPage env p) = loadedPage env p :=
  maybePage_loaded (loadedPage_maybe env p)

theorem loadedMsg_idem (env : Env) (m : Msg) : loadedMsg env (loadedMsg env m) = loadedMsg env m := by
  unfold loadedMsg
  simp only [maybePages_loaded (loadedPages_maybe env m.pages)]

/-- encoding a message whose parts were read -/
theorem encodeC_loaded {env : Env} {ord : Dict HVal → Dict HVal} {rnd : Nat} {m m' : Msg} {o : List Nat}
    (h : encode env ord rnd m = .ok o m') : encodeC env ord rnd (loadedMsg env m) = .ok o (loadedMsg env m') := by
  have hp : m'.pages = m.pages := by
    unfold encode at h
    rw [M.bind_apply] at h
    cases hh : encodeMessageHeader ord rnd m with
    | err e m1 => rw [hh] at h; cases h
    | ok hd m1 =>
      rw [hh] at h
      simp only [M.bind_apply, M.get] at h
      cases hb : encodeMessageBody env ord m1 with
      | error e => rw [hb] at h; cases h
      | ok b =>
        rw [hb] at h
        injection h with h1 h2
        subst h2
        obtain ⟨_, _, _, _, _, _, _, _, _, _, _, _, _, _, _, _, _, rfl⟩ := emh_inv hh
        rfl
  have h1 := encode_maybe (loadedPages_maybe env m.pages) h
  rcases encodeC_eq env ord rnd (loadedMsg env m) with ⟨o2, m2, h2, h3⟩ | ⟨e, m2, m3, h2, _⟩
  · have := h1.symm.trans h2
    injection this with e1 e2
    subst e1 e2
    rw [h3]
    congr 1
    unfold loadedMsg
    simp only [maybePages_loaded (loadedPages_maybe env m.pages), hp]
  · have := h1.symm.trans h2
    cases this

/-! ### only the files of the slides matter -/

/-- the parts have the same contents and lengths -/
def SameFiles (env env' : Env) (l : List DataPart) : Prop :=
  ∀ p ∈ l, p.readData env' = p.readData env ∧ p.len env' = p.len env

theorem same_of_files {env env' : Env} {p : DataPart} (h : ∀ f, p.filename = some f → env'.files f = env.files f) :
    p.readData env' = p.readData env ∧ p.len env' = p.len env := by
  have h1 : p.readData env' = p.readData env := by
    unfold DataPart.readData
    cases p.data with
    | some d => rfl
    | none =>
      cases hf : p.filename with
      | none => rfl
      | some f => simp only [h f hf]
  refine ⟨h1, ?_⟩
  unfold DataPart.len
  rw [h1]
  cases hf : p.filename with
  | none => rfl
  | some f => simp only [h f hf]

theorem srcOf_same {env env' : Env} {p : DataPart} (h : p.readData env' = p.readData env ∧ p.len env' = p.len env) :
    srcOf env' p = srcOf env p := by
  unfold srcOf
  rw [h.1]

theorem encodePart_same {env env' : Env} {p : DataPart}
    (h : p.readData env' = p.readData env ∧ p.len env' = p.len env)
    (ord : Dict HVal → Dict HVal) : encodePart env' ord p = encodePart env ord p := by
  unfold encodePart
  rw [h.1, h.2]

theorem loaded_same {env env' : Env} {p : DataPart} (h : p.readData env' = p.readData env) :
    loaded env' p = loaded env p := by
  obtain ⟨c, hd, f, d⟩ := p
  cases d with
  | some d => rfl
  | none =>
    cases f with
    | none => rfl
    | some f =>
      show DataPart.mk c hd (some f) (env'.files f) = DataPart.mk c hd (some f) (env.files f)
      simp only [DataPart.readData] at h
      cases h1 : env'.files f with
      | none =>
        cases h2 : env.files f with
        | none => rfl
        | some y => rw [h1, h2] at h; cases h
      | some x =>
        cases h2 : env.files f with
        | none => rw [h1, h2] at h; cases h
        | some y => rw [h1, h2] at h; injection h with h; rw [h]

theorem encodeParts_same {env env' : Env} (ord : Dict HVal → Dict HVal) : ∀ {l : List DataPart}, SameFiles env env' l →
    encodeParts env' ord l = encodeParts env ord l
  | [], _ => rfl
  | p :: l, h => by
    simp only [encodeParts, encodePart_same (h p (by simp)), encodeParts_same ord (l := l) fun q hq => h q (by simp [hq])]

/-- the parts of a slide -/
theorem smilPage_same {env env' : Env} {p : Page} (h : SameFiles env env' (p.dataParts.map (fun t => t.1))) (st : SmilSt) :
    smilPage env' st p = smilPage env st p := by
  obtain ⟨du, im, au, tx⟩ := p
  rw [dataParts_split] at h
  have h1 : smilImage env' ⟨du, im, au, tx⟩ st.uid = smilImage env ⟨du, im, au, tx⟩ st.uid := by
    unfold smilImage
    cases im with
    | none => rfl
    | some x => simp only [srcOf_same (h x.1 (by simp [slotParts]))]
  have h2 : smilText env' ⟨du, im, au, tx⟩ (st.uid + 1) = smilText env ⟨du, im, au, tx⟩ (st.uid + 1) := by
    unfold smilText
    cases tx with
    | none => rfl
    | some x => simp only [(h x.1 (by simp [slotParts])).1]
  have h3 : ∀ i t, smilAudio env' st i t ⟨du, im, au, tx⟩ = smilAudio env st i t ⟨du, im, au, tx⟩ := by
    intro i t
    unfold smilAudio
    cases au with
    | none => rfl
    | some x => simp only [srcOf_same (h x.1 (by simp [slotParts]))]
  show (smilImage env' _ st.uid >>= fun i => smilText env' _ (st.uid + 1) >>= fun t => smilAudio env' st i t _) =
    (smilImage env _ st.uid >>= fun i => smilText env _ (st.uid + 1) >>= fun t => smilAudio env st i t _)
  simp only [h1, h2, h3]

theorem smilPages_same {env env' : Env} : ∀ {l : List Page}, SameFiles env env' (slideParts l) → ∀ st,
    smilPages env' st l = smilPages env st l
  | [], _, _ => rfl
  | p :: l, h, st => by
    simp only [smilPages, smilPage_same (fun q hq => h q (by simp [slideParts]; simp at hq; exact .inl hq)),
      smilPages_same (l := l) (fun q hq => h q (by simp only [slideParts, List.mem_append]; exact .inr hq))]

theorem encode_same {env env' : Env} {ord : Dict HVal → Dict HVal} {rnd : Nat} {m : Msg}
    (hs : SameFiles env env' (slideParts m.pages)) : encode env' ord rnd m = encode env ord rnd m := by
  unfold encode
  rw [M.bind_apply, M.bind_apply]
  cases hh : encodeMessageHeader ord rnd m with
  | err e m1 => rfl
  | ok hd m1 =>
    have hp : m1.pages = m.pages := by
      obtain ⟨_, _, _, _, _, _, _, _, _, _, _, _, _, _, _, _, _, rfl⟩ := emh_inv hh
      rfl
    rw [← hp] at hs
    have hb : encodeMessageBody env' ord m1 = encodeMessageBody env ord m1 := by
      have hsm : ∀ s, encodePart env' ord (smilPart s) = encodePart env ord (smilPart s) :=
        fun s => encodePart_same (same_of_files (by intro f hf; cases hf)) ord
      unfold encodeMessageBody Msg.smil Msg.smilDoc Msg.smilBody
      simp only [encodeParts, smilPages_same hs, encodeParts_same ord hs, hsm]
    simp only [M.bind_apply, M.get, hb]

theorem loadedSlot_same {env env' : Env} {x : Option (DataPart × Int × Int)} (h : SameFiles env env' (slotParts x)) :
    loadedSlot env' x = loadedSlot env x := by
  cases x with
  | none => rfl
  | some x => simp [loadedSlot, loaded_same (h x.1 (by simp [slotParts])).1]

theorem loadedPages_same {env env' : Env} : ∀ {l : List Page}, SameFiles env env' (slideParts l) →
    l.map (loadedPage env') = l.map (loadedPage env)
  | [], _ => rfl
  | p :: l, h => by
    rw [slideParts, dataParts_split] at h
    rw [List.map_cons, List.map_cons, loadedPages_same (l := l) fun q hq => h q (by simp [hq])]
    unfold loadedPage
    rw [loadedSlot_same (env' := env') (x := p.image) fun q hq => h q (by simp [hq]),
      loadedSlot_same (env' := env') (x := p.audio) fun q hq => h q (by simp [hq]),
      loadedSlot_same (env' := env') (x := p.text) fun q hq => h q (by simp [hq])]

theorem mem_slideParts (m : Msg) (p : DataPart) : p ∈ slideParts m.pages ↔ Holds m p := by
  obtain ⟨ps, _, _, _, _, _⟩ := m
  unfold Holds
  simp only
  induction ps with
  | nil => simp [slideParts]
  | cons s l ih =>
    rw [slideParts, List.mem_append, ih, dataParts_split]
    obtain ⟨du, im, au, tx⟩ := s
    have key : ∀ x : Option (DataPart × Int × Int), p ∈ slotParts x ↔ ∃ t, x = some (p, t) := by
      intro x
      cases x with
      | none => simp [slotParts]
      | some x =>
        obtain ⟨q, t⟩ := x
        simp only [slotParts, List.mem_singleton, Option.some.injEq, Prod.mk.injEq, exists_and_left, exists_eq', and_true]
        exact eq_comm
    simp only [List.mem_append, key, List.mem_cons, exists_eq_or_imp, exists_or]

theorem slotParts_loaded (env : Env) (x : Option (DataPart × Int × Int)) :
    slotParts (loadedSlot env x) = (slotParts x).map (loaded env) := by
  cases x <;> rfl

theorem slideParts_loaded (env : Env) : ∀ l, slideParts (l.map (loadedPage env)) = (slideParts l).map (loaded env)
  | [] => rfl
  | p :: l => by
    rw [List.map_cons, slideParts, slideParts, slideParts_loaded env l, dataParts_split, dataParts_split]
    simp [loadedPage, slotParts_loaded]

theorem uintVar_octets (n : Nat) : toOctets (ints (encodeUintVar (n : Int))) = .ok (Spec.Wsp.uintvar n) := by
  have := toOctets_ints (uintvar_lt n)
  unfold toInts at this
  rw [encodeUintVar_eq, this]

/-- the octets of a part -/
theorem encodePart_inv {env : Env} {ord : Dict HVal → Dict HVal} {p : DataPart} {o : List Nat}
    (h : encodePart env ord p = .ok o) : ∃ k n c d data, p.len env = .ok n ∧ p.readData env = .ok data ∧
      o = Spec.Wsp.uintvar k ++ Spec.Wsp.uintvar n ++ (c ++ d) ++ data ∧
      ∀ (env2 : Env) (n2 : Nat) (data2 : Str), p.len env2 = .ok n2 → p.readData env2 = .ok data2 →
        encodePart env2 ord p = .ok (Spec.Wsp.uintvar k ++ Spec.Wsp.uintvar n2 ++ (c ++ d) ++ data2) := by
  unfold encodePart at h ⊢
  cases h0 : p.headers.index (py! "Content-Type") with
  | error e => rw [h0] at h; cases h
  | ok v =>
    rw [h0] at h
    simp only [bind_ok_eq] at h ⊢
    cases h1 : encodeCtPair v with
    | error e => rw [h1] at h; cases h
    | ok ct =>
      rw [h1] at h
      simp only [bind_ok_eq] at h ⊢
      cases h2 : encodePartHeaders (ord p.headers) with
      | error e => rw [h2] at h; cases h
      | ok hs =>
        rw [h2] at h
        have hu := uintVar_octets (ct.length + hs.length)
        push_cast at hu
        simp only [bind_ok_eq, hu] at h ⊢
        cases h3 : p.len env with
        | error e => rw [h3] at h; cases h
        | ok n =>
          rw [h3] at h
          simp only [bind_ok_eq, uintVar_octets] at h ⊢
          cases h4 : toOctets ct with
          | error e => rw [h4] at h; cases h
          | ok c =>
            rw [h4] at h
            simp only [bind_ok_eq] at h ⊢
            cases h5 : toOctets hs with
            | error e => rw [h5] at h; cases h
            | ok d =>
              rw [h5] at h
              simp only [bind_ok_eq] at h ⊢
              cases h6 : p.readData env with
              | error e => rw [h6] at h; cases h
              | ok data =>
                rw [h6] at h
                simp only [bind_ok_eq] at h
                injection h with h
                refine ⟨ct.length + hs.length, n, c, d, data, rfl, rfl, by rw [← h]; simp, ?_⟩
                intro env2 n2 data2 g1 g2
                simp only [g1, g2, bind_ok_eq, List.append_assoc]

end Verif.Mms

import Verif.Model.SmilExact
import Verif.Proofs.Slides
import Verif.Proofs.MmsEnc4
/-!
# Lemmas: the SMIL text with labels of any type
-/
set_option autoImplicit false

namespace Verif.Mms

/-- the characters a value is written with -/
def charsOf : HVal → Str
  | .v (.str s) | .v (.uni s) => s
  | _ => []

/-- the exception a value raises when written -/
def badOf (v : HVal) : Option PyErr :=
  match writeData v with
  | .ok _ => none
  | .error e => some e

/-- the element in the simpler model -/
def NodeX.lower (n : NodeX) : MediaNode := { uid := n.uid, tag := n.tag, attrs := (py! "src", charsOf n.src) :: n.attrs }
def ParX.lower (p : ParX) : ParNode := { duration := p.duration, kids := p.kids.map NodeX.lower }
def SmilX.lower (st : SmilX) : SmilSt :=
  { pars := st.pars.map ParX.lower, textNode := st.textNode.map NodeX.lower, uid := st.uid }

/-- the elements in the order of the document -/
def SmilX.nodes (st : SmilX) : List NodeX := st.pars.flatMap ParX.kids

theorem writeData_ok {v : HVal} {l : List Chunk} (h : writeData v = .ok l) :
    l.flatMap Chunk.chars = xmlEscape (charsOf v) ∧
    (l.any Chunk.isUni = true ↔ ∃ s, v = .v (.uni s) ∧ s ≠ []) ∧
    (∀ c ∈ l, c.isUni = false → ∃ s, v = .v (.str s) ∧ c = .str (xmlEscape s)) ∧
    (∀ s, v = .v (.str s) → s ≠ [] → .str (xmlEscape s) ∈ l) := by
  rcases v with x | ⟨n, x⟩ | ⟨m, d⟩
  · cases x with
    | str s =>
      injection h with h
      subst h
      cases s with
      | nil => exact ⟨rfl, by simp, by simp, by rintro s h hs; cases h; exact absurd rfl hs⟩
      | cons c s =>
        refine ⟨by simp [Chunk.chars, charsOf], by simp [Chunk.isUni], ?_, ?_⟩
        · intro c' hc _
          simp at hc
          exact ⟨_, rfl, hc⟩
        · intro s' h _
          cases h
          simp
    | uni s =>
      injection h with h
      subst h
      cases s with
      | nil => exact ⟨rfl, by simp, by simp, by intro s h; cases h⟩
      | cons c s =>
        refine ⟨by simp [Chunk.chars, charsOf], by simp [Chunk.isUni], ?_, by intro s h; cases h⟩
        intro c' hc hu
        simp at hc
        subst hc
        cases hu
    | int n =>
      simp only [writeData] at h
      split at h
      · cases h; exact ⟨rfl, by simp, by simp, by intro s h; cases h⟩
      · cases h
    | bool b =>
      simp only [writeData] at h
      split at h
      · cases h
      · cases h; exact ⟨rfl, by simp, by simp, by intro s h; cases h⟩
    | flt n d =>
      simp only [writeData] at h
      split at h
      · cases h; exact ⟨rfl, by simp, by simp, by intro s h; cases h⟩
      · cases h
    | none => cases h; exact ⟨rfl, by simp, by simp, by intro s h; cases h⟩
    | dt d => cases h
  · cases h
  · cases h

/-! ### building the document -/

theorem lower_remove (uid : Nat) (l : List NodeX) : (removeNodeX uid l).map NodeX.lower = removeNode uid (l.map NodeX.lower) := by
  unfold removeNodeX removeNode
  rw [List.filter_map]
  rfl

/-- two slots with the same times whose media are written with the same characters -/
inductive SlotSim {α : Type} (R : Py α → DataPart → Prop) : Option (Py α × Int × Int) → Option (DataPart × Int × Int) → Prop
  | none : SlotSim R none none
  | some (p : Py α) (q : DataPart) (b e : Int) (h : R p q) : SlotSim R (some (p, b, e)) (some (q, b, e))

/-- the source in the exact model is that of `q` in the simpler one, if it can be written -/
def SrcSim (env : Env) (p : Py HVal) (q : DataPart) : Prop :=
  ∀ v, p = .ok v → badOf v = none → srcOf env q = .ok (charsOf v)

/-- the text is the data of `q` -/
def TextSim (env : Env) (p : Py PyStr) (q : DataPart) : Prop := ∀ v, p = .ok v → q.readData env = .ok v.s

structure PageSim (env : Env) (p : PageX) (q : Page) : Prop where
  duration : p.duration = q.duration
  image : SlotSim (SrcSim env) p.image q.image
  text : SlotSim (TextSim env) p.text q.text
  audio : SlotSim (SrcSim env) p.audio q.audio

theorem imageSim {env : Env} {p : PageX} {q : Page} (h : PageSim env p q) {uid : Nat} {l : List NodeX}
    (hl : smilImageX p uid = .ok l) (hb : ∀ n ∈ l, badOf n.src = none) :
    smilImage env q uid = .ok (l.map NodeX.lower) := by
  obtain ⟨hd, hi, _, _⟩ := h
  unfold smilImageX at hl
  unfold smilImage
  generalize p.image = pi at hi hl
  generalize q.image = qi at hi
  cases hi with
  | none => cases hl; rfl
  | some a c b e hs =>
    simp only [bind, Except.bind] at hl ⊢
    cases a with
    | error e => cases hl
    | ok v =>
      injection hl with hl
      subst hl
      rw [hs v rfl (hb _ (List.mem_singleton.2 rfl))]
      simp only [List.map_cons, List.map_nil, NodeX.lower, hd, List.cons_append, List.nil_append]

theorem chars_strVal (t : PyStr) : charsOf (strVal t) = t.s := by
  unfold strVal
  cases t.uni <;> rfl

theorem bad_strVal (t : PyStr) : badOf (strVal t) = none := by
  unfold strVal
  cases t.uni <;> rfl

theorem textSim {env : Env} {p : PageX} {q : Page} (h : PageSim env p q) {uid : Nat} {o : Option NodeX}
    (ho : smilTextX p uid = .ok o) : smilText env q uid = .ok (o.map NodeX.lower) := by
  obtain ⟨hd, _, hi, _⟩ := h
  unfold smilTextX at ho
  unfold smilText
  generalize p.text = pi at hi ho
  generalize q.text = qi at hi
  cases hi with
  | none => cases ho; rfl
  | some a c b e hs =>
    simp only [bind, Except.bind] at ho ⊢
    cases a with
    | error e => cases ho
    | ok v =>
      rw [hs v rfl]
      injection ho with ho
      subst ho
      simp only [Option.map_some, NodeX.lower, hd, chars_strVal, List.cons_append, List.nil_append]

/-- the elements a page adds -/
def pageNodes (img : List NodeX) (txt audio : Option NodeX) : List NodeX := img ++ txt.toList ++ audio.toList

/-- what a step does -/
inductive Step (st : SmilX) (p : PageX) : SmilX → Prop
  | quiet (img : List NodeX) (txt : Option NodeX) (hi : smilImageX p st.uid = .ok img)
      (ht : smilTextX p (st.uid + 1) = .ok txt) (ha : p.audio = none) :
      Step st p { pars := st.pars ++ [⟨p.duration, img ++ txt.toList⟩], textNode := txt <|> st.textNode, uid := st.uid + 3 }
  | loud (img : List NodeX) (txt : Option NodeX) (hi : smilImageX p st.uid = .ok img)
      (ht : smilTextX p (st.uid + 1) = .ok txt) (src : HVal) (b e : Int) (ha : p.audio = some (.ok src, b, e))
      (t : NodeX) (htn : (txt <|> st.textNode) = some t) :
      Step st p
        { pars := st.pars.map (fun p => { p with kids := removeNodeX t.uid p.kids }) ++
            [⟨p.duration, removeNodeX t.uid (img ++ txt.toList) ++
              [t, { uid := st.uid + 2, tag := py! "audio", src := src, attrs := timing p.duration b e }]⟩],
          textNode := some t, uid := st.uid + 3 }

theorem step_iff (st st' : SmilX) (p : PageX) : smilPageX st p = .ok st' ↔ Step st p st' := by
  constructor
  · intro h
    unfold smilPageX at h
    obtain ⟨img, hi, h⟩ := bind_ok_invE h
    obtain ⟨txt, ht, h⟩ := bind_ok_invE h
    cases ha : p.audio with
    | none =>
      rw [ha] at h
      have := Step.quiet (st := st) img txt hi ht ha
      cases txt <;> (injection h with h; subst h; exact this)
    | some x =>
      obtain ⟨r, b, e⟩ := x
      rw [ha] at h
      obtain ⟨src, hs, h⟩ := bind_ok_invE h
      subst hs
      have := Step.loud (st := st) img txt hi ht src b e ha
      cases txt with
      | none =>
        cases htn : st.textNode with
        | none => rw [htn] at h; cases h
        | some t =>
          rw [htn] at h
          injection h with h
          subst h
          exact this t htn
      | some t =>
        injection h with h
        subst h
        exact this t rfl
  · intro h
    unfold smilPageX
    cases h with
    | quiet img txt hi ht ha =>
      simp only [hi, ht, ha, bind, Except.bind]
      cases txt <;> rfl
    | loud img txt hi ht src b e ha t htn =>
      simp only [hi, ht, ha, bind, Except.bind]
      cases txt with
      | none =>
        have htn : st.textNode = some t := htn
        simp only [htn, Option.toList_none]
      | some t' => cases htn; rfl

end Verif.Mms

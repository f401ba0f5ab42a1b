import Verif.Proofs.Dicts5
/-!
# Deeds leave the others alone, and `encode` does not look at `content_type_parameters`
-/
set_option autoImplicit false

namespace Verif.Mms
open Verif Verif.Spec.Dicts

theorem act_others (w : World) (d : Deed) :
    (∀ r o, w.parts[r]? = some o → (∀ a, d ≠ .part r a) → (act received w d).1.parts[r]? = some o) ∧
    (∀ m h, w.msgs[m]? = some h → (∀ a, d ≠ .msg m a) → (act received w d).1.msgs[m]? = some h) := by
  have app : ∀ {α : Type} {l l' : List α} {i : Nat} {x : α}, l[i]? = some x → (l ++ l')[i]? = some x := by
    intro α l l' i x h
    rw [List.getElem?_append_left (List.getElem?_eq_some_iff.1 h).1]
    exact h
  constructor
  · intro r o h hd
    cases d with
    | newPart => exact app h
    | newPartFile env f =>
      simp only [act]
      split
      · exact h
      · exact app h
    | newMsg => exact h
    | receive data =>
      simp only [act]
      split
      · exact h
      · exact app h
    | part r' a =>
      have hne : r' ≠ r := fun e => hd a (by rw [e])
      simp only [act]
      split
      · exact h
      · split
        · exact h
        · simp only
          rw [List.getElem?_set_ne hne]
          exact h
    | msg m a =>
      simp only [act]
      split
      · exact h
      · split <;> exact h
  · intro m x h hd
    cases d with
    | newPart => exact h
    | newPartFile env f =>
      simp only [act]
      split <;> exact h
    | newMsg => exact app h
    | receive data =>
      simp only [act]
      split
      · exact h
      · exact app h
    | part r' a =>
      simp only [act]
      split
      · exact h
      · split <;> exact h
    | msg m' a =>
      have hne : m' ≠ m := fun e => hd a (by rw [e])
      simp only [act]
      split
      · exact h
      · split
        · exact h
        · simp only
          rw [List.getElem?_set_ne hne]
          exact h

theorem bare_smilPages (env : Env) (l : List Page) : ∀ st, smilPages env st (bare { Msg.new with pages := l }).pages = smilPages env st l := by
  induction l with
  | nil => exact fun _ => rfl
  | cons g l ih =>
    intro st
    have h1 : ∀ st, smilPage env st ((bare { Msg.new with pages := [g] }).pages.head (by simp [bare])) = smilPage env st g := by
      intro st
      obtain ⟨d, i, a, t⟩ := g
      cases i <;> cases a <;> cases t <;> rfl
    have h2 : (bare { Msg.new with pages := g :: l }).pages = (bare { Msg.new with pages := [g] }).pages.head (by simp [bare]) ::
      (bare { Msg.new with pages := l }).pages := rfl
    rw [h2]
    simp only [smilPages, h1]
    cases smilPage env st g with
    | error e => rfl
    | ok st' => exact ih st'

theorem bare_slideParts (l : List Page) :
    slideParts (bare { Msg.new with pages := l }).pages = (slideParts l).map (fun p => { p with ctParams := [] }) := by
  induction l with
  | nil => rfl
  | cons g l ih =>
    have h2 : (bare { Msg.new with pages := g :: l }).pages = (bare { Msg.new with pages := [g] }).pages.head (by simp [bare]) ::
      (bare { Msg.new with pages := l }).pages := rfl
    rw [h2]
    simp only [slideParts, ih, List.map_append, List.map_map]
    congr 1
    obtain ⟨d, i, a, t⟩ := g
    cases i <;> cases a <;> cases t <;> rfl

theorem bare_parts (env : Env) (ord : Dict HVal → Dict HVal) (l : List DataPart) :
    encodeParts env ord (l.map (fun p => { p with ctParams := [] })) = encodeParts env ord l := by
  induction l with
  | nil => rfl
  | cons p l ih =>
    simp only [List.map_cons, encodeParts, ih]
    rfl

theorem bare_numEntries (m : Msg) : numEntries (bare m) = numEntries m := by
  unfold numEntries
  simp only [bare, List.length_map, List.map_map]
  congr 3
  apply List.map_congr_left
  intro g _
  obtain ⟨d, i, a, t⟩ := g
  cases i <;> cases a <;> cases t <;> rfl

theorem bare_body (env : Env) (ord : Dict HVal → Dict HVal) (m : Msg) :
    encodeMessageBody env ord (bare m) = encodeMessageBody env ord m := by
  have h1 : (bare m).smil env = m.smil env := by
    unfold Msg.smil Msg.smilDoc Msg.smilBody
    rw [show (bare m).pages = (bare { Msg.new with pages := m.pages }).pages from rfl, bare_smilPages]
    rfl
  unfold encodeMessageBody
  rw [bare_numEntries, h1]
  rw [show (bare m).pages = (bare { Msg.new with pages := m.pages }).pages from rfl, bare_slideParts]
  have : ∀ smil, encodeParts env ord (smilPart smil :: (slideParts m.pages).map (fun p => { p with ctParams := [] })) =
      encodeParts env ord (smilPart smil :: slideParts m.pages) := by
    intro smil
    simp only [encodeParts, bare_parts]
  simp only [this]

/-- the result of a call, with an object changed -/
def after {α : Type} (f : Msg → Msg) : Res Msg α → Res Msg α
  | .ok a m => .ok a (f m)
  | .err e m => .err e (f m)

theorem bare_delete (h : Str) (m : Msg) : encodeAndDelete h (bare m) = after bare (encodeAndDelete h m) := by
  unfold encodeAndDelete
  simp only [M.bind_apply, M.get_apply]
  rw [show (bare m).headers = m.headers from rfl]
  cases m.headers.index h with
  | error e => rfl
  | ok v =>
    simp only [M.lift_ok]
    cases headerOctets h v with
    | error e => rfl
    | ok l => rfl

theorem bare_header (ord : Dict HVal → Dict HVal) (rnd : Nat) (m : Msg) :
    encodeMessageHeader ord rnd (bare m) = after bare (encodeMessageHeader ord rnd m) := by
  have bind : ∀ {α β : Type} (x : M Msg α) (k : α → M Msg β), (∀ m, x (bare m) = after bare (x m)) →
      (∀ a m, k a (bare m) = after bare (k a m)) → ∀ m, (x >>= k) (bare m) = after bare ((x >>= k) m) := by
    intro α β x k h1 h2 m
    rw [M.bind_apply, M.bind_apply, h1]
    cases x m with
    | ok a m' => exact h2 a m'
    | err e m' => rfl
  unfold encodeMessageHeader
  refine bind _ _ (fun _ => rfl) (fun _ => ?_) m
  refine bind _ _ (bare_delete _) (fun a => ?_)
  refine bind _ _ (bare_delete _) (fun b => ?_)
  refine bind _ _ (bare_delete _) (fun c => ?_)
  intro m
  simp only [M.bind_apply, M.get_apply]
  rw [show (bare m).headers = m.headers from rfl]
  cases encodeRest (ord m.headers) with
  | error e => rfl
  | ok r =>
    simp only [M.lift_ok]
    cases encodeCtHeader m.headers with
    | error e => rfl
    | ok t => rfl

end Verif.Mms

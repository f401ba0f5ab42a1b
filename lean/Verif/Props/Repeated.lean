import Verif.Props.Changing
/-!
# C111, continued: what a call leaves, also one that failed, and calls that are repeated
-/
set_option autoImplicit false

namespace Verif.Props
open Verif Verif.Mms
open Verif.Spec.Changing
open Verif.Spec.Files (Holds)

/-- all but the slides is the same -/
def RestF (s s' : Msg × Nat) : Prop := { s'.1 with pages := s.1.pages } = s.1

theorem restF_refl (s : Msg × Nat) : RestF s s := rfl

theorem restF_tr : ∀ a b c, RestF a b → RestF b c → RestF a c := by
  intro a b c h h'
  obtain ⟨⟨a1, a2, a3, a4, a5, a6⟩, ta⟩ := a
  obtain ⟨⟨b1, b2, b3, b4, b5, b6⟩, tb⟩ := b
  obtain ⟨⟨c1, c2, c3, c4, c5, c6⟩, tc⟩ := c
  simp only [RestF, Msg.mk.injEq] at h h' ⊢
  obtain ⟨_, h2, h3, h4, h5, h6⟩ := h
  obtain ⟨_, g2, g3, g4, g5, g6⟩ := h'
  exact ⟨trivial, g2.trans h2, g3.trans h3, g4.trans h4, g5.trans h5, g6.trans h6⟩

theorem rest_smilT (w : World) : Fil RestF (smilT w) := by
  intro s
  unfold Mms.smilT
  cases h : eachPageT (Mms.smilPageT w) { pars := [], textNode := none, uid := 0 } s.1.pages s.2 <;> rfl

theorem rest_bodyT (w : World) (ord : Dict HVal → Dict HVal) : Fil RestF (encodeMessageBodyT w ord) := by
  unfold encodeMessageBodyT
  refine .bind restF_tr (fun s => restF_refl s) fun s => .bind restF_tr (.lift restF_refl _) fun a =>
    .bind restF_tr (rest_smilT w) fun smil => ?_
  intro s
  obtain ⟨x, hx⟩ := encodePartT_smil w ord smil s.2
  simp only
  rw [hx]
  cases x with
  | error e => exact restF_refl s
  | ok b =>
    simp only
    cases h : eachPageT (Mms.encodePageT w ord) (a ++ b) s.1.pages s.2 <;> rfl

theorem fill_sent {w : World} {t t' : Nat} {l l' : List Page} (h : FillPages w t t' l l') :
    List.Forall₂ (PageRel (fun p q => q = p ∨ Sent w (fun u => t ≤ u ∧ u < t') p q)) l l' := by
  have slot : ∀ {x y : Option (DataPart × Int × Int)}, FillSlot w t t' x y →
      SlotRel (fun p q => q = p ∨ Sent w (fun u => t ≤ u ∧ u < t') p q) x y := by
    intro x y h
    cases h with
    | none => exact .none
    | some z h =>
      refine .some _ _ z ?_
      rcases h with rfl | ⟨f, d, u, a, b, c, e, g, rfl⟩
      · exact .inl rfl
      · exact .inr (.read f d u a b ⟨c, e⟩ g)
  exact h.imp fun _ _ h => ⟨h.duration, slot h.image, slot h.audio, slot h.text⟩

/-- C111: whatever happens to the files and whether or not the call succeeds, no slide and no part is lost: each part is as
it was, or holds now what its file contained at a moment of the call; and the rest of the message is what it is after any
other call. -/
theorem C111_kept (w : World) (ord : Dict HVal → Dict HVal) (rnd t : Nat) (m m' : Msg) (t' : Nat)
    (h : (encodeT w ord rnd (m, t)).state = (m', t')) :
    t ≤ t' ∧ List.Forall₂ (PageRel (fun p q => q = p ∨ Sent w (fun u => t ≤ u ∧ u < t') p q)) m.pages m'.pages ∧
    ∀ env, { m' with pages := m.pages } = (encode env ord rnd m).state := by
  have h1 : PagesF w (m.pages, t) (m'.pages, t') := by
    have := Fil.encodeT w ord rnd (m, t)
    rw [h] at this
    exact this
  refine ⟨h1.1, fill_sent h1.2, fun env => ?_⟩
  have hk := headerPages_kept (ord := ord) (rnd := rnd) m
  unfold Mms.encodeT at h
  unfold Mms.encode
  rw [M.bind_apply] at h ⊢
  simp only at h
  cases hh : encodeMessageHeader ord rnd m with
  | err e m1 =>
    rw [hh] at h hk
    simp only [Res.state, Prod.mk.injEq] at h ⊢
    rw [← h.1, ← show m1.pages = m.pages from hk]
  | ok a m1 =>
    rw [hh] at h hk
    have hk : m1.pages = m.pages := hk
    have e1 : ((do let m ← M.get; let b ← M.lift (encodeMessageBody env ord m); pure (a ++ b) : M Msg (List Nat)) m1).state
        = m1 := by
      rw [M.bind_apply]
      simp only [M.get]
      rw [M.bind_apply]
      cases encodeMessageBody env ord m1 <;> rfl
    simp only
    rw [e1, ← hk]
    have h2 : RestF (m1, t) (((do let b ← encodeMessageBodyT w ord; pure (a ++ b) : M (Msg × Nat) (List Nat)) (m1, t)).state) :=
      Fil.bind (F := RestF) (k := fun b => pure (a ++ b)) restF_tr (rest_bodyT w ord) (fun b s => restF_refl s) (m1, t)
    simp only at h
    rw [h] at h2
    exact h2

theorem snapshot_after {w : World} {P Q R : Nat → Prop} (hP : ∀ u, P u → R u) (hQ : ∀ u, Q u → R u) {p q r : DataPart}
    (h : q = p ∨ Sent w P p q) (h' : Snapshot w Q q r) : Snapshot w R p r := by
  have mono : ∀ {p r}, Snapshot w Q p r → Snapshot w R p r := by
    intro p r h
    cases h with
    | own h => exact .own h
    | kept d h => exact .kept d h
    | read f d t h hd ht hc => exact .read f d t h hd (hQ t ht) hc
  rcases h with rfl | h
  · exact mono h'
  · cases h with
    | own h => exact mono h'
    | kept d h => exact mono h'
    | read f d u a b c e =>
      cases h' with
      | own h => rw [show p.filename = none from h] at a; cases a
      | kept d' h => exact .read f d u a b (hP u c) e
      | read f' d' u' _ hd' => cases hd'

theorem snapPages_after {w : World} {P Q R : Nat → Prop} (hP : ∀ u, P u → R u) (hQ : ∀ u, Q u → R u) :
    ∀ {l l' l'' : List Page}, List.Forall₂ (PageRel (fun p q => q = p ∨ Sent w P p q)) l l' →
      List.Forall₂ (PageRel (Snapshot w Q)) l' l'' → List.Forall₂ (PageRel (Snapshot w R)) l l'' := by
  have slot : ∀ {x y z : Option (DataPart × Int × Int)}, SlotRel (fun p q => q = p ∨ Sent w P p q) x y →
      SlotRel (Snapshot w Q) y z → SlotRel (Snapshot w R) x z := by
    intro x y z h h'
    cases h with
    | none => cases h'; exact .none
    | some p q i h =>
      cases h' with
      | some _ r _ h' => exact .some p r i (snapshot_after hP hQ h h')
  intro l l' l'' h h'
  induction h generalizing l'' with
  | nil => cases h'; exact .nil
  | cons a b ih =>
    cases h' with
    | cons c d =>
      exact .cons ⟨c.duration.trans a.duration, slot a.image c.image, slot a.audio c.audio, slot a.text c.text⟩ (ih d)

/-- C111: a call can be repeated, also one that failed, be it because a file was missing, whatever happened to the files
before: while from then on no file changes its size, the octets, or the exception, are those of a message whose parts
hold what their files contained at some moment of one of the two calls. -/
theorem C111_again (w : World) (ord ord' : Dict HVal → Dict HVal) (rnd rnd' t t' t2 : Nat) (m m' : Msg)
    (h : (encodeT w ord rnd (m, t)).state = (m', t')) (hs : ∀ p, Holds m' p → Steady w t2 p) :
    ∃ ps, List.Forall₂ (PageRel (Snapshot w (fun u => (t ≤ u ∧ u < t') ∨ During w ord' rnd' m' t2 u))) m.pages ps ∧
      ∀ env, (encode env ord' rnd' { m' with pages := ps }).val = (encodeT w ord' rnd' (m', t2)).val := by
  obtain ⟨ps, h1, h2⟩ := C111_snapshot_partial w ord' rnd' t2 m' hs
  exact ⟨ps, snapPages_after (fun u h => .inl h) (fun u h => .inr h) (C111_kept w ord rnd t m m' t' h).2.1 h1, h2⟩

/-! ### a file that appears only after the first call -/

/-- no file up to the moment 5 -/
def appears : World := fun u => if u < 5 then { size := fun _ => none, content := fun _ => none }
  else { size := fun _ => some 1, content := fun _ => some [u] }

example : (encodeT appears id 7 (fileMsg, 0)).val = .error .osError := by decide +kernel

theorem appears_state : (encodeT appears id 7 (fileMsg, 0)).state.1.pages = fileMsg.pages ∧
    (encodeT appears id 7 (fileMsg, 0)).state.2 = 1 := by decide +kernel

theorem appears_steady : ∀ p, Holds (encodeT appears id 7 (fileMsg, 0)).state.1 p → Steady appears 5 p := by
  rintro p ⟨s, hs, x, hx⟩
  rw [appears_state.1] at hs
  simp only [fileMsg, List.mem_singleton] at hs
  subst hs
  have key : ∀ u, 5 ≤ u → appears u = { size := fun _ => some 1, content := fun _ => some [u] } := by
    intro u hu
    unfold appears
    rw [if_neg (by omega)]
  rcases hx with hx | hx | hx
  · cases hx
    refine fun f _ => ⟨fun d hd => (by cases hd), fun _ => ⟨1, fun u hu => ?_⟩⟩
    rw [key u hu]
    exact ⟨rfl, [u], rfl, rfl⟩
  · cases hx
  · cases hx

/-- the second call sends the photo -/
example := C111_again appears id id 7 8 0 _ 5 fileMsg _ rfl appears_steady

example := C111_kept appears id 7 0 fileMsg _ _ rfl

example : (receivedData (encodeT appears id 8 ((encodeT appears id 7 (fileMsg, 0)).state.1, 5)).val).map (fun l => l.drop 1)
    = some [some [6]] := by decide +kernel

end Verif.Props

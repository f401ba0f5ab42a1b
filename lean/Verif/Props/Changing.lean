import Verif.Proofs.Changing2
import Verif.Props.Files
/-!
# C111: files that change while a message is encoded
-/
set_option autoImplicit false

namespace Verif.Props
open Verif Verif.Mms
open Verif.Spec.Changing
open Verif.Spec.Files (Holds)

/-- the moments of a call that begins at `t`: the first, and all before the last -/
def During (w : World) (ord : Dict HVal → Dict HVal) (rnd : Nat) (m : Msg) (t u : Nat) : Prop :=
  t ≤ u ∧ (u = t ∨ u < (encodeT w ord rnd (m, t)).state.2)

/-- Every message that is sent is one that could have been sent with nothing changing: for every part there is a moment
of the call such that what is sent is what is sent for a message whose parts hold what their files contained at these
moments. -/
def C111_full : Prop := ∀ (w : World) (ord : Dict HVal → Dict HVal) (rnd t : Nat) (m : Msg) (o : List Nat) (s : Msg × Nat),
  encodeT w ord rnd (m, t) = .ok o s →
  ∃ ps, List.Forall₂ (PageRel (Snapshot w (During w ord rnd m t))) m.pages ps ∧
    ∀ env, (encode env ord rnd { m with pages := ps }).val = .ok o

theorem fill_snapshot {w : World} {t t' : Nat} {P : Nat → Prop} (hP : ∀ u, t ≤ u → u = t ∨ u < t' → P u) {p p' : DataPart}
    (hs : Steady w t p) (h : FillAt w t t' p p') : Snapshot w P p (frozen w t p') := by
  rcases h with rfl | ⟨f, d, u, a, b, c, e, g, rfl⟩
  · unfold frozen
    cases hf : p'.filename with
    | none => exact .own hf
    | some f =>
      simp only
      cases hd : p'.data with
      | some d =>
        have := Snapshot.kept (w := w) (P := P) d hd
        rw [hd] at this
        exact this
      | none =>
        obtain ⟨n, hn⟩ := (hs f hf).2 hd
        obtain ⟨_, d, e1, _⟩ := hn t (Nat.le_refl _)
        simp only
        rw [e1]
        exact .read f d t hf hd (hP t (Nat.le_refl _) (.inl rfl)) e1
  · have : frozen w t { p with data := some d } = { p with filename := none, data := some d } := by
      unfold frozen
      simp only [a]
    rw [this]
    exact .read f d u a b (hP u c (.inr e)) g

theorem fill_snapPages {w : World} {t t' : Nat} {P : Nat → Prop} (hP : ∀ u, t ≤ u → u = t ∨ u < t' → P u)
    {l l' : List Page} (hs : ∀ p ∈ l, ∀ q, slideHas p q → Steady w t q) (h : FillPages w t t' l l') :
    List.Forall₂ (PageRel (Snapshot w P)) l (l'.map (frozenPage w t)) := by
  have slot : ∀ {x y : Option (DataPart × Int × Int)}, (∀ q z, x = some (q, z) → Steady w t q) → FillSlot w t t' x y →
      SlotRel (Snapshot w P) x (frozenSlot w t y) := by
    intro x y hx h
    cases h with
    | none => exact .none
    | some z h => exact .some _ _ z (fill_snapshot hP (hx _ _ rfl) h)
  induction h with
  | nil => exact .nil
  | cons h _ ih =>
    refine .cons ⟨h.duration, slot (fun q z e => hs _ (by simp) q ⟨z, .inl e⟩) h.image,
      slot (fun q z e => hs _ (by simp) q ⟨z, .inr (.inl e)⟩) h.audio,
      slot (fun q z e => hs _ (by simp) q ⟨z, .inr (.inr e)⟩) h.text⟩ (ih fun p hp => hs p (by simp [hp]))

/-- C111: while no file changes its size, whatever else other programs do to the files during the call, the octets, or
the exception, are those of a message whose parts hold what their files contained at some moment of the call.  Missing:
files whose sizes change (`C111_refuted`). -/
theorem C111_snapshot_partial (w : World) (ord : Dict HVal → Dict HVal) (rnd t : Nat) (m : Msg)
    (hs : ∀ p, Holds m p → Steady w t p) :
    ∃ ps, List.Forall₂ (PageRel (Snapshot w (During w ord rnd m t))) m.pages ps ∧
      ∀ env, (encode env ord rnd { m with pages := ps }).val = (encodeT w ord rnd (m, t)).val := by
  have hg : PagesGood w t (m.pages, t) := ⟨Nat.le_refl _, fun p hp q ⟨x, hx⟩ => hs q ⟨p, hp, x, hx⟩⟩
  refine ⟨_, fill_snapPages (fun u h1 h2 => ⟨h1, h2⟩) hg.2
    (encodeT_sim w { files := fun _ => none, mime := fun _ => none } ord rnd m t hg).1.2, fun env => ?_⟩
  exact (encodeT_sim w env ord rnd m t hg).2

/-- C111: after a message was sent every part holds its contents; those of a part that held nothing were in its file at a
moment of the call, and nothing else about the slides is changed. -/
theorem C111_reads (w : World) (ord : Dict HVal → Dict HVal) (rnd t t' : Nat) (m m' : Msg) (o : List Nat)
    (h : encodeT w ord rnd (m, t) = .ok o (m', t')) :
    List.Forall₂ (PageRel (Sent w (fun u => t ≤ u ∧ u < t'))) m.pages m'.pages := by
  have h1 : PagesF w (m.pages, t) (m'.pages, t') := by
    have := Fil.encodeT w ord rnd (m, t)
    rw [h] at this
    exact this
  have h2 := encodeT_full h
  have h1 : FillPages w t t' m.pages m'.pages := h1.2
  simp only at h2
  revert h2
  generalize m.pages = l at h1 ⊢
  generalize m'.pages = l' at h1 ⊢
  intro h2
  have slot : ∀ {x y : Option (DataPart × Int × Int)}, (∀ q z, y = some (q, z) → PartFull q) → FillSlot w t t' x y →
      SlotRel (Sent w (fun u => t ≤ u ∧ u < t')) x y := by
    intro x y hy h
    cases h with
    | none => exact .none
    | some z h =>
      refine .some _ _ z ?_
      have := hy _ _ rfl
      rcases h with rfl | ⟨f, d, u, a, b, c, e, g, rfl⟩
      · rcases this with h | ⟨d, h⟩
        · exact .own h
        · exact .kept d h
      · exact .read f d u a b ⟨c, e⟩ g
  induction h1 with
  | nil => exact .nil
  | cons h _ ih =>
    exact .cons ⟨h.duration, slot (fun q z e => h2 _ (by simp) q ⟨z, .inl e⟩) h.image,
      slot (fun q z e => h2 _ (by simp) q ⟨z, .inr (.inl e)⟩) h.audio,
      slot (fun q z e => h2 _ (by simp) q ⟨z, .inr (.inr e)⟩) h.text⟩ (ih fun p hp => h2 p (by simp [hp]))

theorem pageRel_holds {R : DataPart → DataPart → Prop} {l l' : List Page} (h : List.Forall₂ (PageRel R) l l') {s : Page}
    (hs : s ∈ l) {p : DataPart} (hp : slideHas s p) : ∃ q, R p q := by
  induction h with
  | nil => cases hs
  | cons h _ ih =>
    rcases List.mem_cons.1 hs with rfl | hs
    · have slot : ∀ {x y : Option (DataPart × Int × Int)} {z}, x = some (p, z) → SlotRel R x y → ∃ q, R p q := by
        intro x y z hx h
        cases h with
        | none => cases hx
        | some p q z h => cases hx; exact ⟨q, h⟩
      obtain ⟨z, hz | hz | hz⟩ := hp
      · exact slot hz h.image
      · exact slot hz h.audio
      · exact slot hz h.text
    · exact ih hs

/-- C111: a message with a part that holds nothing and whose file can never be read is never sent, as an incomplete one or
otherwise: the call raises an exception. -/
theorem C111_unreadable (w : World) (ord : Dict HVal → Dict HVal) (rnd t : Nat) (m : Msg) (p : DataPart) (f : Str)
    (hp : Holds m p) (hf : p.filename = some f) (hd : p.data = none) (hc : ∀ u, t ≤ u → (w u).content f = none) :
    ∃ e s, encodeT w ord rnd (m, t) = .err e s := by
  cases h : encodeT w ord rnd (m, t) with
  | err e s => exact ⟨e, s, rfl⟩
  | ok o s =>
    exfalso
    obtain ⟨m', t'⟩ := s
    obtain ⟨s, hs, x, hx⟩ := hp
    obtain ⟨q, hq⟩ := pageRel_holds (C111_reads w ord rnd t t' m m' o h) hs ⟨x, hx⟩
    cases hq with
    | own h => rw [h] at hf; cases hf
    | kept d h => rw [h] at hd; cases hd
    | read f' d u h1 h2 h3 h4 =>
      rw [hf] at h1
      injection h1 with h1
      subst h1
      rw [hc u h3.1] at h4
      cases h4

/-- C111: while nothing changes and every file can be read, this is the encoding of C67, at every moment: the same
octets or exception, and the same message afterwards. -/
theorem C111_agrees (env : Env) (ord : Dict HVal → Dict HVal) (rnd t : Nat) (m : Msg) :
    (encodeT (still env) ord rnd (m, t)).val = (encodeC env ord rnd m).val ∧
    (encodeT (still env) ord rnd (m, t)).state.1 = (encodeC env ord rnd m).state := by
  obtain ⟨t', h⟩ := Timed.encodeT env ord rnd m t
  rw [h]
  cases encodeC env ord rnd m <;> exact ⟨rfl, rfl⟩

/-- C111: what is sent for a part with a file, whatever happens: the contents, announced with the size the file had at the
moment before they were read, or, for a part that holds its contents already, the size the file has by then. -/
theorem C111_part (w : World) (env : Env) (ord : Dict HVal → Dict HVal) (p : DataPart) (t n : Nat) (f d : Str) (o : List Nat)
    (hf : p.filename = some f) (hn : (w t).size f = some n)
    (hd : p.data = some d ∨ p.data = none ∧ (w (t + 1)).content f = some d)
    (h : encodePart env ord { p with filename := none, data := some d } = .ok o) :
    ∃ k head, o = Spec.Wsp.uintvar k ++ Spec.Wsp.uintvar d.length ++ head ++ d ∧
      (encodePartT w ord (p, t)).val = .ok (Spec.Wsp.uintvar k ++ Spec.Wsp.uintvar n ++ head ++ d) := by
  have hl : lenT w (p, t) = .ok n (p, t + 1) := by
    unfold lenT
    simp only [hf, hn]
  have hg : ∃ s, getDataT w (p, t + 1) = .ok d s := by
    unfold getDataT
    rcases hd with hd | ⟨hd, hc⟩
    · simp only [hd]; exact ⟨_, rfl⟩
    · simp only [hd, hf, hc]; exact ⟨_, rfl⟩
  obtain ⟨s, hg⟩ := hg
  unfold encodePart at h
  unfold encodePartT
  rw [M.bind_apply]
  simp only [M.get, DataPart.len, DataPart.readData] at h ⊢
  cases h0 : p.headers.index (py! "Content-Type") with
  | error e => rw [h0] at h; cases h
  | ok v =>
  rw [h0] at h
  rw [M.bind_apply]
  simp only [bind_ok_eq, M.lift_ok] at h ⊢
  cases h1 : encodeCtPair v with
  | error e => rw [h1] at h; cases h
  | ok ct =>
  rw [h1] at h
  rw [M.bind_apply]
  simp only [bind_ok_eq, M.lift_ok] at h ⊢
  cases h2 : encodePartHeaders (ord p.headers) with
  | error e => rw [h2] at h; cases h
  | ok hs =>
  rw [h2] at h
  rw [M.bind_apply]
  have e1 : ((ct.length : Int) + hs.length) = ((ct.length + hs.length : Nat) : Int) := by push_cast; rfl
  simp only [bind_ok_eq, M.lift_ok, e1, uintVar_octets] at h ⊢
  rw [M.bind_apply]
  simp only [M.lift_ok]
  rw [M.bind_apply, hl]
  simp only
  rw [M.bind_apply]
  simp only [M.lift_ok]
  rw [M.bind_apply]
  cases h3 : toOctets ct with
  | error e => rw [h3] at h; cases h
  | ok c =>
  rw [h3] at h
  simp only [bind_ok_eq, M.lift_ok] at h ⊢
  rw [M.bind_apply]
  cases h4 : toOctets hs with
  | error e => rw [h4] at h; cases h
  | ok e =>
  rw [h4] at h
  simp only [bind_ok_eq, M.lift_ok] at h ⊢
  rw [M.bind_apply, hg]
  injection h with h
  refine ⟨ct.length + hs.length, c ++ e, ?_, ?_⟩
  · rw [← h]
    simp only [List.append_assoc]
  · simp only [List.append_assoc]
    rfl

/-! ### a file that grows between the two accesses -/

/-- the photo has one octet at first and two octets from the moment 1 on -/
def grown : World := fun u => if u = 0 then { size := fun _ => some 1, content := fun _ => some [1] }
  else { size := fun _ => some 2, content := fun _ => some [2, 3] }

/-- the photo with given contents -/
def heldMsg (d : Str) : Msg := { Msg.new with pages := [{ Page.new with image := some (
  { DataPart.new with
    headers := [(py! "Content-Location", .v (.str (py! "a.jpg"))), (py! "Content-Type", .ct (py! "image/jpeg") [])]
    data := some d }, 0, 0) }] }

/-- whether two results are the same octets -/
def sameOctets : Py (List Nat) → Py (List Nat) → Bool
  | .ok a, .ok b => a == b
  | _, _ => false

theorem torn_differs (d : Str) (h : d = [1] ∨ d = [2, 3]) :
    sameOctets (encodeT grown id 7 (fileMsg, 0)).val (encode (fileEnv []) id 7 (heldMsg d)).val = false ∧
    sameOctets (encodeT grown id 7 (fileMsg, 0)).val (encodeT grown id 7 (fileMsg, 0)).val = true := by
  rcases h with rfl | rfl <;> decide +kernel

theorem grown_content {u : Nat} {f d : Str} (h : (grown u).content f = some d) : d = [1] ∨ d = [2, 3] := by
  unfold grown at h
  split at h
  · injection h with h; exact .inl h.symm
  · injection h with h; exact .inr h.symm

/-- a photo that is replaced by a larger one between the question for its size and the reading of its contents -/
theorem C111_refuted : ¬ C111_full := by
  intro hfull
  cases hr : encodeT grown id 7 (fileMsg, 0) with
  | err e s =>
    have := (torn_differs [1] (.inl rfl)).2
    rw [hr] at this
    cases this
  | ok o s =>
    obtain ⟨ps, h1, h2⟩ := hfull grown id 7 0 fileMsg o s hr
    have key : ∃ d, (d = [1] ∨ d = [2, 3]) ∧ ({ fileMsg with pages := ps } : Msg) = heldMsg d := by
      obtain ⟨p, r, e1, e2, rfl⟩ := List.forall₂_cons_left_iff.1 h1
      have := List.forall₂_nil_left_iff.1 e2
      subst this
      obtain ⟨du, im, au, tx⟩ := p
      obtain ⟨g0, g1, g2, g3⟩ := e1
      simp only [fileMsg] at g0 g1 g2 g3
      cases g2
      cases g3
      cases g1 with
      | some _ q x h =>
        cases h with
        | own h => cases h
        | kept d h => cases h
        | read f d u a b c e =>
          refine ⟨d, grown_content e, ?_⟩
          subst g0
          rfl
    obtain ⟨d, hd, e⟩ := key
    have h3 := h2 (fileEnv [])
    rw [e] at h3
    have h4 := torn_differs d hd
    rw [hr, h3] at h4
    have := h4.1.symm.trans h4.2
    cases this

/-- the contents of the parts of a received message -/
def receivedData : Py (List Nat) → Option (List (Option Str))
  | .ok o => match decodeData o with
    | .ok m => some (m.dataParts.map (fun p => p.data))
    | .error _ => none
  | .error _ => none

/-- what the recipient gets for the photo: an octet that was not in the file when its size was asked for, and not all of
those that were in it afterwards -/
example : (receivedData (encodeT grown id 7 (fileMsg, 0)).val).map (fun l => l.drop 1) = some [some [2]] := by decide +kernel

/-- nothing is lost when the sizes stay -/
def swapped : World := fun u => { size := fun _ => some 1, content := fun _ => some [u] }

theorem fileMsg_steady : ∀ p, Holds fileMsg p → Steady swapped 0 p := by
  rintro p ⟨s, hs, x, hx⟩
  simp only [fileMsg, List.mem_singleton] at hs
  subst hs
  rcases hx with hx | hx | hx
  · cases hx
    exact fun f _ => ⟨fun d hd => (by cases hd), fun _ => ⟨1, fun u _ => ⟨rfl, [u], rfl, rfl⟩⟩⟩
  · cases hx
  · cases hx

example := C111_snapshot_partial swapped id 7 0 fileMsg fileMsg_steady

/-- the contents are those of the second access -/
example : (receivedData (encodeT swapped id 7 (fileMsg, 0)).val).map (fun l => l.drop 1) = some [some [1]] := by decide +kernel

/-- a file that may not be read -/
example : ∃ e s, encodeT (fun _ => { size := fun _ => some 3, content := fun _ => none }) id 7 (fileMsg, 0) = .err e s :=
  C111_unreadable _ id 7 0 fileMsg _ (py! "/tmp/a.jpg") ⟨_, List.mem_singleton.2 rfl, (0, 0), .inl rfl⟩ rfl rfl (fun _ _ => rfl)

example : ∃ o s, encodeT swapped id 7 (fileMsg, 0) = .ok o s ∧
    List.Forall₂ (PageRel (Sent swapped (fun u => 0 ≤ u ∧ u < s.2))) fileMsg.pages s.1.pages := by
  cases h : encodeT swapped id 7 (fileMsg, 0) with
  | ok o s => exact ⟨o, s, rfl, C111_reads swapped id 7 0 s.2 fileMsg s.1 o h⟩
  | err e s =>
    have : sameOctets (encodeT swapped id 7 (fileMsg, 0)).val (encodeT swapped id 7 (fileMsg, 0)).val = true := by decide +kernel
    rw [h] at this
    cases this

/-- one octet is announced, two are sent -/
example := C111_part grown (fileEnv []) id { DataPart.new with
    headers := [(py! "Content-Location", .v (.str (py! "a.jpg"))), (py! "Content-Type", .ct (py! "image/jpeg") [])]
    filename := some (py! "/tmp/a.jpg") } 0 1 (py! "/tmp/a.jpg") [2, 3] [8, 2, 158, 142, 97, 46, 106, 112, 103, 0, 2, 3]
  rfl rfl (.inr ⟨rfl, rfl⟩) (by decide +kernel)

example := C111_agrees (fileEnv [1, 2, 3]) id 7 5 fileMsg

end Verif.Props

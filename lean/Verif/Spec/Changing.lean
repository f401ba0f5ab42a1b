import Verif.Model.Changing
/-!
# Specification: messages whose files change while they are encoded, and files that change while they are decoded

Only the data types of the library (messages, slides, parts) and the disk at each moment are taken from the model.
-/
set_option autoImplicit false

namespace Verif.Spec.Changing
open Verif Verif.Mms

/-- The part as it would be if it held its contents itself: what it holds, if it holds anything; otherwise what its file
contained at one of the moments `P`. -/
inductive Snapshot (w : World) (P : Nat → Prop) (p : DataPart) : DataPart → Prop
  | own (h : p.filename = none) : Snapshot w P p p
  | kept (d : Str) (h : p.data = some d) : Snapshot w P p { p with filename := none }
  | read (f d : Str) (t : Nat) (h : p.filename = some f) (hd : p.data = none) (ht : P t) (hc : (w t).content f = some d) :
      Snapshot w P p { p with filename := none, data := some d }

/-- The part after it was sent: as before, if it holds its contents; otherwise it now holds what its file contained at one
of the moments `P`. -/
inductive Sent (w : World) (P : Nat → Prop) (p : DataPart) : DataPart → Prop
  | own (h : p.filename = none) : Sent w P p p
  | kept (d : Str) (h : p.data = some d) : Sent w P p p
  | read (f d : Str) (t : Nat) (h : p.filename = some f) (hd : p.data = none) (ht : P t) (hc : (w t).content f = some d) :
      Sent w P p { p with data := some d }

/-- the parts in two slots are related by `R`; the times are the same -/
inductive SlotRel (R : DataPart → DataPart → Prop) :
    Option (DataPart × Int × Int) → Option (DataPart × Int × Int) → Prop
  | none : SlotRel R none none
  | some (p q : DataPart) (x : Int × Int) (h : R p q) : SlotRel R (some (p, x)) (some (q, x))

/-- two slides whose parts are related by `R` -/
structure PageRel (R : DataPart → DataPart → Prop) (p q : Page) : Prop where
  duration : q.duration = p.duration
  image : SlotRel R p.image q.image
  audio : SlotRel R p.audio q.audio
  text : SlotRel R p.text q.text

/-- From the moment `t` on the file of the part has the size of what the part holds, or, if the part holds nothing yet, can
always be read and always has the same size, which is that of its contents.  The contents may change. -/
def Steady (w : World) (t : Nat) (p : DataPart) : Prop := ∀ f, p.filename = some f →
  (∀ d, p.data = some d → ∀ u, t ≤ u → (w u).size f = some d.length) ∧
  (p.data = none → ∃ n, ∀ u, t ≤ u → (w u).size f = some n ∧ ∃ d, (w u).content f = some d ∧ d.length = n)

/-- the world in which nothing ever changes and every file can be read -/
def still (env : Env) : World := fun _ => { size := fun f => (env.files f).map List.length, content := env.files }

/-- Another program is writing `o` to the file `f`: at every moment from `t` on the file has a beginning of `o`, and never
loses any of it. -/
structure Growing (w : World) (t : Nat) (f : Str) (o : List Nat) : Prop where
  /-- how much is there -/
  there : ∀ u, t ≤ u → ∃ k ≤ o.length, (w u).size f = some k ∧ (w u).content f = some (o.take k)
  more : ∀ u v k l, t ≤ u → u ≤ v → (w u).size f = some k → (w v).size f = some l → k ≤ l

end Verif.Spec.Changing

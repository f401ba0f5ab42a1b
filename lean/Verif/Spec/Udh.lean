import Verif.Spec.Deliver
import Verif.Model.Py
/-!
# Specification: user data headers of any octets

A tolerant reader of information elements, for octets that need not be well formed.
-/
set_option autoImplicit false

namespace Verif.Spec.Udh
open Verif Verif.Spec.Sms

/-- the elements whose contents are known have the contents: exactly three octets (8-bit reference), at least four (16-bit
reference, 16-bit ports), exactly two (8-bit ports) -/
def Fits (e : Element) : Prop :=
  (e.id = 0 → e.payload.length = 3) ∧ (e.id = 8 → 4 ≤ e.payload.length) ∧ (e.id = 4 → e.payload.length = 2) ∧
    (e.id = 5 → 4 ≤ e.payload.length)

/-- the octets that count -/
def counted (e : Element) : Element := if e.id = 8 ∨ e.id = 5 then ⟨e.id, e.payload.take 4⟩ else e

/-- How any octets are read: the elements up to the end or to the first obstacle, and the exception it raises.  The last
element may have fewer octets than it announces. -/
inductive Reading : List Nat → List Element → Option PyErr → Prop
  | done : Reading [] [] none
  | lone (id : Nat) : Reading [id] [] (some .indexError)
  | unfit (id len : Nat) (rest : List Nat) (h : ¬ Fits ⟨id, rest.take len⟩) :
    Reading (id :: len :: rest) [] (some (if id = 0 ∨ id = 4 then .valueError else .indexError))
  | element (id len : Nat) (rest : List Nat) (els : List Element) (r : Option PyErr) (h : Fits ⟨id, rest.take len⟩)
    (ht : Reading (rest.drop len) els r) : Reading (id :: len :: rest) (⟨id, rest.take len⟩ :: els) r

end Verif.Spec.Udh

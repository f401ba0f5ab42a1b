import Verif.Spec.Accepted
/-!
# Specification: beginnings of a received short message that are taken for a whole one
-/
set_option autoImplicit false

namespace Verif.Spec.CutSms
open Verif.Spec Verif.Spec.Sms Verif.Spec.Accepted

/-- an information element: identifier and data -/
structure Element where
  id : Nat
  data : List Nat

/-- octets of information elements -/
def octets : List Element → List Nat
  | [] => []
  | e :: r => e.id :: e.data.length :: (e.data ++ octets r)

/-- the header is cut after `k` octets, and nobody notices: between two elements, or inside the data of an element that
is neither a concatenation nor a port element with too little data left -/
inductive Between : List Element → Nat → Prop
  | here (l : List Element) : Between l 0
  | inside (e : Element) (r : List Element) (k : Nat) : k < e.data.length → e.id ≠ 0 → e.id ≠ 4 →
      (e.id = 5 ∨ e.id = 8 → 4 ≤ k) → Between (e :: r) (k + 2)
  | later (e : Element) (r : List Element) (k : Nat) : Between r k → Between (e :: r) (e.data.length + 2 + k)

/-- user data with header `l`, cut after `k` octets: in the header, or (with two octets per character) between two
characters -/
def Unnoticed (l : List Element) (ucs2 : Bool) (k : Nat) : Prop :=
  0 < k ∧ (Between l (k - 1) ∨ (octets l).length < k ∧ (ucs2 → (k - 1 - (octets l).length) % 2 = 0))

end Verif.Spec.CutSms

import Verif.Spec.Relay
import Verif.Model.Deliver
/-!
# Specification: putting long messages together

What a program does with the decoded messages in its inbox, in whatever order they came.
-/
set_option autoImplicit false

namespace Verif.Spec.Inbox
open Verif.Deliver (Data)

/-- a part, with the given position, of the message with this sender, reference and number of parts -/
def IsPart (num : Option (List Nat)) (ref cnt seq : Nat) (d : Data) : Prop := d.number = num ∧ d.concat = some (ref, cnt, seq)

instance (num : Option (List Nat)) (ref cnt seq : Nat) (d : Data) : Decidable (IsPart num ref cnt seq d) :=
  inferInstanceAs (Decidable (_ ∧ _))

/-- the text of the part with this position, if there is exactly one in the inbox -/
def part (inbox : List Data) (num : Option (List Nat)) (ref cnt seq : Nat) : Option (List Nat) :=
  match inbox.filter (fun d => IsPart num ref cnt seq d) with
  | [d] => d.text
  | _ => none

/-- the texts of the parts 1 to `k`, joined -/
def join (inbox : List Data) (num : Option (List Nat)) (ref cnt : Nat) : Nat → Option (List Nat)
  | 0 => some []
  | k + 1 =>
    match join inbox num ref cnt k, part inbox num ref cnt (k + 1) with
    | some a, some b => some (a ++ b)
    | _, _ => none

/-- the text of the message with this sender, reference and number of parts, if all its parts are in the inbox -/
def assemble (inbox : List Data) (num : Option (List Nat)) (ref cnt : Nat) : Option (List Nat) := join inbox num ref cnt cnt

end Verif.Spec.Inbox

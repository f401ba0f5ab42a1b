import Verif.Spec.Sender
/-!
# Specification: data in several messages (3GPP TS 23.040 section 9.2.3.24.1)
-/
set_option autoImplicit false

namespace Verif.Spec.Sms

/-- what a receiver makes of `n` fragments, given as pairs of number and contents in the order of arrival: the contents
of number 1, then of number 2, and so on -/
def assemble (n : Nat) (parts : List (Nat × List Nat)) : List Nat :=
  (List.range n).flatMap fun i => (parts.filter fun x => x.1 = i + 1).flatMap (·.2)

end Verif.Spec.Sms

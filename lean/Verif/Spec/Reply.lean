import Verif.Spec.Submit
import Verif.Spec.Sender
/-!
# Specification: where a message goes
-/
set_option autoImplicit false

namespace Verif.Spec.Submit
open Verif.Spec Verif.Spec.Sms
open Verif.Submit (Pdu)

/-- PDU `p`, read as SMS-SUBMIT, goes to `a` through the service centre `sm` -/
def SentTo (p : Pdu) (sm : Option Address) (a : Address) : Prop :=
  ∃ (bytes rest : List Nat) (sub : Sms.Submit), p.pdu = hexUpper bytes ∧ (∀ x ∈ bytes, x < 256) ∧
    readSmsc bytes = some (sm, rest) ∧ readSubmit rest = some sub ∧ sub.da = a

/-- type of number and numbering plan are reduced to international or unknown, in the telephone numbering plan -/
def plainType (a : Address) : Address := ⟨if a.toa / 16 % 8 = 1 then 0x91 else 0x81, a.digits⟩

end Verif.Spec.Submit

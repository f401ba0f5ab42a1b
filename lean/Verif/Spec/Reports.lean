import Verif.Spec.Deliver
import Verif.Spec.Submit
/-!
# Specification: status reports and what they are about

TS 23.040: a status report repeats the message reference and the destination of the SMS-SUBMIT it is about, and nothing
else of it.
-/
set_option autoImplicit false

namespace Verif.Spec.Reports
open Verif.Spec Verif.Spec.Sms
open Verif.Submit (Pdu)

/-- `r` is a status report (with any service centre, times and status) a service centre may send about the PDU `p` -/
def ReportsOn (r : ReportPdu) (p : Pdu) : Prop :=
  ∃ (bytes : List Nat) (sm : Option Address) (rest : List Nat) (sub : Sms.Submit),
    p.pdu = hexUpper bytes ∧ (∀ x ∈ bytes, x < 256) ∧ readSmsc bytes = some (sm, rest) ∧ readSubmit rest = some sub ∧
    r.mr = sub.mr ∧ r.Ok sub.da

end Verif.Spec.Reports

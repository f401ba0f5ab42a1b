import Verif.Model.Py
/-!
# Specification: the text shown of a message that was cut short
-/
set_option autoImplicit false

namespace Verif.Spec.Sms

/-- `t` is the beginning of the text `t'`; where the cut splits an escape sequence a no-break space stands for it -/
def CutText (t t' : List Nat) : Prop := t <+: t' ∨ ∃ t0, t = t0 ++ [0xa0] ∧ t0 <+: t'

end Verif.Spec.Sms

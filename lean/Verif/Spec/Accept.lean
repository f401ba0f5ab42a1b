import Verif.Spec.Mms
/-!
# Specification: Accept and Pragma values as a conformant sender encodes them (WAP-230 8.4.2.7, 8.4.2.38)
-/
set_option autoImplicit false

namespace Verif.Spec.Accept
open Verif.Mms (Val)
open Verif.Spec.Wsp Verif.Spec.Mms

/-- Accept-value = Constrained-media | Value-length Media-range [Accept-parameters]; a media range is a media type with
parameters, the Accept-parameters are the quality factor (Q-token 128) and further parameters -/
inductive Accept
  | constrained (m : Media) | general (m : Media) (params : List Param) (q : Option (Nat × List Param))
  deriving DecidableEq, Repr

namespace Accept
/-- Accept-parameters = Q-token Q-value *(Parameter) -/
def quality : Option (Nat × List Param) → List Nat
  | none => []
  | some (n, ext) => 128 :: uintvar n ++ ext.flatMap Param.enc
def enc : Accept → List Nat
  | constrained m => m.enc
  | general m ps q => sized (m.enc ++ ps.flatMap Param.enc ++ quality q)
/-- the media type -/
def media : Accept → List Nat
  | constrained m => m.value
  | general m _ _ => m.value
/-- conformant, with media types and parameters that the library knows -/
def WF : Accept → Prop
  | constrained m => m.WF
  | general m ps q => m.WF ∧ (∀ p ∈ ps, p.WF) ∧
      ∀ n ext, q = some (n, ext) → n ≤ 1099 ∧ ∀ p ∈ ext, p.WF
end Accept

/-- Pragma-value = No-cache | Value-length Parameter -/
inductive Pragma
  | noCache | param (p : Param)
  deriving DecidableEq, Repr

namespace Pragma
def enc : Pragma → List Nat
  | noCache => [128]
  | param p => sized p.enc
/-- name and value; the library calls the directive Cache-control -/
def value : Pragma → List Nat × Val
  | noCache => (py! "Cache-control", .str (py! "No-cache"))
  | param p => (p.key, p.value)
def WF : Pragma → Prop
  | noCache => True
  | param p => p.WF
end Pragma

end Verif.Spec.Accept

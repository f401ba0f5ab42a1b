import Verif.Model.Codecs
/-!
# What looking up a codec should give
-/
set_option autoImplicit false

namespace Verif.Spec.Codecs
open Verif.Codecs

/-- the spellings of the name of the codec -/
def Spelling (name : Str) : Prop :=
  ∃ g s m, (g = 'g' ∨ g = 'G') ∧ (s = 's' ∨ s = 'S') ∧ (m = 'm' ∨ m = 'M') ∧
    name = [g.toNat, s.toNat, m.toNat, '0'.toNat, '3'.toNat, '3'.toNat, '8'.toNat]

/-- the error handling that a value of `errors` asks for -/
inductive Asks : Option Str → Gsm.Errors → Prop
  | unsaid : Asks none .strict
  | strict : Asks (some (py! "strict")) .strict
  | replace : Asks (some (py! "replace")) .replace
  | ignore : Asks (some (py! "ignore")) .ignore
  | unknown (e : Str) (h : e ∉ [py! "strict", py! "replace", py! "ignore"]) : Asks (some e) .other

/-- the same program without the package -/
def without (evs : List Ev) : List Ev :=
  evs.filter fun
    | .imported => false
    | _ => true

/-- no other package of the program offers a codec of this name -/
def Unclaimed (evs : List Ev) : Prop := ∀ f, Ev.registered f ∈ evs → f (py! "gsm0338") = none

end Verif.Spec.Codecs

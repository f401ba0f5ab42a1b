import Verif.Model.Message
/-!
# Specification: what a part holds after any history

A part gets its contents from `set_data`, `set_text` or `from_file`.  A history is what was done since, with the files as
they were each time.
-/
set_option autoImplicit false

namespace Verif.Spec.PartHistory
open Verif Verif.Mms

/-- what can be done with a part -/
inductive Act
  | setData (d ct : Str) (params : Dict Val)
  | setText (t : Str)
  | fromFile (f : Str)
  | setContentType (ct : Str)
  | setHeader (n : Str) (v : HVal)
  | read
  | size

/-- the part keeps its contents: `from_file` fails if there is no such file -/
def Keeps (s : Env × Act) : Prop :=
  match s.2 with
  | .setData _ _ _ => False
  | .setText _ => False
  | .fromFile f => s.1.files f = none
  | _ => True

/-- the header was assigned, in a history from the first to the last action, for the last time to ... -/
def lastSet (n : Str) : List (Env × Act) → Option HVal
  | [] => none
  | s :: r =>
    match lastSet n r with
    | some v => some v
    | none =>
      match s.2 with
      | .setHeader n' v => if n' = n then some v else none
      | .setContentType ct => if py! "Content-Type" = n then some (.ct ct []) else none
      | _ => none

/-- the contents of the file at the first time they were read while it existed -/
def firstRead (f : Str) : List (Env × Act) → Option Str
  | [] => none
  | s :: r =>
    match s.2, s.1.files f with
    | .read, some c => some c
    | _, _ => firstRead f r

end Verif.Spec.PartHistory

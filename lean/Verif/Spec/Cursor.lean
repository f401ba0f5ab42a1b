/-!
# Specification of a list read through a cursor

`i` items have been consumed; `k` more have been looked at.
-/
set_option autoImplicit false

namespace Verif.Spec.Cursor

/-- what a user can call -/
inductive Op
  | next | preview | reset
  deriving DecidableEq, Repr

/-- what a call gives: an item, "no more items", nothing, or a failure -/
inductive Out
  | item (x : Nat) | stop | unit | fail
  deriving DecidableEq, Repr

/-- one call on the sequence `data` at position `i` with look-ahead `k` -/
def step (data : List Nat) (i k : Nat) : Op → Out × Nat × Nat
  | .next =>
    match data[i]? with
    | some x => (.item x, i + 1, 0)
    | none => (.stop, i, 0)
  | .preview =>
    match data[i + k]? with
    | some x => (.item x, i, k + 1)
    | none => (.stop, i, k)
  | .reset => (.unit, i, 0)

/-- the results of a sequence of calls -/
def run (data : List Nat) : Nat → Nat → List Op → List Out
  | _, _, [] => []
  | i, k, op :: ops =>
    let r := step data i k op
    r.1 :: run data r.2.1 r.2.2 ops

/-- the items among the results of the `next` calls -/
def consumed : List Op → List Out → List Nat
  | .next :: ops, .item x :: outs => x :: consumed ops outs
  | _ :: ops, _ :: outs => consumed ops outs
  | _, _ => []

end Verif.Spec.Cursor

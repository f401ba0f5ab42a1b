import Verif.Model.Py
/-!
# Model of `messaging/mms/iterator.py`

`PIter` is the class as written; `It` is the view the decoders are modelled over (remaining items and preview
offset).  `Verif.Props.C36_refines` proves that every sequence of operations gives the same results on both.
-/
set_option autoImplicit false

namespace Verif.Mms

/-- iterator.py:30-33 the attributes of `PreviewIterator`: `_it` (the items it has still to give),
`_cached_values`, `_preview_pos`. -/
structure PIter where
  src : List Nat
  cached : List Nat
  pos : Nat
  deriving DecidableEq, Repr

namespace PIter

/-- iterator.py:30-33 `__init__` -/
def new (data : List Nat) : PIter := { src := data, cached := [], pos := 0 }

/-- iterator.py:70-71 `reset_preview` -/
def resetPreview : M PIter Unit := M.modify (fun s => { s with pos := 0 })

/-- iterator.py:38-43 `next` -/
def next : M PIter Nat := do
  resetPreview
  let s ← M.get
  match s.cached with
  | x :: xs => do
    M.modify (fun s => { s with cached := xs })
    pure x
  | [] =>
    match s.src with
    | x :: xs => do
      M.modify (fun s => { s with src := xs })
      pure x
    | [] => M.throw .stopIteration

/-- iterator.py:45-68 `preview` -/
def preview : M PIter Nat := do
  let s ← M.get
  match s.cached[s.pos]? with
  | some x => do
    M.modify (fun s => { s with pos := s.pos + 1 })
    pure x
  | none =>
    match s.src with
    | x :: xs => do
      M.modify (fun s => { s with src := xs, cached := s.cached ++ [x] })
      M.modify (fun s => { s with pos := s.pos + 1 })
      pure x
    | [] => M.throw .stopIteration

end PIter

/-- The observable state of a `PreviewIterator` (iterator.py:18-71): the items not yet returned by `next`, and how
far `preview` is ahead. -/
structure It where
  rem : List Nat
  k : Nat
  deriving DecidableEq, Repr

/-- code reading from a `PreviewIterator` -/
abbrev D (α : Type) := M It α

/-- iterator.py:30-33 `PreviewIterator(data)` -/
def It.new (data : List Nat) : It := { rem := data, k := 0 }

/-- iterator.py:38-43 `next`, on the observable state -/
def next : D Nat := fun s =>
  match s.rem with
  | [] => .err .stopIteration ⟨[], 0⟩
  | x :: r => .ok x ⟨r, 0⟩

/-- iterator.py:45-68 `preview`, on the observable state -/
def preview : D Nat := fun s =>
  match s.rem[s.k]? with
  | some x => .ok x ⟨s.rem, s.k + 1⟩
  | none => .err .stopIteration s

/-- iterator.py:70-71 `reset_preview`, on the observable state -/
def resetPreview : D Unit := fun s => .ok () ⟨s.rem, 0⟩

/-- `try: m  except DecodeError: h` (the shape used throughout wsp_pdu.py and mms_pdu.py) -/
def orDecodeError {α : Type} (m h : D α) : D α :=
  M.tryCatch m (fun e => e == .decodeError) (fun _ => h)

end Verif.Mms

import Verif.Spec.ReadAs
/-!
# Specification: what is read of the headers of a part in any order

A name waits for its value: reading a Content-Location leaves its text waiting as the name of a header, and the next header is
taken for the value.
-/
set_option autoImplicit false

namespace Verif.Spec.Mms
open Verif.Spec.Wsp

/-- text taken for a name: if it has a character in it at which reading breaks off, a header with what precedes that character
as its name and what follows it as its value, and no name waits; otherwise it waits for a value -/
def takenForName (v : List Nat) : List PHdr × Option (List Nat) :=
  if v.any breaks then
    ([.app (v.takeWhile fun c => !breaks c) (v.dropWhile fun c => !breaks c).tail], none)
  else ([], some v)

/-- the headers that are read of a list of headers, and the name that waits before it -/
def readInOrder : Option (List Nat) → List PHdr → List PHdr
  | _, [] => []
  | none, .app n v :: hs => .app n v :: readInOrder none hs
  | none, .contentId s :: hs => (takenForName (34 :: s)).1 ++ readInOrder (takenForName (34 :: s)).2 hs
  | none, .location t :: hs => (takenForName t).1 ++ readInOrder (takenForName t).2 hs
  | some p, .app n v :: hs => .app p n :: ((takenForName v).1 ++ readInOrder (takenForName v).2 hs)
  | some p, .contentId s :: hs => .app p (0xc0 :: 34 :: s) :: readInOrder none hs
  | some p, .location t :: hs => .app p (0x8e :: t) :: readInOrder none hs

/-- text that starts with a printable 7-bit character at which reading does not break off, and has no octet 127 right after the
first character at which it does -/
def NameLike (v : List Nat) : Prop :=
  IsText v ∧ (∃ c r, v = c :: r ∧ c < 127 ∧ breaks c = false) ∧ (v.dropWhile fun c => !breaks c).tail.head? ≠ some 127

/-- headers of which it is known in any order what is read -/
def PHdr.Plain : PHdr → Prop
  | location t => NameLike t
  | contentId s => NameLike (34 :: s)
  | app n v => IsToken n ∧ NameLike v ∧ ∀ c ∈ v, c < 128

end Verif.Spec.Mms

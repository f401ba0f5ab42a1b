import Verif.Spec.Accepted
/-!
# Specification: the PDUs that are refused with ValueError, and the strings that are refused with OverflowError
-/
set_option autoImplicit false

namespace Verif.Spec.Wrong
open Verif.Spec Verif.Spec.Sms Verif.Spec.Time Verif.Spec.Accepted

/-- a user data header with an 8-bit concatenation element that has not three octets or an 8-bit port element that has not
two, all elements before it having the right size; `n` is the announced size, which may be larger than what is there -/
inductive WrongHeader : List Nat → Prop
  | here (id n : Nat) (r : List Nat) : (id = 0 ∧ (r.take n).length ≠ 3) ∨ (id = 4 ∧ (r.take n).length ≠ 2) →
      WrongHeader (id :: n :: r)
  | later (id n : Nat) (r : List Nat) : Contents id (r.take n) → WrongHeader (r.drop n) → WrongHeader (id :: n :: r)

/-- a TPDU after its first octet `fo`: of type SUBMIT, with an impossible time stamp, or with such a header -/
inductive WrongTpdu (fo : Nat) : List Nat → Prop
  | submit (t : List Nat) : fo % 4 = 1 → WrongTpdu fo t
  | stamp (n toa : Nat) (oa : List Nat) (pid dcs : Nat) (stamp : List Nat) (zone : Nat) (rest : List Nat) :
      fo % 4 = 0 ∨ fo % 4 = 3 → oa.length = (n + 1) / 2 → stamp.length = 6 → readCivil stamp = none →
      WrongTpdu fo (n :: toa :: (oa ++ pid :: dcs :: (stamp ++ zone :: rest)))
  | header (n toa : Nat) (oa : List Nat) (pid dcs : Nat) (stamp : List Nat) (zone udl k : Nat) (r : List Nat) (c : Civil) :
      fo % 4 = 0 ∨ fo % 4 = 3 → oa.length = (n + 1) / 2 → stamp.length = 6 → readCivil stamp = some c →
      fo / 64 % 2 = 1 → WrongHeader (r.take k) →
      WrongTpdu fo (n :: toa :: (oa ++ pid :: dcs :: (stamp ++ zone :: udl :: k :: r)))

/-- a PDU with such a TPDU -/
inductive WrongFrame : List Nat → Prop
  | none (fo : Nat) (t : List Nat) : WrongTpdu fo t → WrongFrame (0 :: fo :: t)
  | some (toa : Nat) (sc : List Nat) (fo : Nat) (t : List Nat) : WrongTpdu fo t →
      WrongFrame ((sc.length + 1) :: toa :: (sc ++ fo :: t))

/-- two characters that are read as a negative number -/
def Negative (a b : Nat) : Prop := a = 45 ∧ ∃ y, 0 < y ∧ Digit b y

/-- a string all pairs of which are read as numbers; `neg` tells whether one of them is negative -/
inductive Signed : List Nat → Bool → Prop
  | nil : Signed [] false
  | pos (a b n : Nat) (s : List Nat) (neg : Bool) : Pair a b n → Signed s neg → Signed (a :: b :: s) neg
  | neg (a b : Nat) (s : List Nat) (neg : Bool) : Negative a b → Signed s neg → Signed (a :: b :: s) true

end Verif.Spec.Wrong

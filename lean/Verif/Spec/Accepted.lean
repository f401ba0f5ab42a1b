import Verif.Spec.Deliver
/-!
# Specification: the PDUs that are accepted
-/
set_option autoImplicit false

namespace Verif.Spec.Accepted
open Verif.Spec Verif.Spec.Sms Verif.Spec.Time

/-- contents of an information element: concatenation and port elements have the right size; elements with
16-bit numbers may also be longer -/
def Contents (id : Nat) (payload : List Nat) : Prop :=
  (id = 0 → payload.length = 3) ∧ (id = 4 → payload.length = 2) ∧ (id = 5 → 4 ≤ payload.length) ∧ (id = 8 → 4 ≤ payload.length)

/-- a user data header: a sequence of elements, of which the last may be cut -/
inductive Header : List Nat → Prop
  | nil : Header []
  | cons (id : Nat) (payload rest : List Nat) : Contents id payload → Header rest →
      Header (id :: payload.length :: (payload ++ rest))
  | cut (id n : Nat) (payload : List Nat) : payload.length < n → Contents id payload → Header (id :: n :: payload)

/-- user data after its length octet: `udhi` whether there is a header, `ucs2` whether the text has two octets per
character -/
def UserData (udhi ucs2 : Bool) (ud : List Nat) : Prop :=
  if udhi then
    ∃ n r, ud = n :: r ∧ Header (r.take n) ∧ (ucs2 → (r.drop n).length % 2 = 0)
  else ucs2 → ud.length % 2 = 0

/-- a TPDU after its first octet `fo`: a DELIVER (also of the reserved type) or a report -/
inductive Tpdu (fo : Nat) : List Nat → Prop
  | deliver (n toa : Nat) (oa : List Nat) (pid dcs : Nat) (stamp : List Nat) (zone udl : Nat) (ud : List Nat) (c : Civil) :
      fo % 4 = 0 ∨ fo % 4 = 3 → oa.length = (n + 1) / 2 → stamp.length = 6 → readCivil stamp = some c →
      UserData (fo / 64 % 2 = 1) (dcs / 4 % 4 = 2) ud →
      Tpdu fo (n :: toa :: (oa ++ pid :: dcs :: (stamp ++ zone :: udl :: ud)))
  | report (mr n toa : Nat) (rest : List Nat) : fo % 4 = 2 → Tpdu fo (mr :: n :: toa :: rest)

/-- a PDU: the service centre (length, type and number; or nothing) and a TPDU -/
inductive Frame : List Nat → Prop
  | none (fo : Nat) (t : List Nat) : Tpdu fo t → Frame (0 :: fo :: t)
  | some (toa : Nat) (sc : List Nat) (fo : Nat) (t : List Nat) : Tpdu fo t →
      Frame ((sc.length + 1) :: toa :: (sc ++ fo :: t))

/-- hexadecimal digits, of either case -/
def Digit (c n : Nat) : Prop := (48 ≤ c ∧ c ≤ 57 ∧ c = n + 48) ∨ (65 ≤ c ∧ c ≤ 70 ∧ c = n + 55) ∨ (97 ≤ c ∧ c ≤ 102 ∧ c = n + 87)
/-- a space, or one of the five control characters from the tabulator to the carriage return -/
def Blank (c : Nat) : Prop := c = 32 ∨ (9 ≤ c ∧ c ≤ 13)

/-- two characters that Python's `int(_, 16)` reads as an octet -/
inductive Pair : Nat → Nat → Nat → Prop
  | digits (a b x y : Nat) : Digit a x → Digit b y → Pair a b (16 * x + y)
  | before (a b y : Nat) : Blank a → Digit b y → Pair a b y
  | after (a b x : Nat) : Digit a x → Blank b → Pair a b x
  | plus (b y : Nat) : Digit b y → Pair 43 b y
  | minus : Pair 45 48 0

/-- a string that spells octets, two characters each -/
inductive Spells : List Nat → List Nat → Prop
  | nil : Spells [] []
  | cons (a b n : Nat) (s o : List Nat) : Pair a b n → Spells s o → Spells (a :: b :: s) (n :: o)

end Verif.Spec.Accepted

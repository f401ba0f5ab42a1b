/-!
# Specification: how a user data header is printed

Written with Lean's own strings and its own decimal numbers.
-/
set_option autoImplicit false

namespace Verif.Spec.UdhText

/-- the octets of an element: `array('B')` if there are none, else `array('B', [1, 2])` -/
def array (a : List Nat) : String :=
  if a = [] then "array('B')" else s!"array('B', [{", ".intercalate (a.map toString)}])"

/-- an element: its number and its octets -/
def element (e : Nat × List Nat) : String := s!"{e.1}: {array e.2}"

/-- reference, number of parts, number of this part -/
def concat : Option (Nat × Nat × Nat) → String
  | none => "None"
  | some (ref, cnt, seq) => s!"<ConcatReference ref: {ref} cnt: {cnt} seq: {seq}>"

/-- destination and origin -/
def ports : Option (Nat × Nat) → String
  | none => "None"
  | some (dest, orig) => s!"<PortAddress dest_port: {dest} orig_port: {orig}>"

/-- a header whose elements come in this order -/
def header (els : List (Nat × List Nat)) (c : Option (Nat × Nat × Nat)) (p : Option (Nat × Nat)) : String :=
  "<UserDataHeader data: {" ++ ", ".intercalate (els.map element) ++ "} concat: " ++ concat c ++ " ports: " ++ ports p ++ ">"

/-- the octets of an ASCII text -/
def octets (s : String) : List Nat := s.toList.map Char.toNat

end Verif.Spec.UdhText

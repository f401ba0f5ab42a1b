import Verif.Model.Py
/-!
# Specification: the entries of a multipart body among arbitrary octets (WAP-230 section 8.5)
-/
set_option autoImplicit false

namespace Verif.Spec.Parts

/-- the octets `o` are a variable-length integer of value `n`, with or without superfluous leading octets -/
def IsUintVar (o : List Nat) (n : Nat) : Prop := ∃ ds x, o = ds ++ [x] ∧ (∀ d ∈ ds, 128 ≤ d) ∧ x < 128 ∧
  n = o.foldl (fun a d => a * 128 + d % 128) 0

/-- the octets start with entries that hold these data, and `rest` follows: length of the headers, length of the data,
headers, data -/
inductive Entries : List (List Nat) → List Nat → List Nat → Prop
  | nil (rest : List Nat) : Entries [] rest rest
  | cons {a b hdrs d l rest : List Nat} {ds : List (List Nat)} (ha : IsUintVar a hdrs.length) (hb : IsUintVar b d.length)
    (h : Entries ds l rest) : Entries (d :: ds) (a ++ b ++ hdrs ++ d ++ l) rest

end Verif.Spec.Parts

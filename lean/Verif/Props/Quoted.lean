import Verif.Props.Wsp
/-!
# C40: quoted strings and parameter text values
-/
set_option autoImplicit false

namespace Verif.Props
open Verif Verif.Mms

/-- the octets at which the library ends a token: control characters and separators, but not the quotation mark -/
def EndsToken (c : Nat) : Prop := c ≤ 31 ∨ c ∈ [32, 40, 41, 44, 47, 58, 59, 60, 61, 62, 63, 64, 91, 92, 93, 123, 125]

theorem ends_iff (c : Nat) : EndsToken c ↔ (c ≤ 31 ∨ c ∈ separators) := by
  unfold EndsToken separators
  simp only [List.mem_cons, List.not_mem_nil, or_false]
  omega

/-- C40: a quoted string is read up to its end. -/
theorem C40_quoted (s : List Nat) (h : 0 ∉ s) (h127 : s.head? ≠ some 127) (rest : List Nat) :
    decodeQuotedString ⟨34 :: (s ++ 0 :: rest), 0⟩ = .ok s ⟨rest, 0⟩ := decodeQuotedString_ok s h h127 rest

example := C40_quoted (py! "1") (by decide) (by decide) [7]

/-- C40: anything that does not begin with a quotation mark is refused, and nothing is consumed. -/
theorem C40_not_quoted (b : Nat) (hb : b ≠ 34) (rest : List Nat) :
    decodeQuotedString ⟨b :: rest, 0⟩ = .err .decodeError ⟨b :: rest, 0⟩ := by
  unfold decodeQuotedString
  have hp : preview ⟨b :: rest, 0⟩ = .ok b ⟨b :: rest, 1⟩ := rfl
  rw [M.bind_ok hp, if_pos hb]
  rfl

example := C40_not_quoted 60 (by decide) [49, 0]

theorem tokenLoop_ends (s : List Nat) (hs : ∀ x ∈ s, ¬ EndsToken x) (c : Nat) (hc : EndsToken c) (rest : List Nat) :
    ∀ acc, tokenLoop acc (s ++ c :: rest) = .ok (acc ++ s) ⟨rest, 0⟩ := by
  induction s with
  | nil =>
    intro acc
    have := (ends_iff c).1 hc
    have : ¬ (c > 31 ∧ c ∉ separators) := by
      rintro ⟨h1, h2⟩
      rcases this with h | h
      · omega
      · exact h2 h
    simp only [List.nil_append, tokenLoop, if_neg this, List.append_nil]
  | cons x s ih =>
    intro acc
    have hx := hs x List.mem_cons_self
    rw [ends_iff] at hx
    have : x > 31 ∧ x ∉ separators := ⟨by omega, fun h => hx (.inr h)⟩
    simp only [List.cons_append, tokenLoop, if_pos this]
    rw [ih (fun y hy => hs y (List.mem_cons_of_mem _ hy)), List.append_assoc]
    rfl

/-- C40: a parameter text value is read up to the first octet that ends a token; a quotation mark in front is kept as part
of the value.  So of a quoted string with a space, only the first word is read. -/
theorem C40_text_value (s : List Nat) (hne : s ≠ []) (hs : ∀ x ∈ s, ¬ EndsToken x) (c : Nat) (hc : EndsToken c) (rest : List Nat) :
    decodeTextValue ⟨s ++ c :: rest, 0⟩ = .ok s ⟨rest, 0⟩ := by
  cases s with
  | nil => exact absurd rfl hne
  | cons x s =>
    have hx := hs x List.mem_cons_self
    rw [ends_iff] at hx
    unfold decodeTextValue
    refine orDE_ok ?_
    unfold decodeTokenText
    have hp : preview ⟨x :: s ++ c :: rest, 0⟩ = .ok x ⟨x :: s ++ c :: rest, 1⟩ := rfl
    rw [M.bind_ok hp, if_neg hx]
    exact tokenLoop_ends (x :: s) hs c hc rest []

example := C40_text_value (py! "abc") (by decide) (by unfold EndsToken; decide) 0 (by unfold EndsToken; decide) [7]

/-- C40: before any octet that ends a token, the empty text is read, and nothing is consumed: the zero octet that stands
for no value is left there. -/
theorem C40_text_value_none (c : Nat) (hc : EndsToken c) (rest : List Nat) :
    decodeTextValue ⟨c :: rest, 0⟩ = .ok [] ⟨c :: rest, 0⟩ := by
  have h34 : c ≠ 34 := by
    rintro rfl
    revert hc
    unfold EndsToken
    decide
  unfold decodeTextValue
  have h1 : decodeTokenText ⟨c :: rest, 0⟩ = .err .decodeError ⟨c :: rest, 0⟩ := by
    unfold decodeTokenText
    have hp : preview ⟨c :: rest, 0⟩ = .ok c ⟨c :: rest, 1⟩ := rfl
    rw [M.bind_ok hp, if_pos ((ends_iff c).1 hc)]
    rfl
  rw [orDE_err h1, orDE_err (C40_not_quoted c h34 rest)]
  rfl

example : EndsToken 0 ∧ EndsToken 32 ∧ ∀ x ∈ (py! "\"a" : List Nat), ¬ EndsToken x := by
  unfold EndsToken
  decide
example : decodeTextValue ⟨py! "\"a b" ++ [0, 7], 0⟩ = .ok (py! "\"a") ⟨py! "b" ++ [0, 7], 0⟩ := by decide +kernel

end Verif.Props

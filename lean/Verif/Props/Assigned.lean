import Verif.Props.Wsp
import Verif.Spec.Assigned
/-!
# C62 continued: the tables against the standard; C38, C39 and C41 continued: booleans, versions without a minor number
-/
set_option autoImplicit false

namespace Verif.Props
open Verif Verif.Mms Verif.Spec.Wsp Verif.Spec.Assigned

/-- the value forms by their names in WAP-230 -/
def form : PType → Str
  | .qValue => py! "Q-value"
  | .wellKnownCharset => py! "Well-known-charset"
  | .versionValue => py! "Version-value"
  | .integerValue => py! "Integer-value"
  | .textString => py! "Text-string"
  | .fieldName => py! "Field-name"
  | .shortInteger => py! "Short-integer"
  | .constrainedEncoding => py! "Constrained-encoding"
  | .deltaSecondsValue => py! "Delta-seconds-value"
  | .noValue => py! "No-value"
  | .textValue => py! "Text-value"
  | .dateValue => py! "Date-value"

/-- C62: the parameters of each version are those of table 38 of WAP-230 up to this version, with their numbers and the
forms of their values. -/
theorem C62_table38 (v : Nat) (h1 : 1 ≤ v) (h4 : v ≤ 4) : ∃ t, getWellKnownParameters (version1 v) = .ok t ∧
    t.map (fun e => (e.1, e.2.1, form e.2.2)) = (parameters.filter fun e => e.2.2.2 ≤ v).map fun e => (e.1, e.2.1, e.2.2.1) := by
  have : v = 1 ∨ v = 2 ∨ v = 3 ∨ v = 4 := by omega
  rcases this with rfl | rfl | rfl | rfl <;> exact ⟨_, rfl, by decide +kernel⟩

example := C62_table38 2 (by decide) (by decide)

/-- C62: likewise for the header fields and table 39. -/
theorem C62_table39 (v : Nat) (h1 : 1 ≤ v) (h4 : v ≤ 4) : getHeaderFieldNames (version1 v)
    = .ok (fields.take (if v = 1 then 0x2f else if v = 2 then 0x38 else if v = 3 then 0x44 else 0x48)) := by
  have : v = 1 ∨ v = 2 ∨ v = 3 ∨ v = 4 := by omega
  rcases this with rfl | rfl | rfl | rfl <;> decide +kernel

example := C62_table39 3 (by decide) (by decide)

/-- C38, C39: True and False are sent as the integers 1 and 0, and read back as these. -/
theorem C38_bool (b : Bool) : ∃ n : Nat, n = (if b then 1 else 0) ∧
    encodeIntegerValue (.bool b) = .ok [((128 + n : Nat) : Int)] ∧ encodeShortIntegerV (.bool b) = .ok [((128 + n : Nat) : Int)] ∧
    (∀ rest, decodeShortInteger ⟨(128 + n) :: rest, 0⟩ = .ok n ⟨rest, 0⟩) ∧
    encodeLongIntegerV (.bool b) = encodeLongInteger n := by
  cases b
  · exact ⟨0, rfl, rfl, rfl, fun _ => rfl, rfl⟩
  · exact ⟨1, rfl, rfl, rfl, fun _ => rfl, rfl⟩

theorem splitDot_one {s : Str} (h : 46 ∉ s) : splitDot s = [s] := by
  induction s with
  | nil => rfl
  | cons c cs ih =>
    have h2 : 46 ≠ c ∧ 46 ∉ cs := by simpa using h
    unfold splitDot
    rw [if_neg (fun e => h2.1 e.symm), ih h2.2]

/-- C41: a version given by its major number only, from 1 to 7, is one octet, which is read as minor version 15. -/
theorem C41_major (major : Nat) (h1 : 1 ≤ major) (h2 : major ≤ 7) :
    encodeVersionValue (.str (natStr major)) = .ok [((128 + 16 * major + 15 : Nat) : Int)] ∧
      ∀ rest, decodeVersionValue ⟨(128 + 16 * major + 15) :: rest, 0⟩ = .ok (versionStr major 15) ⟨rest, 0⟩ := by
  constructor
  · have hall : ∀ a : Fin 8, 1 ≤ a.val → encodeVersionValue (.str (natStr a.val)) = .ok [((128 + 16 * a.val + 15 : Nat) : Int)] := by
      decide +kernel
    exact hall ⟨major, by omega⟩ h1
  · intro rest
    rw [decodeVersionValue_octet (by omega) (by omega)]
    rw [show (128 + 16 * major + 15 - 128) / 16 = major by omega, show (128 + 16 * major + 15) % 16 = 15 by omega]

example := C41_major 1 (by decide) (by decide)

/-- C41: other major numbers alone are sent as text and read back. -/
theorem C41_number_partial (major : Nat) (h : major < 1 ∨ 7 < major) :
    ∃ l : List Nat, encodeVersionValue (.str (natStr major)) = .ok (toInts l) ∧
      ∀ rest, decodeVersionValue ⟨l ++ rest, 0⟩ = .ok (natStr major) ⟨rest, 0⟩ := by
  have he : versionTry (natStr major) = .error .valueError := by
    unfold versionTry
    rw [splitDot_one (natStr_no_dot major)]
    simp only [bind, Except.bind, pyIntStr_natStr]
    rw [if_pos (by omega)]
  refine version_text he ?_ ?_
  · intro h0
    have := natStr_digits major 0 h0
    omega
  · intro c hc
    have := natStr_digits major c (List.mem_of_mem_head? hc)
    omega

example := C41_number_partial 12 (by decide)

/-- C41: a string with two dots or more is sent as nothing at all. -/
theorem C41_dots (s : Str) (h : 2 ≤ s.count 46) : encodeVersionValue (.str s) = .ok [] := by
  have hlen : (splitDot s).length = s.count 46 + 1 := by
    clear h
    induction s with
    | nil => rfl
    | cons c cs ih =>
      unfold splitDot
      by_cases hc : c = 46
      · subst hc
        rw [if_pos rfl, List.length_cons, ih, List.count_cons_self]
      · rw [if_neg hc, List.count_cons_of_ne (by simpa using hc)]
        cases hs : splitDot cs with
        | nil => rw [hs] at ih; simp at ih
        | cons x xs => rw [hs] at ih; simpa using ih
  simp only [encodeVersionValue, versionTry]
  cases hs : splitDot s with
  | nil => rfl
  | cons a l =>
    cases l with
    | nil => rw [hs] at hlen; simp at hlen; omega
    | cons b l =>
      cases l with
      | nil => rw [hs] at hlen; simp at hlen; omega
      | cons c l => rfl

example : 2 ≤ (py! "1.2.4" : Str).count 46 := by decide

end Verif.Props

import Verif.Proofs.Pack
import Verif.Spec.Sms
import Mathlib.Tactic.IntervalCases
/-!
# Hexadecimal and digit lemmas
-/
set_option autoImplicit false

namespace Verif
open Verif.Spec

@[simp] theorem encodeStr_nil : encodeStr [] = [] := rfl
theorem encodeStr_append (a b : List Nat) : encodeStr (a ++ b) = encodeStr a ++ encodeStr b := by
  simp [encodeStr]
theorem encodeStr_cons (a : Nat) (b : List Nat) : encodeStr (a :: b) = hex02 a ++ encodeStr b := by
  simp [encodeStr]

theorem encodeStr_length {l : List Nat} (h : ∀ x ∈ l, x < 256) : (encodeStr l).length = 2 * l.length := by
  induction l with
  | nil => rfl
  | cons x xs ih =>
    simp only [List.mem_cons, forall_eq_or_imp] at h
    obtain ⟨a, b, hab⟩ := hex02_pair h.1
    rw [encodeStr_cons, hab, List.length_append, ih h.2]
    simp; omega

theorem hexUpper_digit : ∀ d ∈ List.range 16,
    upChar ((py! "0123456789abcdef")[d]!) = (py! "0123456789ABCDEF")[d]! := by decide +kernel

theorem pyUpper_hexLower (l : List Nat) : pyUpper (hexLower l) = hexUpper l := by
  unfold pyUpper hexLower hexUpper
  induction l with
  | nil => rfl
  | cons x xs ih =>
    simp only [List.flatMap_cons, List.map_append, ih, List.map_cons, List.map_nil]
    rw [hexUpper_digit _ (List.mem_range.2 (Nat.mod_lt _ (by decide))),
      hexUpper_digit _ (List.mem_range.2 (Nat.mod_lt _ (by decide)))]

theorem pyUpper_encodeStr {l : List Nat} (h : ∀ x ∈ l, x < 256) : pyUpper (encodeStr l) = hexUpper l := by
  rw [encodeStr_hex h, pyUpper_hexLower]

/-- changing the case of a character does not change how `int(_, 16)` reads it -/
theorem hexVal_upChar (c : Nat) : hexVal (upChar c) = hexVal c := by
  unfold hexVal upChar
  by_cases h1 : 97 ≤ c ∧ c ≤ 122
  · rw [if_pos h1]
    by_cases h2 : c ≤ 102
    · rw [if_neg (by omega), if_neg (by omega), if_pos (by omega), if_neg (by omega), if_pos (by omega)]
      rw [Nat.sub_sub]
    · rw [if_neg (by omega), if_neg (by omega), if_neg (by omega), if_neg (by omega), if_neg (by omega),
        if_neg (by omega)]
  · rw [if_neg h1]

theorem upChar_class (c : Nat) : isSpace (upChar c) = isSpace c ∧ (upChar c == 43) = (c == 43) ∧
    (upChar c == 45) = (c == 45) := by
  unfold upChar
  by_cases h1 : 97 ≤ c ∧ c ≤ 122
  · rw [if_pos h1]
    unfold isSpace
    refine ⟨?_, ?_, ?_⟩ <;>
    · rw [Bool.eq_iff_iff]; simp; omega
  · rw [if_neg h1]; exact ⟨rfl, rfl, rfl⟩

theorem pyInt16_upper2 (a b : Nat) : pyInt16 [upChar a, upChar b] = pyInt16 [a, b] := by
  simp only [pyInt16, hexVal_upChar, (upChar_class a).1, (upChar_class b).1, (upChar_class a).2.1,
    (upChar_class a).2.2]

theorem pyInt16_upper1 (a : Nat) : pyInt16 [upChar a] = pyInt16 [a] := by
  simp only [pyInt16, hexVal_upChar]

theorem parseHexPairs_upper : ∀ s : Str, parseHexPairs (pyUpper s) = parseHexPairs s
  | [] => rfl
  | [a] => by simp only [pyUpper, List.map_cons, List.map_nil, parseHexPairs, pyInt16_upper1]
  | a :: b :: r => by
    have := parseHexPairs_upper r
    simp only [pyUpper, List.map_cons, parseHexPairs, pyInt16_upper2] at this ⊢
    rw [this]

theorem toArray_upper (s : Str) : toArray (pyUpper s) = toArray s := by
  unfold toArray; rw [parseHexPairs_upper]

theorem parseHexPairs_encodeStr {l : List Nat} (h : ∀ x ∈ l, x < 256) :
    parseHexPairs (encodeStr l) = .ok (l.map (fun x : Nat => (x : Int))) := by
  induction l with
  | nil => rfl
  | cons x xs ih =>
    simp only [List.mem_cons, forall_eq_or_imp] at h
    obtain ⟨a, b, hab⟩ := hex02_pair h.1
    have hp := pyInt16_hex02 h.1
    rw [hab] at hp
    rw [encodeStr_cons, hab]
    simp only [List.cons_append, List.nil_append, parseHexPairs, hp, ih h.2, bind, Except.bind, List.map_cons]

theorem toArray_encodeStr {l : List Nat} (h : ∀ x ∈ l, x < 256) : toArray (encodeStr l) = .ok l := by
  unfold toArray
  rw [parseHexPairs_encodeStr h]
  have h1 : (l.map (fun x : Nat => (x : Int))).any (· < 0) = false := by simp
  simp only [bind, Except.bind, h1, Bool.false_eq_true, if_false, List.map_map, Function.comp_def, Int.toNat_natCast,
    List.map_id']

theorem toArray_hexUpper {l : List Nat} (h : ∀ x ∈ l, x < 256) : toArray (hexUpper l) = .ok l := by
  rw [← pyUpper_encodeStr h, toArray_upper, toArray_encodeStr h]

theorem hexUpper_length (l : List Nat) : (hexUpper l).length = 2 * l.length := by
  induction l with
  | nil => rfl
  | cons x xs ih => simp only [hexUpper, List.flatMap_cons, List.length_append, List.length_cons, List.length_nil] at ih ⊢; rw [ih]; omega

/-! ## Digits and semi-octets -/

open Verif.Spec.Sms

theorem bcd_length : ∀ ds : List Nat, (bcd ds).length = (ds.length + 1) / 2
  | [] => rfl
  | [_] => by simp [bcd]
  | _ :: _ :: r => by simp only [bcd, List.length_cons, bcd_length r]; omega

theorem bcd_lt : ∀ ds : List Nat, (∀ d ∈ ds, d < 10) → ∀ x ∈ bcd ds, x < 256
  | [], _ => by simp [bcd]
  | [d], h => by
    have := h d (by simp)
    simp [bcd]; omega
  | d :: e :: r, h => by
    have h1 := h d (by simp)
    have h2 := h e (by simp)
    intro x hx
    simp only [bcd, List.mem_cons] at hx
    rcases hx with rfl | hx
    · omega
    · exact bcd_lt r (fun y hy => h y (by simp [hy])) x hx

/-- the filler after `n` digits -/
def filler (n : Nat) : List Nat := if n % 2 = 1 then [15] else []

theorem nibbles_bcd : ∀ ds : List Nat, (∀ d ∈ ds, d < 16) → nibbles (bcd ds) = ds ++ filler ds.length
  | [], _ => by simp [bcd, nibbles, filler]
  | [d], h => by
    have := h d (by simp)
    simp [bcd, nibbles, filler]; omega
  | d :: e :: r, h => by
    have h1 := h d (by simp)
    have h2 := h e (by simp)
    have ih := nibbles_bcd r (fun y hy => h y (by simp [hy]))
    have hf : filler (d :: e :: r).length = filler r.length := by
      unfold filler; simp only [List.length_cons, Nat.add_assoc, Nat.add_mod_right]
    rw [hf]
    simp only [bcd, nibbles, List.flatMap_cons, List.cons_append, List.nil_append] at ih ⊢
    rw [ih]
    congr 1
    · omega
    · congr 1; omega

theorem nibbles_inj : ∀ {a b : List Nat}, nibbles a = nibbles b → a = b
  | [], [], _ => rfl
  | [], _ :: _, h => by simp [nibbles] at h
  | _ :: _, [], h => by simp [nibbles] at h
  | x :: a, y :: b, h => by
    simp only [nibbles, List.flatMap_cons, List.cons_append, List.nil_append, List.cons.injEq] at h
    have := nibbles_inj (a := a) (b := b) h.2.2
    rw [this, show x = y by omega]

theorem nibbles_length (o : List Nat) : (nibbles o).length = 2 * o.length := by
  induction o with
  | nil => rfl
  | cons x o ih =>
    simp only [nibbles, List.flatMap_cons, List.length_append, List.length_cons, List.length_nil] at ih ⊢
    omega

theorem nibbles_lt {o : List Nat} (h : ∀ x ∈ o, x < 256) : ∀ n ∈ nibbles o, n < 16 := by
  intro n hn
  obtain ⟨x, hx, hn⟩ := List.mem_flatMap.1 hn
  have := h x hx
  simp only [List.mem_cons, List.not_mem_nil, or_false] at hn
  omega

theorem bcd_of_nibbles {o ds : List Nat} (h : nibbles o = ds ++ filler ds.length) (hd : ∀ d ∈ ds, d < 16) : o = bcd ds :=
  nibbles_inj (h.trans (nibbles_bcd ds hd).symm)

theorem dropFiller_ok {ds : List Nat} (h : ∀ d ∈ ds, d < 10) : dropFiller (ds ++ filler ds.length) = ds := by
  unfold dropFiller filler
  split
  · rw [List.getLast?_append_of_ne_nil _ (by simp)]; simp
  · rw [List.append_nil, if_neg]
    intro hl
    have := h 15 (List.mem_of_getLast? hl)
    omega

theorem hex02_digits {d e : Nat} (hd : d < 10) (he : e < 10) : hex02 (d + 16 * e) = [48 + e, 48 + d] := by
  unfold hex02 hexDig
  rw [if_pos (by omega), if_pos (by omega), if_pos (by omega)]
  congr 1
  · omega
  · congr 1; omega

theorem hex02_digitF {d : Nat} (hd : d < 10) : hex02 (d + 16 * 15) = [102, 48 + d] := by
  unfold hex02 hexDig
  rw [if_pos (by omega), if_neg (by omega), if_pos (by omega)]
  congr 1
  · omega
  · congr 1; omega

/-- the receiver's reading of a semi-octet number (utils.py `swap_number`) -/
theorem swapNumber_bcd : ∀ ds : List Nat, (∀ d ∈ ds, d < 10) →
    swapNumber (encodeStr (bcd ds)) = ds.map (· + 48)
  | [], _ => rfl
  | [d], h => by
    have := h d (by simp)
    have hne : 48 + d ≠ 102 := by omega
    simp [bcd, encodeStr, hex02_digitF this, swapNumber, hne, swapPairs]; omega
  | d :: e :: r, h => by
    have h1 := h d (by simp)
    have h2 := h e (by simp)
    have ih := swapNumber_bcd r (fun y hy => h y (by simp [hy]))
    have hne1 : 48 + d ≠ 102 := by omega
    have hne2 : 48 + e ≠ 102 := by omega
    unfold swapNumber at ih ⊢
    simp only [bcd, encodeStr_cons, hex02_digits h1 h2, List.cons_append, List.nil_append]
    rw [List.filter_cons_of_pos (by simpa using hne2), List.filter_cons_of_pos (by simpa using hne1)]
    simp only [swapPairs, ih, List.map_cons]
    congr 1
    · omega
    · congr 1; omega

end Verif

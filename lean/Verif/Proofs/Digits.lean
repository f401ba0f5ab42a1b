import Verif.Spec.Septets
import Mathlib.Tactic.Ring
import Mathlib.Tactic.Linarith
import Mathlib.Data.Nat.ModEq
/-!
# Positional notation lemmas
-/
set_option autoImplicit false

namespace Verif.Spec

@[simp] theorem leVal_nil (b : Nat) : leVal b [] = 0 := rfl
@[simp] theorem leVal_cons (b x : Nat) (xs : List Nat) : leVal b (x :: xs) = x + b * leVal b xs := rfl

theorem leVal_append (b : Nat) (xs ys : List Nat) :
    leVal b (xs ++ ys) = leVal b xs + b ^ xs.length * leVal b ys := by
  induction xs with
  | nil => simp
  | cons x xs ih => simp only [List.cons_append, leVal_cons, ih, List.length_cons, pow_succ]; ring

theorem leVal_lt {b : Nat} {xs : List Nat} (h : ∀ x ∈ xs, x < b) : leVal b xs < b ^ xs.length := by
  induction xs with
  | nil => simp
  | cons x xs ih =>
    simp only [List.mem_cons, forall_eq_or_imp] at h
    have := ih h.2
    simp only [leVal_cons, List.length_cons, pow_succ]
    have hx := h.1
    have : b * leVal b xs + b ≤ b * b ^ xs.length := by
      rw [← Nat.mul_succ]; exact Nat.mul_le_mul_left _ this
    rw [Nat.mul_comm (b ^ xs.length)]; omega

theorem leVal_zeros (b n : Nat) : leVal b (List.replicate n 0) = 0 := by
  induction n with
  | zero => rfl
  | succ n ih => simp [List.replicate_succ, ih]

@[simp] theorem digits_zero (b v : Nat) : digits b 0 v = [] := rfl
@[simp] theorem digits_succ (b k v : Nat) : digits b (k + 1) v = v % b :: digits b k (v / b) := rfl

@[simp] theorem digits_length (b k v : Nat) : (digits b k v).length = k := by
  induction k generalizing v with
  | zero => rfl
  | succ k ih => simp [ih]

theorem digits_lt {b : Nat} (hb : 0 < b) (k v : Nat) : ∀ x ∈ digits b k v, x < b := by
  induction k generalizing v with
  | zero => simp
  | succ k ih =>
    intro x hx
    rcases List.mem_cons.1 hx with rfl | hx
    · exact Nat.mod_lt _ hb
    · exact ih _ x hx

theorem leVal_digits (b k v : Nat) : leVal b (digits b k v) = v % b ^ k := by
  induction k generalizing v with
  | zero => simp [Nat.mod_one]
  | succ k ih =>
    simp only [digits_succ, leVal_cons, ih, pow_succ]
    rw [Nat.mul_comm (b ^ k) b, Nat.mod_mul]

theorem leVal_digits_of_lt {b k v : Nat} (h : v < b ^ k) : leVal b (digits b k v) = v := by
  rw [leVal_digits, Nat.mod_eq_of_lt h]

theorem digits_leVal {b : Nat} {xs : List Nat} (h : ∀ x ∈ xs, x < b) : digits b xs.length (leVal b xs) = xs := by
  induction xs with
  | nil => rfl
  | cons x xs ih =>
    simp only [List.mem_cons, forall_eq_or_imp] at h
    have hb : 0 < b := by omega
    simp only [List.length_cons, digits_succ, leVal_cons]
    rw [Nat.add_mul_mod_self_left, Nat.mod_eq_of_lt h.1, Nat.add_mul_div_left _ _ hb,
      Nat.div_eq_of_lt h.1, Nat.zero_add, ih h.2]

theorem digits_take (b k n v : Nat) (h : n ≤ k) : (digits b k v).take n = digits b n v := by
  induction n generalizing k v with
  | zero => simp
  | succ n ih =>
    obtain ⟨k, rfl⟩ : ∃ m, k = m + 1 := ⟨k - 1, by omega⟩
    simp only [digits_succ, List.take_succ_cons]
    rw [ih k _ (by omega)]

theorem digits_drop (b k n v : Nat) : (digits b k v).drop n = digits b (k - n) (v / b ^ n) := by
  induction n generalizing k v with
  | zero => simp
  | succ n ih =>
    cases k with
    | zero => simp
    | succ k =>
      simp only [digits_succ, List.drop_succ_cons, ih, Nat.add_sub_add_right, pow_succ]
      rw [Nat.mul_comm, Nat.div_div_eq_div_mul]

theorem leVal_inj {b : Nat} {xs ys : List Nat} (hl : xs.length = ys.length) (hx : ∀ x ∈ xs, x < b)
    (hy : ∀ y ∈ ys, y < b) (h : leVal b xs = leVal b ys) : xs = ys := by
  rw [← digits_leVal hx, ← digits_leVal hy, h, hl]

/-- the digit at position `i` -/
theorem digits_eq_map (b k v : Nat) : digits b k v = (List.range k).map (fun i => v / b ^ i % b) := by
  apply List.ext_getElem
  · simp
  · intro i h1 h2
    have := digits_drop b k i v
    have hi : i < k := by simpa using h1
    have h3 : (digits b k v).drop i = (digits b k v)[i] :: (digits b k v).drop (i + 1) :=
      List.drop_eq_getElem_cons h1
    rw [h3] at this
    obtain ⟨m, hm⟩ : ∃ m, k - i = m + 1 := ⟨k - i - 1, by omega⟩
    rw [hm, digits_succ] at this
    simp only [List.getElem_map, List.getElem_range]
    exact (List.cons.inj this).1

end Verif.Spec

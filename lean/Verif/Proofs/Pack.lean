import Verif.Model.Utils
import Verif.Proofs.Digits
/-!
# Lemmas about packing and unpacking septets
-/
set_option autoImplicit false

namespace Verif
open Verif.Spec

theorem pyIdx_ok {l : List Nat} {i : Nat} (h : i < l.length) : pyIdx l i = .ok l[i] := by
  unfold pyIdx; rw [List.getElem?_eq_getElem h]

theorem leVal_drop_div {b : Nat} (hb : 0 < b) (l : List Nat) (hl : ∀ x ∈ l, x < b) (c : Nat) :
    leVal b l / b ^ c = leVal b (l.drop c) := by
  by_cases hc : c ≤ l.length
  · conv_lhs => rw [← List.take_append_drop c l]
    rw [leVal_append, List.length_take, Nat.min_eq_left hc, Nat.add_mul_div_left _ _ (Nat.pow_pos hb)]
    have : leVal b (l.take c) < b ^ c := by
      have := leVal_lt (b := b) (xs := l.take c) (fun x hx => hl x (List.mem_of_mem_take hx))
      rwa [List.length_take, Nat.min_eq_left hc] at this
    rw [Nat.div_eq_of_lt this, Nat.zero_add]
  · have h1 : l.drop c = [] := List.drop_eq_nil_of_le (by omega)
    rw [h1, leVal_nil]
    apply Nat.div_eq_of_lt
    exact lt_of_lt_of_le (leVal_lt hl) (Nat.pow_le_pow_right hb (by omega))

/-- one octet of the loop -/
theorem octet_eq {t0 t1 W s : Nat} (h0 : t0 < 128) (hs : s < 7) :
    (t0 >>> s) + ((t1 <<< (7 - s)) &&& 255) = (t0 + 128 * (t1 + 128 * W)) / 2 ^ s % 256 := by
  have h255 : (255 : Nat) = 2 ^ 8 - 1 := rfl
  rw [h255, Nat.and_two_pow_sub_one_eq_mod, Nat.shiftRight_eq_div_pow, Nat.shiftLeft_eq]
  have : s = 0 ∨ s = 1 ∨ s = 2 ∨ s = 3 ∨ s = 4 ∨ s = 5 ∨ s = 6 := by omega
  rcases this with rfl | rfl | rfl | rfl | rfl | rfl | rfl <;> norm_num <;> omega

theorem packLoop_eq {txt : List Nat} (ht : ∀ x ∈ txt, x < 128) (k n c shift : Nat)
    (hb : ∀ j, n ≤ j → j < n + k → j + j / 7 + 1 < txt.length)
    (hc : (if shift == 6 then c + 1 else c) = n + n / 7) :
    packLoop txt k n c shift = .ok ((List.range' n k).map fun i => leVal 128 txt / 256 ^ i % 256) := by
  induction k generalizing n c shift with
  | zero => rfl
  | succ k ih =>
    have hlen := hb n (Nat.le_refl _) (by omega)
    rw [packLoop]
    simp only [hc]
    rw [pyIdx_ok (show n + n / 7 < txt.length by omega), pyIdx_ok hlen]
    have hnext : (if n % 7 == 6 then n + n / 7 + 1 + 1 else n + n / 7 + 1) = n + 1 + (n + 1) / 7 := by
      by_cases h6 : n % 7 = 6
      · simp only [h6, beq_self_eq_true, if_true]; omega
      · have : (n % 7 == 6) = false := by simpa using h6
        simp only [this, Bool.false_eq_true, if_false]; omega
    have hrec := ih (n + 1) (n + n / 7 + 1) (n % 7) (fun j h1 h2 => hb j (by omega) (by omega)) hnext
    simp only [bind, Except.bind, hrec, List.range'_succ, List.map_cons]
    congr 2
    have hdrop : txt.drop (n + n / 7) = txt[n + n / 7] :: txt[n + n / 7 + 1] :: txt.drop (n + n / 7 + 2) := by
      rw [List.drop_eq_getElem_cons (by omega), List.drop_eq_getElem_cons (by omega)]
    rw [octet_eq (W := leVal 128 (txt.drop (n + n / 7 + 2))) (ht _ (List.getElem_mem _))
      (Nat.mod_lt _ (by decide))]
    have hp : (256 : Nat) ^ n = 128 ^ (n + n / 7) * 2 ^ (n % 7) := by
      have h1 : (256 : Nat) = 2 ^ 8 := rfl
      have h2 : (128 : Nat) = 2 ^ 7 := rfl
      rw [h1, h2, ← pow_mul, ← pow_mul, ← pow_add]
      congr 1; omega
    rw [hp, ← Nat.div_div_eq_div_mul, leVal_drop_div (by decide) txt ht, hdrop]
    simp only [leVal_cons]

theorem packLoop_digits {txt : List Nat} (ht : ∀ x ∈ txt, x < 128) (k : Nat)
    (hk : 8 * k ≤ 7 * txt.length) (hne : txt ≠ []) :
    packLoop txt k 0 0 0 = .ok (digits 256 k (leVal 128 txt)) := by
  have hpos := List.length_pos_iff.2 hne
  have hb : ∀ j, 0 ≤ j → j < 0 + k → j + j / 7 + 1 < txt.length := by
    intro j _ hj; omega
  rw [packLoop_eq ht k 0 0 0 hb (by simp), digits_eq_map, List.range_eq_range']

theorem chrAll_ok {l : List Nat} (h : ∀ x ∈ l, x < 256) : chrAll l = .ok l := by
  induction l with
  | nil => rfl
  | cons x xs ih =>
    simp only [List.mem_cons, forall_eq_or_imp] at h
    simp [chrAll, pyChr, h.1, ih h.2, bind, Except.bind]

theorem overwrite_ok {op udh : List Nat} (h : udh.length ≤ op.length) :
    overwrite op udh = .ok (udh ++ op.drop udh.length) := by
  induction udh generalizing op with
  | nil => simp [overwrite]
  | cons c cs ih =>
    cases op with
    | nil => simp at h
    | cons o op =>
      simp only [List.length_cons, Nat.add_le_add_iff_right] at h
      simp [overwrite, ih h, bind, Except.bind]

theorem overwrite_short {op udh : List Nat} (h : op.length < udh.length) : overwrite op udh = .error .indexError := by
  induction udh generalizing op with
  | nil => simp at h
  | cons c cs ih =>
    cases op with
    | nil => rfl
    | cons o op =>
      simp only [List.length_cons, Nat.add_lt_add_iff_right] at h
      simp [overwrite, ih h, bind, Except.bind]

theorem hexDig_spec : ∀ d ∈ List.range 16, hexDig d = (py! "0123456789abcdef")[d]! := by decide +kernel

theorem hex02_lt {x : Nat} (h : x < 256) :
    hex02 x = [(py! "0123456789abcdef")[x / 16 % 16]!, (py! "0123456789abcdef")[x % 16]!] := by
  unfold hex02
  rw [if_pos h, hexDig_spec _ (List.mem_range.2 (by omega)), hexDig_spec _ (List.mem_range.2 (by omega))]
  have : x / 16 % 16 = x / 16 := by omega
  rw [this]

theorem encodeStr_hex {l : List Nat} (h : ∀ x ∈ l, x < 256) : encodeStr l = hexLower l := by
  unfold encodeStr hexLower
  induction l with
  | nil => rfl
  | cons x xs ih =>
    simp only [List.mem_cons, forall_eq_or_imp] at h
    simp only [List.flatMap_cons, ih h.2, hex02_lt h.1]

theorem pack7_none {s : List Nat} (hs : ∀ x ∈ s, x < 128) (hn : s.length < 256) :
    ∃ o, PackedSeptets s o ∧ pack7 s none = .ok (encodeStr (s.length :: o)) := by
  have ht : ∀ x ∈ s ++ [0], x < 128 := by
    intro x hx
    rcases List.mem_append.1 hx with h | h
    · exact hs x h
    · simp at h; omega
  have hv : leVal 128 (s ++ [0]) = leVal 128 s := by simp [leVal_append]
  refine ⟨digits 256 ((s.length + 1) * 7 / 8) (leVal 128 s), ⟨?_, digits_lt (by decide) _ _, ?_⟩, ?_⟩
  · rw [digits_length]; omega
  · apply leVal_digits_of_lt
    refine lt_of_lt_of_le (leVal_lt hs) ?_
    have h1 : (256 : Nat) = 2 ^ 8 := rfl
    have h2 : (128 : Nat) = 2 ^ 7 := rfl
    rw [h1, h2, ← pow_mul, ← pow_mul]
    apply Nat.pow_le_pow_right (by decide)
    omega
  · unfold pack7
    simp only [List.length_append, List.length_cons, List.length_nil, Nat.zero_add]
    rw [packLoop_digits ht _ (by simp; omega) (by simp), hv]
    simp [bind, Except.bind, pyChr, hn, chrAll_ok (digits_lt (b := 256) (by decide) _ _)]

theorem pack7_udh {udh s : List Nat} (hs : ∀ x ∈ s, x < 128) (hu : ∀ x ∈ udh, x < 256)
    (hul : udh.length = 6) (hn : s.length + 7 < 256) :
    ∃ o, PackedWithHeader udh s o ∧ pack7 (32 :: s) (some udh) = .ok (encodeStr ((s.length + 7) :: o)) := by
  set txt := [0, 0, 0, 0, 0, 0] ++ (32 :: s) ++ [0] with htxt
  have ht : ∀ x ∈ txt, x < 128 := by
    intro x hx
    simp only [htxt, List.mem_append, List.mem_cons, List.not_mem_nil, or_false] at hx
    rcases hx with (h | h | h) | h
    · omega
    · omega
    · exact hs x h
    · omega
  have hlen : txt.length = s.length + 8 := by simp [htxt]
  have hv : leVal 128 txt = 2 ^ 42 * (32 + 128 * leVal 128 s) := by
    rw [htxt, leVal_append, leVal_append]
    simp only [leVal_cons, leVal_nil, List.length_cons, List.length_nil]
    norm_num
  set k := (s.length + 8) * 7 / 8 with hk
  have hk6 : 7 ≤ k := by omega
  set op := digits 256 k (leVal 128 txt) with hop
  have hopl : op.length = k := digits_length _ _ _
  have hdrop : op.drop 6 = digits 256 (k - 6) (2 * leVal 128 s) := by
    rw [hop, digits_drop, hv]
    congr 1
    norm_num
    omega
  have hbound : 2 * leVal 128 s < 256 ^ (k - 6) := by
    have h0 := leVal_lt hs
    have : 2 * leVal 128 s < 2 * 128 ^ s.length := by omega
    refine lt_of_lt_of_le this ?_
    have h1 : (256 : Nat) = 2 ^ 8 := rfl
    have h2 : (128 : Nat) = 2 ^ 7 := rfl
    rw [h1, h2, ← pow_mul, ← pow_mul, ← pow_succ']
    apply Nat.pow_le_pow_right (by decide)
    omega
  refine ⟨udh ++ op.drop 6, ⟨?_, ?_, ?_⟩, ?_⟩
  · simp only [hdrop, List.length_append, digits_length, hul]; omega
  · intro x hx
    rcases List.mem_append.1 hx with h | h
    · exact hu x h
    · exact digits_lt (b := 256) (by decide) _ _ x (List.mem_of_mem_drop h)
  · rw [leVal_append, hdrop, leVal_digits_of_lt hbound, hul]
    norm_num
    ring
  · unfold pack7
    simp only []
    have hl2 : ([0, 0, 0, 0, 0, 0] ++ (32 :: s)).length = s.length + 7 := by simp
    have hl3 : ([0, 0, 0, 0, 0, 0] ++ (32 :: s) ++ [0]).length = s.length + 8 := by simp
    rw [hl2, hl3, ← htxt, ← hk, packLoop_digits ht k (by rw [hlen]; omega) (by simp [htxt]), ← hop]
    simp only [bind, Except.bind]
    rw [overwrite_ok (by omega), hul]
    have hall : ∀ x ∈ udh ++ op.drop 6, x < 256 := by
      intro x hx
      rcases List.mem_append.1 hx with h | h
      · exact hu x h
      · exact digits_lt (b := 256) (by decide) _ _ x (List.mem_of_mem_drop h)
    simp only [pyChr, hn, if_true, chrAll_ok hall]

/-! ## Unpacking -/

theorem unpack_step {B count last R : Nat} (hB : B < 256) (hc : count < 7) (hl : last < 2 ^ count) :
    ((B &&& (0x7F >>> count)) <<< count) + last = (last + 2 ^ count * (B + 256 * R)) % 128 ∧
    (last + 2 ^ count * (B + 256 * R)) / 128 = B >>> (7 - count) + 2 ^ (count + 1) * R ∧
    B >>> (7 - count) < 2 ^ (count + 1) := by
  have hm : 0x7F >>> count = 2 ^ (7 - count) - 1 := by
    have : count = 0 ∨ count = 1 ∨ count = 2 ∨ count = 3 ∨ count = 4 ∨ count = 5 ∨ count = 6 := by omega
    rcases this with rfl | rfl | rfl | rfl | rfl | rfl | rfl <;> decide
  rw [hm, Nat.and_two_pow_sub_one_eq_mod, Nat.shiftLeft_eq, Nat.shiftRight_eq_div_pow]
  have : count = 0 ∨ count = 1 ∨ count = 2 ∨ count = 3 ∨ count = 4 ∨ count = 5 ∨ count = 6 := by omega
  rcases this with rfl | rfl | rfl | rfl | rfl | rfl | rfl <;> norm_num at hl ⊢ <;> omega

/-- the unpacking loop produces base-128 digits; `i` octets have been consumed so far -/
theorem unpackLoop_eq (bytes : List Nat) (hb : ∀ x ∈ bytes, x < 256) :
    ∀ (i last : Nat) (result : List Nat), last < 2 ^ (i % 7) → result.length = i + i / 7 → i ≤ 140 →
      unpackLoop bytes (i % 7) last result =
        result ++ digits 128 (min ((8 * bytes.length + i % 7) / 7) (161 - result.length))
          (last + 2 ^ (i % 7) * leVal 256 bytes) := by
  induction bytes with
  | nil =>
    intro i last result _ _ _
    have h0 : (8 * ([] : List Nat).length + i % 7) / 7 = 0 := by simp only [List.length_nil]; omega
    rw [h0, Nat.zero_min]; simp [unpackLoop]
  | cons B bytes ih =>
    intro i last result hl hr hi
    simp only [List.mem_cons, forall_eq_or_imp] at hb
    have hc : i % 7 < 7 := Nat.mod_lt _ (by decide)
    obtain ⟨h1, h2, h3⟩ := unpack_step (R := leVal 256 bytes) hb.1 hc hl
    rw [unpackLoop]
    simp only [h1]
    set X := last + 2 ^ (i % 7) * (B + 256 * leVal 256 bytes) with hX
    have hXval : last + 2 ^ (i % 7) * leVal 256 (B :: bytes) = X := by rw [leVal_cons]
    rw [hXval]
    have hlen1 : (result ++ [X % 128]).length = i + i / 7 + 1 := by simp [hr]
    by_cases hbr : i = 140
    · -- the 160 limit has been passed: exactly one more septet
      subst hbr
      have : (result ++ [X % 128]).length ≥ 0xa0 := by omega
      rw [if_pos this]
      have hN : min ((8 * (B :: bytes).length + 140 % 7) / 7) (161 - result.length) = 1 := by
        simp only [List.length_cons]; omega
      rw [hN]; simp
    · have hlt : ¬ (result ++ [X % 128]).length ≥ 0xa0 := by omega
      rw [if_neg hlt]
      have hi' : i + 1 ≤ 140 := by omega
      have hmod : (i % 7 + 1) % 7 = (i + 1) % 7 := by omega
      by_cases h6 : i % 7 = 6
      · simp only [h6, beq_self_eq_true, if_true]
        have e1 : (i + 1) % 7 = 0 := by omega
        have := ih hb.2 (i + 1) 0 (result ++ [X % 128] ++ [B >>> (7 - 6)]) (by rw [e1]; decide)
          (by simp [hr]; omega) hi'
        have hmod6 : (6 + 1) % 7 = (i + 1) % 7 := by omega
        rw [hmod6, this, e1]
        rw [h6] at h2 h3
        have hN : min ((8 * (B :: bytes).length + 6) / 7) (161 - result.length) =
            min ((8 * bytes.length + 0) / 7) (161 - (result ++ [X % 128] ++ [B >>> (7 - 6)]).length) + 1 + 1 := by
          simp only [List.length_cons, List.length_append, List.length_nil, hr]; omega
        rw [hN, digits_succ, digits_succ, h2]
        norm_num at h3 ⊢
        constructor
        · exact (Nat.mod_eq_of_lt h3).symm
        · congr 1; omega
      · have hne : (i % 7 == 6) = false := by simpa using h6
        simp only [hne, Bool.false_eq_true, if_false]
        have e1 : (i + 1) % 7 = i % 7 + 1 := by omega
        have := ih hb.2 (i + 1) (B >>> (7 - i % 7)) (result ++ [X % 128]) (by rw [e1]; exact h3)
          (by simp [hr]; omega) hi'
        rw [hmod, this, e1]
        have hN : min ((8 * (B :: bytes).length + i % 7) / 7) (161 - result.length) =
            min ((8 * bytes.length + (i % 7 + 1)) / 7) (161 - (result ++ [X % 128]).length) + 1 := by
          simp only [List.length_cons, List.length_append, List.length_nil, hr]; omega
        rw [hN, digits_succ, h2]
        simp

theorem unpackMsg2_eq {bytes : List Nat} (hb : ∀ x ∈ bytes, x < 256) :
    unpackMsg2 bytes = digits 128 (min (8 * bytes.length / 7) 161) (leVal 256 bytes) := by
  unfold unpackMsg2
  have := unpackLoop_eq bytes hb 0 0 [] (by decide) (by simp) (by decide)
  simpa using this

theorem hexVal_hexDig : ∀ d ∈ List.range 16, hexVal (hexDig d) = some d := by decide +kernel

theorem pyInt16_hex02 {x : Nat} (h : x < 256) : pyInt16 (hex02 x) = .ok (x : Int) := by
  unfold hex02
  rw [if_pos h]
  have h1 := hexVal_hexDig (x / 16) (List.mem_range.2 (by omega))
  have h2 := hexVal_hexDig (x % 16) (List.mem_range.2 (by omega))
  simp only [pyInt16, h1, h2]
  congr 2; omega

theorem hex02_pair {x : Nat} (h : x < 256) : ∃ a b, hex02 x = [a, b] := by
  unfold hex02; rw [if_pos h]; exact ⟨_, _, rfl⟩

theorem unpackHexLoop_eq {bytes : List Nat} (hb : ∀ x ∈ bytes, x < 256) (count last : Nat) (result : List Nat) :
    unpackHexLoop (encodeStr bytes) count last result = .ok (unpackLoop bytes count last result) := by
  induction bytes generalizing count last result with
  | nil => simp [encodeStr, unpackHexLoop, unpackLoop]
  | cons B bytes ih =>
    simp only [List.mem_cons, forall_eq_or_imp] at hb
    obtain ⟨a, b, hab⟩ := hex02_pair hb.1
    have hp := pyInt16_hex02 hb.1
    rw [hab] at hp
    have he : encodeStr (B :: bytes) = a :: b :: encodeStr bytes := by
      simp [encodeStr, hab]
    rw [he, unpackHexLoop, unpackLoop]
    simp only [hp, bind, Except.bind]
    have hneg : ¬ ((B : Int) < 0) := by omega
    simp only [hneg, if_false, Int.toNat_natCast]
    split
    · rfl
    · exact ih hb.2 _ _ _

theorem unpackMsg_eq {bytes : List Nat} (hb : ∀ x ∈ bytes, x < 256) :
    unpackMsg (encodeStr bytes) = .ok (unpackMsg2 bytes) := unpackHexLoop_eq hb 0 0 []

end Verif

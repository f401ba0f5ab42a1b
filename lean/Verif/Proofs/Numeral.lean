import Verif.Proofs.Wsp3
import Verif.Spec.Numeral
/-!
# Helper lemmas: `int` of a text
-/
set_option autoImplicit false

namespace Verif.Mms
open Verif Verif.Spec.Numeral

theorem isSpace_iff {c : Nat} : isSpace c = true ↔ c ∈ blanks := by
  simp only [isSpace, blanks, Bool.or_eq_true, beq_iff_eq, Bool.and_eq_true, decide_eq_true_eq, List.mem_cons,
    List.not_mem_nil, or_false]
  omega

theorem lstrip_split (s : Str) : ∃ w, s = w ++ lstrip s ∧ Blank w ∧ ∀ c, (lstrip s).head? = some c → isSpace c = false := by
  induction s with
  | nil => exact ⟨[], rfl, by simp [Blank], by simp [lstrip]⟩
  | cons c r ih =>
    unfold lstrip
    by_cases h : isSpace c = true
    · rw [if_pos h]
      obtain ⟨w, h1, h2, h3⟩ := ih
      refine ⟨c :: w, by rw [List.cons_append, ← h1], ?_, h3⟩
      intro x hx
      rcases List.mem_cons.1 hx with rfl | hx
      · exact isSpace_iff.1 h
      · exact h2 x hx
    · rw [if_neg h]
      refine ⟨[], rfl, by simp [Blank], ?_⟩
      intro x hx
      simp only [List.head?_cons, Option.some.injEq] at hx
      subst hx
      simpa using h

theorem strip_split (s : Str) : ∃ w₁ w₃, s = w₁ ++ strip s ++ w₃ ∧ Blank w₁ ∧ Blank w₃ := by
  obtain ⟨w, h1, h2, -⟩ := lstrip_split s
  obtain ⟨v, h3, h4, -⟩ := lstrip_split (lstrip s).reverse
  refine ⟨w, v.reverse, ?_, h2, fun c hc => h4 c (List.mem_reverse.1 hc)⟩
  have h5 : lstrip s = strip s ++ v.reverse := by
    have := congrArg List.reverse h3
    rw [List.reverse_reverse, List.reverse_append] at this
    exact this
  rw [List.append_assoc, ← h5]
  exact h1

theorem lstrip_blank {w r : Str} (hw : Blank w) (hr : ∀ c, r.head? = some c → isSpace c = false) : lstrip (w ++ r) = r := by
  induction w with
  | nil =>
    cases r with
    | nil => rfl
    | cons c r => simp [lstrip, hr c rfl]
  | cons c w ih =>
    rw [List.cons_append, lstrip, if_pos (isSpace_iff.2 (hw c (by simp)))]
    exact ih fun x hx => hw x (by simp [hx])

theorem strip_core {w₁ r w₃ : Str} (h1 : Blank w₁) (h3 : Blank w₃) (hne : r ≠ [])
    (hh : ∀ c, r.head? = some c → isSpace c = false) (hl : ∀ c, r.getLast? = some c → isSpace c = false) :
    strip (w₁ ++ r ++ w₃) = r := by
  unfold strip
  rw [List.append_assoc, lstrip_blank h1 (r := r ++ w₃), List.reverse_append,
    lstrip_blank (fun c hc => h3 c (List.mem_reverse.1 hc)) (r := r.reverse), List.reverse_reverse]
  · intro c hc
    rw [List.head?_reverse] at hc
    exact hl c hc
  · intro c hc
    cases r with
    | nil => exact absurd rfl hne
    | cons a r => exact hh c (by simpa using hc)

theorem foldl_value (ds : Str) (a : Nat) :
    ds.foldl (fun a c => 10 * a + (c - 48)) a = a * 10 ^ ds.length + value ds := by
  induction ds generalizing a with
  | nil => simp [value]
  | cons c r ih =>
    rw [List.foldl_cons, ih]
    simp only [value, List.length_cons, Nat.pow_succ]
    rw [Nat.add_mul, Nat.mul_comm 10 a, Nat.mul_assoc, Nat.mul_comm 10, Nat.add_assoc]

theorem digitsVal_iff (ds : Str) (n : Nat) : digitsVal ds = some n ↔ Digits ds ∧ n = value ds := by
  unfold digitsVal Digits
  rw [foldl_value]
  by_cases h : (ds.isEmpty || ds.any fun c => !(48 ≤ c && c ≤ 57)) = true
  · rw [if_pos h]
    constructor
    · intro h'; cases h'
    · rintro ⟨⟨h1, h2⟩, -⟩
      rw [Bool.or_eq_true] at h
      rcases h with h | h
      · exact absurd (List.isEmpty_iff.1 h) h1
      · obtain ⟨c, hc, hn⟩ := List.any_eq_true.1 h
        have := h2 c hc
        simp [this.1, this.2] at hn
  · rw [if_neg h]
    rw [Bool.not_eq_true, Bool.or_eq_false_iff] at h
    have h2 : ∀ c ∈ ds, 48 ≤ c ∧ c ≤ 57 := by
      intro c hc
      have := List.any_eq_false.1 h.2 c hc
      simpa using this
    have h1 : ds ≠ [] := by
      intro he; subst he; simp at h
    constructor
    · intro h'
      injection h' with h'
      exact ⟨⟨h1, h2⟩, by omega⟩
    · rintro ⟨-, rfl⟩
      simp

theorem digit_space {c : Nat} (h : 48 ≤ c ∧ c ≤ 57) : isSpace c = false := by
  simp only [isSpace, Bool.or_eq_false_iff, Bool.and_eq_false_iff, decide_eq_false_iff_not, beq_eq_false_iff_ne]
  omega

/-- `int(s)` gives the number the text stands for, and nothing else -/
theorem pyIntStr_iff (s : Str) (n : Int) : pyIntStr s = .ok n ↔ Numeral s n := by
  constructor
  · intro h
    obtain ⟨w₁, w₃, hs, h1, h3⟩ := strip_split s
    unfold pyIntStr at h
    split at h
    · rename_i r hr
      obtain ⟨w, g1, g2, -⟩ := lstrip_split r
      split at h
      · rename_i m hm
        injection h with h
        obtain ⟨hd, hv⟩ := (digitsVal_iff _ _).1 hm
        refine ⟨w₁, [43], w, lstrip r, w₃, ?_, h1, g2, h3, hd, Or.inr (Or.inl ⟨rfl, by rw [← h, hv]⟩)⟩
        rw [hr, g1] at hs
        rw [hs]
        simp only [List.append_assoc, List.cons_append, List.nil_append]
      · cases h
    · rename_i r hr
      obtain ⟨w, g1, g2, -⟩ := lstrip_split r
      split at h
      · rename_i m hm
        injection h with h
        obtain ⟨hd, hv⟩ := (digitsVal_iff _ _).1 hm
        refine ⟨w₁, [45], w, lstrip r, w₃, ?_, h1, g2, h3, hd, Or.inr (Or.inr ⟨rfl, by rw [← h, hv]⟩)⟩
        rw [hr, g1] at hs
        rw [hs]
        simp only [List.append_assoc, List.cons_append, List.nil_append]
      · cases h
    · split at h
      · rename_i m hm
        injection h with h
        obtain ⟨hd, hv⟩ := (digitsVal_iff _ _).1 hm
        refine ⟨w₁, [], [], strip s, w₃, ?_, h1, by simp [Blank], h3, hd, Or.inl ⟨rfl, rfl, by rw [← h, hv]⟩⟩
        simpa using hs
      · cases h
  · rintro ⟨w₁, sg, w₂, ds, w₃, hs, h1, h2, h3, hd, hcase⟩
    have hlast : ∀ (t : Str) c, (t ++ ds).getLast? = some c → isSpace c = false := by
      intro t c hc
      rw [List.getLast?_append, List.getLast?_eq_some_getLast hd.1, Option.some_or] at hc
      rw [← List.getLast?_eq_some_getLast hd.1] at hc
      exact digit_space (hd.2 c (List.mem_of_getLast? hc))
    have hhead : ∀ c, ds.head? = some c → isSpace c = false := fun c hc => digit_space (hd.2 c (List.mem_of_mem_head? hc))
    have hdv := (digitsVal_iff ds (value ds)).2 ⟨hd, rfl⟩
    have hst : ∀ sg' : Str, (∀ c, (sg' ++ w₂ ++ ds).head? = some c → isSpace c = false) →
        strip (w₁ ++ sg' ++ w₂ ++ ds ++ w₃) = sg' ++ w₂ ++ ds := by
      intro sg' hh
      have := strip_core (w₁ := w₁) (r := sg' ++ w₂ ++ ds) (w₃ := w₃) h1 h3 (by simp [hd.1]) hh (hlast _)
      simpa using this
    rcases hcase with ⟨rfl, rfl, rfl⟩ | ⟨rfl, rfl⟩ | ⟨rfl, rfl⟩
    · have := hst [] (by simpa using hhead)
      rw [hs]
      unfold pyIntStr
      rw [this]
      simp only [List.append_nil, List.nil_append]
      split
      · have := hd.2 43 (by simp); omega
      · have := hd.2 45 (by simp); omega
      · rw [hdv]
    · have := hst [43] (by intro c hc; simp at hc; subst hc; rfl)
      rw [hs]
      unfold pyIntStr
      rw [this]
      simp only [List.cons_append, List.nil_append, lstrip_blank h2 hhead, hdv]
    · have := hst [45] (by intro c hc; simp at hc; subst hc; rfl)
      rw [hs]
      unfold pyIntStr
      rw [this]
      simp only [List.cons_append, List.nil_append, lstrip_blank h2 hhead, hdv]

theorem numeral_no_dot {s : Str} {n : Int} (h : Numeral s n) : 46 ∉ s := by
  obtain ⟨w₁, sg, w₂, ds, w₃, rfl, h1, h2, h3, hd, hc⟩ := h
  intro hm
  simp only [List.mem_append] at hm
  rcases hm with (((hm | hm) | hm) | hm) | hm
  · have := h1 _ hm; revert this; decide
  · rcases hc with ⟨rfl, -⟩ | ⟨rfl, -⟩ | ⟨rfl, -⟩ <;> simp at hm
  · have := h2 _ hm; revert this; decide
  · have := hd.2 _ hm; omega
  · have := h3 _ hm; revert this; decide

/-- the pieces of a text around its only dot -/
theorem one_dot {s : Str} (h : s.count 46 = 1) : ∃ x y, s = x ++ [46] ++ y ∧ 46 ∉ x ∧ 46 ∉ y := by
  induction s with
  | nil => simp at h
  | cons c s ih =>
    by_cases hc : c = 46
    · subst hc
      rw [List.count_cons_self] at h
      exact ⟨[], s, rfl, by simp, List.count_eq_zero.1 (by omega)⟩
    · rw [List.count_cons_of_ne (by simpa using hc)] at h
      obtain ⟨x, y, rfl, h1, h2⟩ := ih h
      exact ⟨c :: x, y, rfl, by simp [h1, Ne.symm hc], h2⟩

theorem encodeShortInteger_ok' {n : Nat} (h : n ≤ 127) : encodeShortInteger (n : Int) = .ok [((128 + n : Nat) : Int)] := by
  have hall : ∀ n : Fin 128, encodeShortInteger ((n.val : Nat) : Int) = .ok [((128 + n.val : Nat) : Int)] := by decide +kernel
  exact hall ⟨n, by omega⟩

/-- the short form is used exactly for the texts that allow it -/
theorem versionTry_short {s : Str} {a b : Nat} (h : Short s a b) :
    versionTry s = .ok [((128 + 16 * a + b : Nat) : Int)] := by
  cases h with
  | alone _ hn h1 h7 =>
    unfold versionTry
    rw [splitDot_no_dot (numeral_no_dot hn)]
    simp only [bind, Except.bind, (pyIntStr_iff _ _).2 hn]
    rw [if_neg (by omega), show (16 * (a : Int) + 15) = ((16 * a + 15 : Nat) : Int) by omega,
      encodeShortInteger_ok' (by omega), Nat.add_assoc]
  | dotted x y _ _ hs hx hy h1 h7 h14 =>
    unfold versionTry
    rw [hs, show x ++ 46 :: y = x ++ [46] ++ y by simp, splitDot_two (numeral_no_dot hx) (numeral_no_dot hy)]
    simp only [bind, Except.bind, (pyIntStr_iff _ _).2 hx, (pyIntStr_iff _ _).2 hy]
    rw [if_neg (by omega), if_neg (by omega), show (16 * (a : Int) + b) = ((16 * a + b : Nat) : Int) by omega,
      encodeShortInteger_ok' (by omega), Nat.add_assoc]

theorem versionTry_long {s : Str} (hd : s.count 46 ≤ 1) (h : ∀ a b, ¬ Short s a b) : ∃ e, versionTry s = .error e := by
  unfold versionTry
  rcases Nat.lt_or_eq_of_le hd with h0 | h1
  · rw [splitDot_no_dot (List.count_eq_zero.1 (by omega))]
    simp only [bind, Except.bind]
    cases hp : pyIntStr s with
    | error e => exact ⟨e, rfl⟩
    | ok n =>
      by_cases hr : n < 1 ∨ n > 7
      · exact ⟨_, if_pos hr⟩
      · have hn := (pyIntStr_iff _ _).1 hp
        exact absurd (Short.alone n.toNat (by rwa [Int.toNat_of_nonneg (by omega)]) (by omega) (by omega)) (h _ _)
  · obtain ⟨x, y, rfl, hx, hy⟩ := one_dot h1
    rw [splitDot_two hx hy]
    simp only [bind, Except.bind]
    cases hp : pyIntStr x with
    | error e => exact ⟨e, rfl⟩
    | ok n =>
      by_cases hr : n < 1 ∨ n > 7
      · exact ⟨_, if_pos hr⟩
      · simp only [if_neg hr]
        cases hq : pyIntStr y with
        | error e => exact ⟨e, rfl⟩
        | ok m =>
          by_cases hr' : m < 0 ∨ m > 14
          · exact ⟨_, if_pos hr'⟩
          · refine absurd (Short.dotted x y n.toNat m.toNat (by simp) ?_ ?_ (by omega) (by omega) (by omega)) (h _ _)
            · rw [Int.toNat_of_nonneg (by omega)]; exact (pyIntStr_iff _ _).1 hp
            · rw [Int.toNat_of_nonneg (by omega)]; exact (pyIntStr_iff _ _).1 hq

end Verif.Mms

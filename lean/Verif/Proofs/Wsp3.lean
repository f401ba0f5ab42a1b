import Verif.Proofs.Wsp2
/-!
# More lemmas on the WSP encoders: versions, octets, well-known tables
-/
set_option autoImplicit false

namespace Verif.Mms
open Verif.Spec.Wsp

/-! ### minimality of uintvars -/

theorem uvHigh_length {n k : Nat} (h : n < 128 ^ k) : (uvHigh n).length ≤ k := by
  induction k generalizing n with
  | zero =>
    have : n = 0 := by simpa using h
    subst this; rw [uvHigh]; simp
  | succ k ih =>
    rw [uvHigh]
    by_cases h0 : n = 0
    · simp [h0]
    · rw [dif_neg h0, List.length_append, List.length_singleton]
      have : n / 128 < 128 ^ k := by
        rw [Nat.div_lt_iff_lt_mul (by decide)]
        rw [Nat.pow_succ] at h
        omega
      have := ih this
      omega

theorem uvFold_lt (l : List Nat) (a k : Nat) (h : a < 128 ^ k) :
    l.foldl (fun a b => 128 * a + b % 128) a < 128 ^ (k + l.length) := by
  induction l generalizing a k with
  | nil => exact h
  | cons b l ih =>
    simp only [List.foldl, List.length_cons]
    have := ih (128 * a + b % 128) (k + 1) (by rw [Nat.pow_succ]; omega)
    rwa [show k + 1 + l.length = k + (l.length + 1) by omega] at this

theorem uintvar_minimal {l : List Nat} (h : IsUintvar l) {n : Nat} (hv : uvVal l = n) :
    (uintvar n).length ≤ l.length := by
  have hlt := uvFold_lt l 0 0 (by simp)
  have hl : 1 ≤ l.length := by cases h <;> simp
  unfold uintvar
  rw [List.length_append, List.length_singleton]
  have : n < 128 ^ l.length := by
    unfold uvVal at hv
    rw [hv] at hlt
    simpa using hlt
  have : (uvHigh (n / 128)).length ≤ l.length - 1 := by
    apply uvHigh_length
    rw [Nat.div_lt_iff_lt_mul (by decide)]
    rwa [← Nat.pow_succ, Nat.succ_eq_add_one, Nat.sub_add_cancel hl]
  omega

/-! ### versions -/

theorem version_text {s : Str} {e : PyErr} (h : versionTry s = .error e) (h0 : 0 ∉ s)
    (h7 : ∀ c, s.head? = some c → c < 127) :
    ∃ l : List Nat, encodeVersionValue (.str s) = .ok (toInts l) ∧
      ∀ rest, decodeVersionValue ⟨l ++ rest, 0⟩ = .ok s ⟨rest, 0⟩ := by
  refine ⟨s ++ [0], ?_, ?_⟩
  · simp only [encodeVersionValue, h, textOctets_eq]
  · intro rest
    have hne : decodeShortInteger ⟨s ++ [0] ++ rest, 0⟩ = .err .decodeError ⟨s ++ [0] ++ rest, 0⟩ := by
      cases s with
      | nil => exact decodeShortInteger_err (by decide) _
      | cons c s =>
        have := h7 c rfl
        exact decodeShortInteger_err (by omega) _
    unfold decodeVersionValue
    rw [orDE_err (M.bind_err hne), List.append_assoc]
    apply decodeTextString_plain s h0
    intro hc
    have := h7 _ hc
    omega

theorem splitDot_ne_nil (s : Str) : splitDot s ≠ [] := by
  cases s with
  | nil => simp [splitDot]
  | cons c s =>
    unfold splitDot
    split
    · simp
    · split <;> simp

theorem splitDot_length (s : Str) : (splitDot s).length = s.count 46 + 1 := by
  induction s with
  | nil => rfl
  | cons c s ih =>
    unfold splitDot
    by_cases h : c = 46
    · rw [if_pos h, h]; simp [ih]
    · rw [if_neg h, List.count_cons_of_ne (Ne.symm (by simpa using fun e => h e.symm)) ]
      cases hs : splitDot s with
      | nil => exact absurd hs (splitDot_ne_nil s)
      | cons x xs => rw [hs] at ih; simpa using ih

theorem splitDot_mem {s : Str} {c : Nat} (hc : c ∈ s) (h : c ≠ 46) : ∃ x ∈ splitDot s, c ∈ x := by
  induction s with
  | nil => cases hc
  | cons d s ih =>
    unfold splitDot
    by_cases hd : d = 46
    · rw [if_pos hd]
      rcases List.mem_cons.1 hc with rfl | hc
      · exact absurd hd h
      · obtain ⟨x, hx, hcx⟩ := ih hc
        exact ⟨x, by simp [hx], hcx⟩
    · rw [if_neg hd]
      cases hs : splitDot s with
      | nil => exact absurd hs (splitDot_ne_nil s)
      | cons x xs =>
        rcases List.mem_cons.1 hc with rfl | hc
        · exact ⟨c :: x, by simp, by simp⟩
        · obtain ⟨y, hy, hcy⟩ := ih hc
          rw [hs] at hy
          rcases List.mem_cons.1 hy with rfl | hy
          · exact ⟨d :: y, by simp, by simp [hcy]⟩
          · exact ⟨y, by simp [hy], hcy⟩

theorem lstrip_mem {s : Str} {c : Nat} (hc : c ∈ s) (h : isSpace c = false) : c ∈ lstrip s := by
  induction s with
  | nil => cases hc
  | cons d s ih =>
    unfold lstrip
    by_cases hd : isSpace d = true
    · rw [if_pos hd]
      rcases List.mem_cons.1 hc with rfl | hc
      · rw [h] at hd; cases hd
      · exact ih hc
    · rw [if_neg hd]; exact hc

theorem strip_mem {s : Str} {c : Nat} (hc : c ∈ s) (h : isSpace c = false) : c ∈ strip s := by
  unfold strip
  exact List.mem_reverse.2 (lstrip_mem (List.mem_reverse.2 (lstrip_mem hc h)) h)

theorem digitsVal_none {s : Str} {c : Nat} (hc : c ∈ s) (h : ¬ (48 ≤ c ∧ c ≤ 57)) : digitsVal s = none := by
  unfold digitsVal
  rw [if_pos]
  simp only [Bool.or_eq_true, List.any_eq_true, Bool.not_eq_true', Bool.and_eq_false_iff, decide_eq_false_iff_not]
  exact Or.inr ⟨c, hc, by omega⟩

theorem pyIntStr_error {s : Str} {c : Nat} (hc : c ∈ s) (hs : isSpace c = false) (h : ¬ (48 ≤ c ∧ c ≤ 57))
    (h43 : c ≠ 43) (h45 : c ≠ 45) : pyIntStr s = .error .valueError := by
  have hm := strip_mem hc hs
  unfold pyIntStr
  split
  · rename_i r hr
    rw [hr] at hm
    rcases List.mem_cons.1 hm with h' | h'
    · exact absurd h' h43
    · rw [digitsVal_none (lstrip_mem h' hs) h]
  · rename_i r hr
    rw [hr] at hm
    rcases List.mem_cons.1 hm with h' | h'
    · exact absurd h' h45
    · rw [digitsVal_none (lstrip_mem h' hs) h]
  · rw [digitsVal_none hm h]

theorem versionTry_error {s : Str} (hdot : s.count 46 ≤ 1) {c : Nat} (hc : c ∈ s)
    (h : isSpace c = false ∧ ¬ (48 ≤ c ∧ c ≤ 57) ∧ c ≠ 43 ∧ c ≠ 45 ∧ c ≠ 46) : ∃ e, versionTry s = .error e := by
  obtain ⟨hs, hd, h43, h45, h46⟩ := h
  have hl := splitDot_length s
  obtain ⟨x, hx, hcx⟩ := splitDot_mem hc h46
  have he := pyIntStr_error hcx hs hd h43 h45
  unfold versionTry
  match hsp : splitDot s, hl, hx with
  | [a], _, hx =>
    simp at hx; subst hx
    exact ⟨.valueError, by simp only [he, bind, Except.bind]⟩
  | [a, b], _, hx =>
    rcases List.mem_cons.1 hx with rfl | hx
    · exact ⟨.valueError, by simp only [he, bind, Except.bind]⟩
    · simp at hx; subst hx
      simp only [bind, Except.bind]
      cases pyIntStr a with
      | error e => exact ⟨e, rfl⟩
      | ok m =>
        simp only []
        split
        · exact ⟨_, rfl⟩
        · rw [he]; exact ⟨_, rfl⟩
  | [], _, hx => cases hx
  | _ :: _ :: _ :: _, hl, _ => simp at hl; omega

theorem natStr_digits (n : Nat) : ∀ c ∈ natStr n, 48 ≤ c ∧ c ≤ 57 := by
  induction n using Nat.strongRecOn with
  | _ n ih =>
    rw [natStr]
    by_cases h : n < 10
    · rw [if_pos h]; intro c hc; simp at hc; omega
    · rw [if_neg h]
      intro c hc
      rcases List.mem_append.1 hc with hc | hc
      · exact ih (n / 10) (by omega) c hc
      · simp at hc; omega

theorem natStr_ne_nil (n : Nat) : natStr n ≠ [] := by
  rw [natStr]; split <;> simp

theorem natStr_val (n : Nat) : (natStr n).foldl (fun a c => 10 * a + (c - 48)) 0 = n := by
  induction n using Nat.strongRecOn with
  | _ n ih =>
    rw [natStr]
    by_cases h : n < 10
    · rw [if_pos h]; simp
    · rw [if_neg h, List.foldl_append, ih (n / 10) (by omega)]
      simp; omega

theorem digitsVal_natStr (n : Nat) : digitsVal (natStr n) = some n := by
  unfold digitsVal
  rw [if_neg, natStr_val]
  simp only [Bool.or_eq_true, List.any_eq_true, Bool.not_eq_true', Bool.and_eq_false_iff, decide_eq_false_iff_not,
    List.isEmpty_iff, not_or, not_exists, not_and]
  refine ⟨natStr_ne_nil n, ?_⟩
  intro c hc
  have := natStr_digits n c hc
  omega

theorem lstrip_eq {s : Str} (h : ∀ c ∈ s, isSpace c = false) : lstrip s = s := by
  cases s with
  | nil => rfl
  | cons c s =>
    unfold lstrip
    rw [if_neg (by rw [h c (by simp)]; decide)]

theorem strip_eq {s : Str} (h : ∀ c ∈ s, isSpace c = false) : strip s = s := by
  unfold strip
  rw [lstrip_eq h, lstrip_eq (fun c hc => h c (List.mem_reverse.1 hc)), List.reverse_reverse]

theorem digit_not_space {c : Nat} (h : 48 ≤ c ∧ c ≤ 57) : isSpace c = false := by
  unfold isSpace
  simp only [Bool.or_eq_false_iff, Bool.and_eq_false_iff, decide_eq_false_iff_not, beq_eq_false_iff_ne]
  omega

theorem pyIntStr_natStr (n : Nat) : pyIntStr (natStr n) = .ok (n : Int) := by
  have hd := natStr_digits n
  unfold pyIntStr
  rw [strip_eq (fun c hc => digit_not_space (hd c hc))]
  split
  · rename_i r hr
    have := hd 43 (by rw [hr]; simp)
    omega
  · rename_i r hr
    have := hd 45 (by rw [hr]; simp)
    omega
  · rw [digitsVal_natStr]

theorem splitDot_no_dot {s : Str} (h : 46 ∉ s) : splitDot s = [s] := by
  induction s with
  | nil => rfl
  | cons c s ih =>
    unfold splitDot
    rw [if_neg (fun e => h (by simp [e])), ih (fun e => h (by simp [e]))]

theorem splitDot_two {a b : Str} (ha : 46 ∉ a) (hb : 46 ∉ b) : splitDot (a ++ [46] ++ b) = [a, b] := by
  induction a with
  | nil => simp only [List.nil_append, List.cons_append, splitDot, if_pos, splitDot_no_dot hb]
  | cons c a ih =>
    simp only [List.cons_append, splitDot]
    rw [if_neg (fun e => ha (by simp [e])), ih (fun e => ha (by simp [e]))]

theorem natStr_no_dot (n : Nat) : 46 ∉ natStr n := fun h => by have := natStr_digits n 46 h; omega

theorem versionStr_range (a b : Nat) : ∀ c ∈ versionStr a b, 46 ≤ c ∧ c < 127 := by
  intro c hc
  unfold versionStr at hc
  simp only [List.mem_append, List.mem_singleton] at hc
  rcases hc with (hc | hc) | hc
  · have := natStr_digits a c hc; omega
  · omega
  · have := natStr_digits b c hc; omega

theorem versionStr_not_zero (a b : Nat) : 0 ∉ versionStr a b := fun h => by
  have := versionStr_range a b 0 h; omega

theorem versionTry_range {a b : Nat} (h : a < 1 ∨ 7 < a ∨ 14 < b) : ∃ e, versionTry (versionStr a b) = .error e := by
  unfold versionTry versionStr
  rw [splitDot_two (natStr_no_dot a) (natStr_no_dot b)]
  simp only [bind, Except.bind, pyIntStr_natStr]
  by_cases h1 : (a : Int) < 1 ∨ (a : Int) > 7
  · rw [if_pos h1]; exact ⟨_, rfl⟩
  · rw [if_neg h1, if_pos (by omega)]; exact ⟨_, rfl⟩

/-! ### octets -/

theorem encodeLongInteger_octets {n : Int} {l : List Int} (h : encodeLongInteger n = .ok l) : Octets l := by
  unfold encodeLongInteger at h
  rw [longIntEncLoop_eq] at h
  by_cases h1 : (!isPyInt n) = true
  · rw [if_pos h1] at h; cases h
  · rw [if_neg h1] at h
    simp only [List.nil_append] at h
    by_cases h2 : (toInts (leDigits n.toNat)).length > 30
    · rw [if_pos h2] at h; cases h
    · rw [if_neg h2] at h
      injection h with h
      subst h
      intro x hx
      rcases List.mem_cons.1 hx with rfl | hx
      · omega
      · exact toInts_octets (leDigits_lt _) x hx

theorem encodeValueLength_octets (n : Int) : Octets (encodeValueLength n) := by
  unfold encodeValueLength encodeShortLength
  by_cases h : n < 0 ∨ n > 30
  · rw [if_pos h]
    intro x hx
    rcases List.mem_cons.1 hx with rfl | hx
    · decide
    · exact encodeUintVar_octets n x hx
  · rw [if_neg h]
    intro x hx
    simp at hx
    omega

theorem encodeIntegerValue_octets {x : Val} {l : List Int} (h : encodeIntegerValue x = .ok l) : Octets l := by
  unfold encodeIntegerValue at h
  split at h
  · cases h
  · split at h
    · cases h
    · split at h
      · rename_i he
        injection h with h; subst h
        exact encodeShortInteger_octets he
      · exact encodeLongInteger_octets h
      · cases h

theorem encodeExtensionMedia_octets {s : Str} (hs : ∀ c ∈ s, c < 256) {l : List Int}
    (h : encodeExtensionMedia s = .ok l) : Octets l := by
  unfold encodeExtensionMedia at h
  split at h
  · cases h
  · split at h
    · cases h
    · injection h with h; subst h; exact textOctets_octets hs

theorem natStr_lt (n : Nat) : ∀ c ∈ natStr n, c < 256 := fun c hc => by have := natStr_digits n c hc; omega

theorem intStr_lt (n : Int) : ∀ c ∈ intStr n, c < 256 := by
  unfold intStr
  split
  · intro c hc
    rcases List.mem_cons.1 hc with rfl | hc
    · decide
    · exact natStr_lt _ c hc
  · exact natStr_lt _

theorem encodeTextString_octets {x : Val} (hx : OctetVal x) {l : List Int} (h : encodeTextString x = .ok l) :
    Octets l := by
  unfold encodeTextString at h
  split at h
  · injection h with h; subst h; exact textOctets_octets hx
  · injection h with h; subst h; exact textOctets_octets hx
  · cases h

theorem versionTry_octets {s : Str} {l : List Int} (h : versionTry s = .ok l) : Octets l := by
  unfold versionTry at h
  split at h
  · simp only [bind, Except.bind] at h
    split at h
    · cases h
    · split at h
      · cases h
      · exact encodeShortInteger_octets h
  · simp only [bind, Except.bind] at h
    split at h
    · cases h
    · split at h
      · cases h
      · split at h
        · cases h
        · split at h
          · cases h
          · exact encodeShortInteger_octets h
  · injection h with h; subst h; intro x hx; cases hx

theorem encodeVersionValue_octets {x : Val} (hx : OctetVal x) {l : List Int} (h : encodeVersionValue x = .ok l) :
    Octets l := by
  unfold encodeVersionValue at h
  split at h
  · split at h
    · rename_i hv; injection h with h; subst h; exact versionTry_octets hv
    · injection h with h; subst h; exact textOctets_octets hx
  · cases h

theorem encodeConstrainedEncoding_octets {x : Val} (hx : OctetVal x) {l : List Int}
    (h : encodeConstrainedEncoding x = .ok l) : Octets l := by
  unfold encodeConstrainedEncoding at h
  split at h
  · split at h
    · exact encodeShortInteger_octets h
    · exact encodeExtensionMedia_octets (intStr_lt _) h
  · exact encodeShortInteger_octets h
  · exact encodeExtensionMedia_octets hx h
  · split at h
    · split at h <;> cases h
    · exact encodeExtensionMedia_octets hx h
  · exact encodeExtensionMedia_octets (by decide) h
  · exact encodeExtensionMedia_octets (fun c hc => Nat.lt_trans ((strOther _).2.2 c hc).2 (by decide)) h
  · exact encodeExtensionMedia_octets (fun c hc => Nat.lt_trans ((strOther _).2.2 c hc).2 (by decide)) h

theorem encodeShortIntegerV_octets {x : Val} {l : List Int} (h : encodeShortIntegerV x = .ok l) : Octets l := by
  unfold encodeShortIntegerV at h
  split at h
  · exact encodeShortInteger_octets h
  · split at h
    · split at h <;> cases h
    · cases h

theorem encodeTyped_octets {t : PType} {x : Val} (hx : OctetVal x) {l : List Int} (h : encodeTyped t x = .ok l) :
    Octets l := by
  unfold encodeTyped at h
  split at h
  · exact encodeVersionValue_octets hx h
  · exact encodeIntegerValue_octets h
  · exact encodeTextString_octets hx h
  · exact encodeShortIntegerV_octets h
  · exact encodeConstrainedEncoding_octets hx h
  · injection h with h; subst h; intro y hy; simp [encodeNoValue] at hy; omega
  · exact encodeTextString_octets hx h
  all_goals cases h

theorem encodeTokenText_octets {s : Str} (hs : ∀ c ∈ s, c < 256) {l : List Int} (h : encodeTokenText s = .ok l) :
    Octets l := by
  unfold encodeTokenText at h
  split at h
  · cases h
  · injection h with h; subst h; exact textOctets_octets hs

/-! ### tables -/

theorem header_take {names : List Str} {k : Nat} (n : Nat) (name : Str) :
    (names.take k)[n]? = some name ↔ names[n]? = some name ∧ n < k := by
  rw [List.getElem?_take]
  split
  · rename_i h; simp [h]
  · rename_i h; simp [h]

theorem encodeParameter_inv {name : Str} {x : Val} {version : Str} {l : List Int}
    (h : encodeParameter name x version = .ok l) : ∃ t, getWellKnownParameters version = .ok t ∧
      ((∃ n ty a b, findParam t name = some (n, ty) ∧ encodeShortInteger n = .ok a ∧ encodeTyped ty x = .ok b ∧ l = a ++ b) ∨
       (∃ a b, findParam t name = none ∧ encodeTokenText name = .ok a ∧
         ((encodeIntegerValue x = .ok b) ∨ (encodeIntegerValue x = .error .encodeError ∧ encodeTextString x = .ok b)) ∧
         l = a ++ b)) := by
  unfold encodeParameter at h
  simp only [bind, Except.bind] at h
  cases ht : getWellKnownParameters version with
  | error e => rw [ht] at h; cases h
  | ok t =>
    rw [ht] at h
    simp only [] at h
    refine ⟨t, rfl, ?_⟩
    cases hf : findParam t name with
    | some p =>
      obtain ⟨n, ty⟩ := p
      rw [hf] at h
      simp only [] at h
      left
      cases ha : encodeShortInteger n with
      | error e => rw [ha] at h; cases h
      | ok a =>
        rw [ha] at h
        cases hb : encodeTyped ty x with
        | error e => rw [hb] at h; cases h
        | ok b =>
          rw [hb] at h
          injection h with h
          exact ⟨n, ty, a, b, rfl, ha, hb, h.symm⟩
    | none =>
      rw [hf] at h
      simp only [] at h
      right
      cases ha : encodeTokenText name with
      | error e => rw [ha] at h; cases h
      | ok a =>
        rw [ha] at h
        simp only [] at h
        cases hi : encodeIntegerValue x with
        | ok b =>
          rw [hi] at h
          injection h with h
          exact ⟨a, b, rfl, rfl, Or.inl rfl, h.symm⟩
        | error e =>
          rw [hi] at h
          by_cases he : e = .encodeError
          · subst he
            simp only [] at h
            cases hb : encodeTextString x with
            | error e => rw [hb] at h; cases h
            | ok b =>
              rw [hb] at h
              injection h with h
              exact ⟨a, b, rfl, rfl, Or.inr ⟨rfl, rfl⟩, h.symm⟩
          · split at h
            · rename_i h1; cases h1
            · rename_i h1; injection h1 with h1; exact absurd h1 he
            · cases h

theorem findParam_some {t : List (Nat × Str × PType)} {name : Str} {n : Nat} {ty : PType}
    (h : findParam t name = some (n, ty)) : (n, name, ty) ∈ t := by
  unfold findParam at h
  split at h
  · rename_i e he
    have hm := List.mem_of_find?_eq_some he
    have hp := List.find?_some he
    simp only [decide_eq_true_eq] at hp
    injection h with h
    injection h with h1 h2
    obtain ⟨a, b, c⟩ := e
    simp only at hp h1 h2
    subst h1 h2 hp
    exact List.mem_reverse.1 hm
  · cases h

theorem findParam_none {t : List (Nat × Str × PType)} {name : Str} (h : findParam t name = none) :
    ∀ e ∈ t, e.2.1 ≠ name := by
  unfold findParam at h
  split at h
  · cases h
  · rename_i he
    intro e hm
    have := List.find?_eq_none.1 he e (List.mem_reverse.2 hm)
    simpa using this

theorem wellKnownParameters_distinct : wellKnownParameters.Pairwise (fun a b => a.1 ≠ b.1) := by decide +kernel

theorem wellKnownParameters_small : ∀ e ∈ wellKnownParameters, e.1 < 128 := by decide +kernel

theorem getWellKnownParameters_sub {v : Str} {t : List (Nat × Str × PType)} (h : getWellKnownParameters v = .ok t) :
    t.Sublist wellKnownParameters := by
  unfold getWellKnownParameters at h
  simp only [bind, Except.bind] at h
  cases hv : versionMinor v with
  | error e => rw [hv] at h; cases h
  | ok m =>
    rw [hv] at h
    injection h with h
    subst h
    have key : ∀ (c : Prop) [Decidable c] (t : List (Nat × Str × PType)) (lo hi : Nat),
        t.Sublist wellKnownParameters → (if c then delRange t lo hi else t).Sublist wellKnownParameters := by
      intro c _ t lo hi ht
      split
      · exact List.filter_sublist.trans ht
      · exact ht
    exact key _ _ _ _ (key _ _ _ _ (key _ _ _ _ (List.Sublist.refl _)))

theorem known_name {version : Str} {t : List (Nat × Str × PType)} (ht : getWellKnownParameters version = .ok t)
    {n : Nat} {name : Str} {ty : PType} (hf : findParam t name = some (n, ty)) :
    n < 128 ∧ ∀ rest, decodeWellKnownParameter version ⟨(128 + n) :: rest, 0⟩ = .ok (name, ty) ⟨rest, 0⟩ := by
  have hm := findParam_some hf
  have hsub := getWellKnownParameters_sub ht
  have hn : n < 128 := wellKnownParameters_small _ (hsub.subset hm)
  refine ⟨hn, ?_⟩
  intro rest
  have hl : lookupNum t n = some (name, ty) := lookupNum_of_mem hm (wellKnownParameters_distinct.sublist hsub)
  unfold decodeWellKnownParameter
  rw [M.bind_ok (decodeIntegerValue_short (by omega) (by omega) rest), ht, M.bind_ok (M.lift_ok _ _),
    show 128 + n - 128 = n by omega, hl]
  rfl

theorem encodeParameter_octets {name : Str} {x : Val} {version : Str} (hn : ∀ c ∈ name, c < 256) (hx : OctetVal x)
    {l : List Int} (h : encodeParameter name x version = .ok l) : Octets l := by
  obtain ⟨t, _, h | h⟩ := encodeParameter_inv h
  · obtain ⟨n, ty, a, b, _, ha, hb, rfl⟩ := h
    exact (encodeShortInteger_octets ha).append (encodeTyped_octets hx hb)
  · obtain ⟨a, b, _, ha, hb, rfl⟩ := h
    refine (encodeTokenText_octets hn ha).append ?_
    rcases hb with hb | ⟨_, hb⟩
    · exact encodeIntegerValue_octets hb
    · exact encodeTextString_octets hx hb

theorem parameters_version (v : Nat) (h1 : 1 ≤ v) (h4 : v ≤ 4) :
    getWellKnownParameters (version1 v) = .ok (wellKnownParameters.filter (fun e => paramVersion e.1 ≤ v)) := by
  have : v = 1 ∨ v = 2 ∨ v = 3 ∨ v = 4 := by omega
  rcases this with rfl | rfl | rfl | rfl <;> decide +kernel

theorem header_versions (v : Nat) (h1 : 1 ≤ v) (h4 : v ≤ 4) : ∃ names, getHeaderFieldNames (version1 v) = .ok names ∧
    ∀ n name, names[n]? = some name ↔ headerFieldNames[n]? = some name ∧ headerVersion n ≤ v := by
  have hlen : headerFieldNames.length = 72 := by decide +kernel
  have : v = 1 ∨ v = 2 ∨ v = 3 ∨ v = 4 := by omega
  rcases this with rfl | rfl | rfl | rfl
  · refine ⟨headerFieldNames.take 0x2f, rfl, ?_⟩
    intro n name
    rw [header_take]
    have : n < 0x2f ↔ headerVersion n ≤ 1 := by unfold headerVersion; split <;> (try split) <;> (try split) <;> omega
    rw [this]
  · refine ⟨headerFieldNames.take 0x38, rfl, ?_⟩
    intro n name
    rw [header_take]
    have : n < 0x38 ↔ headerVersion n ≤ 2 := by unfold headerVersion; split <;> (try split) <;> (try split) <;> omega
    rw [this]
  · refine ⟨headerFieldNames.take 0x44, rfl, ?_⟩
    intro n name
    rw [header_take]
    have : n < 0x44 ↔ headerVersion n ≤ 3 := by unfold headerVersion; split <;> (try split) <;> (try split) <;> omega
    rw [this]
  · refine ⟨headerFieldNames, rfl, ?_⟩
    intro n name
    have : headerVersion n ≤ 4 := by unfold headerVersion; split <;> (try split) <;> (try split) <;> omega
    simp [this]

theorem parameter_name (v : Nat) (h1 : 1 ≤ v) (h4 : v ≤ 4) {name : Str} {x : Val} {l : List Int}
    (hk : ∃ e ∈ wellKnownParameters, e.2.1 = name ∧ paramVersion e.1 ≤ v)
    (h : encodeParameter name x (version1 v) = .ok l) : ∃ (b : Nat) (tail : List Int) (ty : PType),
      l = (b : Int) :: tail ∧ encodeTyped ty x = .ok tail ∧
      ∀ rest, decodeWellKnownParameter (version1 v) ⟨b :: rest, 0⟩ = .ok (name, ty) ⟨rest, 0⟩ := by
  obtain ⟨t, ht, h⟩ := encodeParameter_inv h
  rcases h with h | h
  · obtain ⟨n, ty, a, b, hf, ha, hb, rfl⟩ := h
    obtain ⟨hn, hd⟩ := known_name ht hf
    rw [encodeShortInteger_nat hn] at ha
    injection ha with ha
    subst ha
    exact ⟨128 + n, b, ty, rfl, hb, hd⟩
  · obtain ⟨a, b, hf, _⟩ := h
    obtain ⟨e, he, hen, hev⟩ := hk
    rw [parameters_version v h1 h4] at ht
    injection ht with ht
    subst ht
    exact absurd hen (findParam_none hf e (List.mem_filter.2 ⟨he, by simpa using hev⟩))

theorem other_name (v : Nat) (h1 : 1 ≤ v) (h4 : v ≤ 4) {name : Str} {x : Val} {l : List Int} (hT : IsToken name)
    (hk : ¬ ∃ e ∈ wellKnownParameters, e.2.1 = name ∧ paramVersion e.1 ≤ v)
    (h : encodeParameter name x (version1 v) = .ok l) : ∃ tail : List Int, l = toInts (name ++ [0]) ++ tail ∧
      ∀ rest, decodeTokenText ⟨name ++ 0 :: rest, 0⟩ = .ok name ⟨rest, 0⟩ := by
  obtain ⟨t, ht, h⟩ := encodeParameter_inv h
  rcases h with h | h
  · obtain ⟨n, ty, a, b, hf, _⟩ := h
    have hm := findParam_some hf
    rw [parameters_version v h1 h4] at ht
    injection ht with ht
    subst ht
    have hm := List.mem_filter.1 hm
    exact absurd ⟨_, hm.1, rfl, by simpa using hm.2⟩ hk
  · obtain ⟨a, b, hf, ha, hb, rfl⟩ := h
    refine ⟨b, ?_, ?_⟩
    · unfold encodeTokenText at ha
      split at ha
      · cases ha
      · injection ha with ha; rw [← ha, textOctets_eq]
    · exact decodeTokenText_ok name hT.1 (fun c hc => by have := isTokenChar_sep (hT.2 c hc); exact ⟨this.1, this.2.1⟩)

end Verif.Mms

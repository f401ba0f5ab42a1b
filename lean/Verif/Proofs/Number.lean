import Verif.Proofs.Hex
import Verif.Model.Submit
/-!
# Phone number lemmas
-/
set_option autoImplicit false

namespace Verif.Submit
open Verif Verif.Spec Verif.Spec.Sms

theorem takeWhile_digits {ds rest : List Nat} (h : ∀ d ∈ ds, isDigit d = true)
    (hr : ∀ c, rest.head? = some c → isDigit c = false) :
    (ds ++ rest).takeWhile isDigit = ds ∧ (ds ++ rest).dropWhile isDigit = rest := by
  induction ds with
  | nil =>
    cases rest with
    | nil => exact ⟨rfl, rfl⟩
    | cons c r =>
      have := hr c rfl
      simp [this]
  | cons d ds ih =>
    simp only [List.mem_cons, forall_eq_or_imp] at h
    obtain ⟨h1, h2⟩ := ih h.2
    simp [h.1, h1, h2]

theorem isDigit_iff {d : Nat} : isDigit d = true ↔ 48 ≤ d ∧ d ≤ 57 := by simp [isDigit]

/-- the part of the matcher after the optional plus -/
def digitsNl (s : Str) : Bool :=
  3 ≤ (s.takeWhile isDigit).length && (s.takeWhile isDigit).length ≤ 20 &&
    ((s.dropWhile isDigit) == [] || (s.dropWhile isDigit) == [10])

theorem digitsNl_iff {s : Str} : digitsNl s = true ↔
    ∃ (nl : Bool) (ds : List Nat), s = ds ++ (if nl then [10] else []) ∧ 3 ≤ ds.length ∧ ds.length ≤ 20 ∧
      ∀ d ∈ ds, 48 ≤ d ∧ d ≤ 57 := by
  constructor
  · intro h
    unfold digitsNl at h
    simp only [Bool.and_eq_true, decide_eq_true_eq, Bool.or_eq_true, beq_iff_eq] at h
    obtain ⟨⟨h1, h2⟩, h3⟩ := h
    have hs : s = s.takeWhile isDigit ++ s.dropWhile isDigit := (List.takeWhile_append_dropWhile).symm
    have hd : ∀ d ∈ s.takeWhile isDigit, 48 ≤ d ∧ d ≤ 57 := fun d hd =>
      isDigit_iff.1 (by
        have := List.all_takeWhile (l := s) (p := isDigit)
        rw [List.all_eq_true] at this
        exact this d hd)
    rcases h3 with h3 | h3
    · refine ⟨false, s.takeWhile isDigit, ?_, h1, h2, hd⟩
      rw [h3] at hs; simpa using hs
    · refine ⟨true, s.takeWhile isDigit, ?_, h1, h2, hd⟩
      rw [h3] at hs; simpa using hs
  · rintro ⟨nl, ds, rfl, h1, h2, h3⟩
    have := takeWhile_digits (ds := ds) (rest := if nl then [10] else [])
      (fun d hd => isDigit_iff.2 (h3 d hd)) (by
        intro c hc
        cases nl
        · simp at hc
        · simp at hc; subst hc; decide)
    unfold digitsNl
    rw [this.1, this.2]
    cases nl <;> simp [h1, h2]

theorem validNumber_eq (x : Str) : validNumber x = digitsNl (optPlus x) := rfl

theorem validNumber_iff (x : Str) : validNumber x = true ↔ ValidNumber x := by
  rw [validNumber_eq, digitsNl_iff]
  unfold ValidNumber
  constructor
  · rintro ⟨nl, ds, h1, h2, h3, h4⟩
    cases x with
    | nil =>
      refine ⟨false, nl, ds, ?_, h2, h3, h4⟩
      simpa [optPlus] using h1
    | cons c r =>
      by_cases hc : c = 43
      · subst hc
        refine ⟨true, nl, ds, ?_, h2, h3, h4⟩
        simpa [optPlus] using h1
      · refine ⟨false, nl, ds, ?_, h2, h3, h4⟩
        simpa [optPlus, hc] using h1
  · rintro ⟨plus, nl, ds, rfl, h2, h3, h4⟩
    refine ⟨nl, ds, ?_, h2, h3, h4⟩
    cases plus
    · cases ds with
      | nil => simp at h2
      | cons d ds =>
        have := h4 d (by simp)
        have hd : d ≠ 43 := by omega
        simp [optPlus, hd]
    · simp [optPlus]

theorem lstrip_cons {c : Nat} {r : Str} (h : isSpace c = false) : lstrip (c :: r) = c :: r := by
  simp [lstrip, h]

/-- canonical form of an accepted number -/
def canon (plus : Bool) (ds : List Nat) : Str := (if plus then [43] else []) ++ ds

theorem canon_nospace {plus : Bool} {ds : List Nat} (h : ∀ d ∈ ds, 48 ≤ d ∧ d ≤ 57) :
    ∀ c ∈ canon plus ds, isSpace c = false ∧ c ≠ 32 := by
  intro c hc
  unfold canon at hc
  have : c = 43 ∨ (48 ≤ c ∧ c ≤ 57) := by
    rcases List.mem_append.1 hc with h' | h'
    · cases plus <;> simp at h'
      left; exact h'
    · right; exact h c h'
  constructor
  · unfold isSpace
    rcases this with rfl | ⟨h1, h2⟩
    · decide
    · simp; omega
  · omega

theorem strip_nospace {l : Str} (h : ∀ c ∈ l, isSpace c = false) (nl : Bool) :
    strip (l ++ if nl then [10] else []) = l := by
  have hl : ∀ (l : Str), (∀ c ∈ l, isSpace c = false) → lstrip l = l := by
    intro l h
    cases l with
    | nil => rfl
    | cons c r => exact lstrip_cons (h c (by simp))
  unfold strip
  cases nl
  · simp only [Bool.false_eq_true, if_false, List.append_nil]
    rw [hl l h, hl l.reverse (fun c hc => h c (by simpa using hc)), List.reverse_reverse]
  · simp only [if_true]
    cases l with
    | nil => decide
    | cons c r =>
      rw [List.cons_append, lstrip_cons (h c (by simp)), ← List.cons_append]
      have : ((c :: r) ++ [10]).reverse = 10 :: (c :: r).reverse := by simp
      rw [this]
      have h10 : lstrip (10 :: (c :: r).reverse) = lstrip (c :: r).reverse := by
        rw [lstrip, if_pos (by decide)]
      rw [h10, hl _ (fun c' hc => h c' (List.mem_reverse.1 hc)), List.reverse_reverse]

theorem cleanNumber_valid {plus nl : Bool} {ds : List Nat} (h : ∀ d ∈ ds, 48 ≤ d ∧ d ≤ 57) :
    strip ((if plus then [43] else []) ++ ds ++ (if nl then [10] else [])) = canon plus ds ∧
    cleanNumber ((if plus then [43] else []) ++ ds ++ (if nl then [10] else [])) = canon plus ds := by
  have hn := canon_nospace (plus := plus) h
  have h1 : strip ((if plus then [43] else []) ++ ds ++ (if nl then [10] else [])) = canon plus ds :=
    strip_nospace (l := canon plus ds) (fun c hc => (hn c hc).1) nl
  refine ⟨h1, ?_⟩
  unfold cleanNumber
  rw [h1]
  apply List.filter_eq_self.2
  intro c hc
  simpa using (hn c hc).2

theorem splitPlus_canon {plus : Bool} {ds : List Nat} (h : ∀ d ∈ ds, 48 ≤ d ∧ d ≤ 57) (hne : ds ≠ []) :
    splitPlus (canon plus ds) = .ok (ds, if plus then 0x91 else 0x81) := by
  cases plus
  · cases ds with
    | nil => exact absurd rfl hne
    | cons d r =>
      have := h d (by simp)
      have hd : d ≠ 43 := by omega
      simp [canon, splitPlus, hd]
  · simp [canon, splitPlus]

theorem hexVal_digit {d : Nat} (h : 48 ≤ d ∧ d ≤ 57) : hexVal d = some (d - 48) := by
  unfold hexVal; rw [if_pos h]

theorem semiOctets_padF : ∀ ds : List Nat, (∀ d ∈ ds, 48 ≤ d ∧ d ≤ 57) →
    semiOctets (padF ds) = .ok (bcd (ds.map (· - 48)))
  | [], _ => by simp [padF, semiOctets, bcd]
  | [d], h => by
    have hd := h d (by simp)
    have hv := hexVal_digit hd
    have hF : hexVal 70 = some 15 := by decide
    have hlt : 16 * 15 + (d - 48) < 256 := by omega
    simp only [padF, List.length_singleton, Nat.one_mod, ne_eq, one_ne_zero, not_false_eq_true, if_true,
      List.singleton_append, semiOctets, pyInt16, hF, hv, bind, Except.bind]
    rw [if_neg (by omega), Int.toNat_natCast]
    simp only [pyChr, hlt, if_true, List.map_cons, List.map_nil, bcd]
    congr 2; omega
  | d :: e :: r, h => by
    have hd := h d (by simp)
    have he := h e (by simp)
    have ih := semiOctets_padF r (fun y hy => h y (by simp [hy]))
    have hpad : padF (d :: e :: r) = d :: e :: padF r := by
      unfold padF
      have hl : (d :: e :: r).length % 2 = r.length % 2 := by simp only [List.length_cons]; omega
      rw [hl]
      split <;> simp
    have hlt : 16 * (e - 48) + (d - 48) < 256 := by omega
    rw [hpad]
    simp only [semiOctets, pyInt16, hexVal_digit hd, hexVal_digit he, bind, Except.bind, ih]
    rw [if_neg (by omega), Int.toNat_natCast]
    simp only [pyChr, hlt, if_true, List.map_cons, bcd]
    congr 2; omega

/-- octets of an address field -/
def addrBytes (a : Address) : List Nat := a.digits.length :: a.toa :: bcd a.digits

/-- octets of a service centre address field -/
def smscBytes : Option Address → List Nat
  | none => [0]
  | some a => ((a.digits.length + 1) / 2 + 1) :: a.toa :: bcd a.digits

theorem denotes_lt {x : Str} {a : Address} (h : Denotes x a) : (∀ d ∈ a.digits, d < 10) ∧ (a.toa = 0x91 ∨ a.toa = 0x81) := by
  obtain ⟨plus, nl, ds, _, hd, h2, h3⟩ := h
  constructor
  · rw [h3]; intro d hd'
    obtain ⟨e, he, rfl⟩ := List.mem_map.1 hd'
    have := hd e he; omega
  · rw [h2]; cases plus <;> simp

theorem valid_denotes {x : Str} (h : ValidNumber x) :
    ∃ a, Denotes x a ∧ 3 ≤ a.digits.length ∧ a.digits.length ≤ 20 := by
  obtain ⟨plus, nl, ds, rfl, h1, h2, h3⟩ := h
  exact ⟨⟨if plus then 0x91 else 0x81, ds.map (· - 48)⟩, ⟨plus, nl, ds, rfl, h3, rfl, rfl⟩, by simpa using h1,
    by simpa using h2⟩

theorem getPhonePdu_ok {x : Str} {a : Address} (h : Denotes x a) (hne : a.digits ≠ []) (hl : a.digits.length < 256) :
    getPhonePdu (some x) = .ok (encodeStr (addrBytes a)) := by
  obtain ⟨plus, nl, ds, rfl, hd, h2, h3⟩ := h
  have hne' : ds ≠ [] := by rintro rfl; simp [h3] at hne
  have hlen : a.digits.length = ds.length := by simp [h3]
  unfold getPhonePdu
  simp only [(cleanNumber_valid (plus := plus) (nl := nl) hd).2, splitPlus_canon hd hne', bind, Except.bind,
    semiOctets_padF ds hd]
  have ht : pyChr (if plus = true then 0x91 else 0x81) = .ok a.toa := by rw [h2]; cases plus <;> decide
  rw [ht]
  simp only [pyChr]
  rw [if_pos (by omega), addrBytes, hlen, h3]

theorem getSmscPdu_none {c : Option Str} (h : c = none ∨ c = some []) :
    getSmscPdu c = .ok (encodeStr (smscBytes none)) := by
  rcases h with rfl | rfl <;> decide

theorem getSmscPdu_ok {x : Str} {a : Address} (h : Denotes x a) (hne : a.digits ≠ []) (hl : a.digits.length < 256) :
    getSmscPdu (some x) = .ok (encodeStr (smscBytes (some a))) := by
  obtain ⟨plus, nl, ds, rfl, hd, h2, h3⟩ := h
  have hne' : ds ≠ [] := by rintro rfl; simp [h3] at hne
  have hlen : a.digits.length = ds.length := by simp [h3]
  have hx : ((if plus = true then [43] else []) ++ ds ++ (if nl = true then [10] else [])).isEmpty = false := by
    cases plus <;> cases ds <;> simp_all
  have hs : (canon plus ds).isEmpty = false := by
    unfold canon; cases plus <;> cases ds <;> simp_all
  unfold getSmscPdu
  simp only [(cleanNumber_valid (plus := plus) (nl := nl) hd).1, hx, hs, Bool.or_self, Bool.false_eq_true, if_false,
    (cleanNumber_valid (plus := plus) (nl := nl) hd).2, splitPlus_canon hd hne', bind, Except.bind,
    semiOctets_padF ds hd]
  have ht : pyChr (if plus = true then 0x91 else 0x81) = .ok a.toa := by rw [h2]; cases plus <;> decide
  rw [ht]
  have hpl : (a.toa :: bcd (ds.map (· - 48))).length = (ds.length + 1) / 2 + 1 := by
    rw [List.length_cons, bcd_length, List.length_map]
  simp only [hpl, pyChr]
  rw [if_pos (by omega), smscBytes, hlen, h3]

theorem readAddress_ok {a : Address} (h : ∀ d ∈ a.digits, d < 10) (rest : List Nat) :
    readAddress (addrBytes a ++ rest) = some (a, rest) := by
  unfold addrBytes
  simp only [List.cons_append, readAddress]
  have hb := nibbles_bcd a.digits (fun d hd => by have := h d hd; omega)
  rw [← bcd_length a.digits, if_neg (by simp), List.take_left, List.drop_left, hb, List.drop_left, List.take_left]
  exact if_pos rfl

theorem readSmsc_ok {a : Option Address} (h : ∀ b, a = some b → ∀ d ∈ b.digits, d < 10) (rest : List Nat) :
    readSmsc (smscBytes a ++ rest) = some (a, rest) := by
  cases a with
  | none => rfl
  | some b =>
    unfold smscBytes
    simp only [List.cons_append, readSmsc]
    rw [Nat.add_sub_cancel, ← bcd_length b.digits, if_neg (by simp), List.take_left, List.drop_left,
      nibbles_bcd _ (fun d hd => by have := h b rfl d hd; omega), dropFiller_ok (h b rfl)]

/-- an address field is determined by the address -/
theorem readAddress_bytes {o rest : List Nat} {a : Address} (hb : ∀ x ∈ o, x < 256) (h : readAddress o = some (a, rest)) :
    o = addrBytes a ++ rest ∧ ∀ d ∈ a.digits, d < 16 := by
  match o, h with
  | n :: toa :: r, h =>
    simp only [readAddress] at h
    split at h
    · cases h
    · rename_i hl
      by_cases hf : (nibbles (r.take ((n + 1) / 2))).drop n = (if n % 2 = 1 then [15] else [])
      · rw [if_pos hf] at h
        simp only [Option.some.injEq, Prod.mk.injEq] at h
        obtain ⟨rfl, rfl⟩ := h
        have hlt : ∀ x ∈ r.take ((n + 1) / 2), x < 256 := fun x hx =>
          hb x (List.mem_cons_of_mem _ (List.mem_cons_of_mem _ (List.mem_of_mem_take hx)))
        have hnl := nibbles_length (r.take ((n + 1) / 2))
        rw [List.length_take, Nat.min_eq_left (by omega)] at hnl
        have hlen : ((nibbles (r.take ((n + 1) / 2))).take n).length = n := by
          rw [List.length_take]; omega
        have hd : ∀ d ∈ (nibbles (r.take ((n + 1) / 2))).take n, d < 16 := fun d hd =>
          nibbles_lt hlt d (List.mem_of_mem_take hd)
        refine ⟨?_, hd⟩
        have : r.take ((n + 1) / 2) = bcd ((nibbles (r.take ((n + 1) / 2))).take n) := by
          apply bcd_of_nibbles _ hd
          rw [hlen]
          conv_lhs => rw [← List.take_append_drop n (nibbles (r.take ((n + 1) / 2)))]
          rw [hf]; rfl
        simp only [addrBytes, hlen, List.cons_append]
        rw [← this, List.take_append_drop]
      · rw [if_neg hf] at h; cases h

/-- a service centre field is determined by the address -/
theorem readSmsc_bytes {o rest : List Nat} {a : Option Address} (hb : ∀ x ∈ o, x < 256)
    (h : readSmsc o = some (a, rest)) (hd : ∀ b, a = some b → ∀ d ∈ b.digits, d < 10) : o = smscBytes a ++ rest := by
  match o, h with
  | 0 :: r, h =>
    simp only [readSmsc, Option.some.injEq, Prod.mk.injEq] at h
    obtain ⟨rfl, rfl⟩ := h
    rfl
  | [n + 1], h => simp [readSmsc] at h
  | (n + 1) :: toa :: r, h =>
    simp only [readSmsc, Nat.add_sub_cancel] at h
    split at h
    · cases h
    · rename_i hl
      simp only [Option.some.injEq, Prod.mk.injEq] at h
      obtain ⟨rfl, rfl⟩ := h
      have hd' := hd _ rfl
      simp only at hd'
      have hnl := nibbles_length (r.take n)
      rw [List.length_take, Nat.min_eq_left (by omega)] at hnl
      have key : nibbles (r.take n) = dropFiller (nibbles (r.take n)) ++ filler (dropFiller (nibbles (r.take n))).length ∧
          n = ((dropFiller (nibbles (r.take n))).length + 1) / 2 := by
        unfold dropFiller
        split
        · rename_i hg
          have hne : nibbles (r.take n) ≠ [] := by rintro h; rw [h] at hg; cases hg
          have hpos := List.length_pos_iff.2 hne
          rw [List.length_dropLast, filler, if_pos (by omega)]
          constructor
          · conv_lhs => rw [← List.dropLast_append_getLast hne]
            rw [List.getLast?_eq_some_getLast hne, Option.some.injEq] at hg
            rw [hg]
          · omega
        · rw [filler, if_neg (by omega), List.append_nil]
          exact ⟨rfl, by omega⟩
      have h1 := bcd_of_nibbles key.1 (fun d hx => by have := hd' d hx; omega)
      simp only [smscBytes, List.cons_append]
      rw [← key.2, ← h1, List.take_append_drop]

theorem addrBytes_lt {a : Address} (h : ∀ d ∈ a.digits, d < 10) (ht : a.toa < 256) (hl : a.digits.length < 256) :
    ∀ x ∈ addrBytes a, x < 256 := by
  intro x hx
  simp only [addrBytes, List.mem_cons] at hx
  rcases hx with rfl | rfl | hx
  · exact hl
  · exact ht
  · exact bcd_lt _ h x hx

theorem smscBytes_lt {a : Option Address} (h : ∀ b, a = some b → (∀ d ∈ b.digits, d < 10) ∧ b.toa < 256 ∧
    b.digits.length < 256) : ∀ x ∈ smscBytes a, x < 256 := by
  cases a with
  | none => simp [smscBytes]
  | some b =>
    obtain ⟨h1, h2, h3⟩ := h b rfl
    intro x hx
    simp only [smscBytes, List.mem_cons] at hx
    rcases hx with rfl | rfl | hx
    · omega
    · exact h2
    · exact bcd_lt _ h1 x hx

end Verif.Submit

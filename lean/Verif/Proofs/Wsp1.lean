import Verif.Model.WspDec
import Verif.Model.WspEnc
import Verif.Spec.Wsp
/-!
# Lemmas on the WSP primitives: integers, lengths, text
-/
set_option autoImplicit false

namespace Verif.Mms
open Verif.Spec.Wsp

@[simp] theorem next_cons (x : Nat) (r : List Nat) (k : Nat) : next ⟨x :: r, k⟩ = .ok x ⟨r, 0⟩ := rfl
@[simp] theorem next_nil (k : Nat) : next ⟨[], k⟩ = .err .stopIteration ⟨[], 0⟩ := rfl
@[simp] theorem preview_zero (x : Nat) (r : List Nat) : preview ⟨x :: r, 0⟩ = .ok x ⟨x :: r, 1⟩ := rfl
@[simp] theorem preview_nil (k : Nat) : preview ⟨[], k⟩ = .err .stopIteration ⟨[], k⟩ := rfl
@[simp] theorem resetPreview_apply (s : It) : resetPreview s = .ok () ⟨s.rem, 0⟩ := rfl

theorem orDE_ok {α : Type} {m h : D α} {s s' : It} {a : α} (e : m s = .ok a s') :
    orDecodeError m h s = .ok a s' := by
  unfold orDecodeError M.tryCatch; rw [e]

theorem orDE_err {α : Type} {m h : D α} {s s' : It} (e : m s = .err .decodeError s') :
    orDecodeError m h s = h s' := by
  unfold orDecodeError M.tryCatch; rw [e]; rfl

theorem orDE_other {α : Type} {m h : D α} {s s' : It} {x : PyErr} (e : m s = .err x s') (hx : x ≠ .decodeError) :
    orDecodeError m h s = .err x s' := by
  unfold orDecodeError M.tryCatch; rw [e]
  simp only [beq_iff_eq]
  rw [if_neg hx]

theorem and_7f (b : Nat) : b &&& 0x7f = b % 128 := Nat.and_two_pow_sub_one_eq_mod b 7

theorem and_0f (b : Nat) : b &&& 0xf = b % 16 := Nat.and_two_pow_sub_one_eq_mod b 4

theorem shr7 (b : Nat) : b >>> 7 = b / 128 := by rw [Nat.shiftRight_eq_div_pow]

theorem shl7_or (u x : Nat) (h : x < 128) : (u <<< 7) ||| x = 128 * u + x := by
  rw [Nat.shiftLeft_eq, Nat.mul_comm u]
  exact (Nat.two_pow_add_eq_or_of_lt (i := 7) h u).symm

theorem shl8_or (u x : Nat) (h : x < 256) : (u <<< 8) ||| x = 256 * u + x := by
  rw [Nat.shiftLeft_eq, Nat.mul_comm u]
  exact (Nat.two_pow_add_eq_or_of_lt (i := 8) h u).symm

theorem and_80 {b : Nat} (h : b < 256) : (b &&& 0x80 = 0) ↔ b < 128 := by
  have : ∀ b : Fin 256, (b.val &&& 0x80 = 0) ↔ b.val < 128 := by decide +kernel
  exact this ⟨b, h⟩

/-! ### uintvar -/

theorem uintVarLoop_eq (u : Nat) {l : List Nat} (h : IsUintvar l) (rest : List Nat) :
    uintVarLoop u (l ++ rest) = .ok (l.foldl (fun a b => 128 * a + b % 128) u) ⟨rest, 0⟩ := by
  induction h generalizing u with
  | last b hb =>
    have : ¬ b >>> 7 = 1 := by rw [shr7]; omega
    simp only [List.cons_append, List.nil_append, uintVarLoop, if_neg this, and_7f, List.foldl]
    rw [shl7_or _ _ (by omega)]
  | more b l h1 h2 hl ih =>
    have : b >>> 7 = 1 := by rw [shr7]; omega
    simp only [List.cons_append, uintVarLoop, if_pos this, and_7f, List.foldl]
    rw [shl7_or _ _ (by omega), ih]

theorem decodeUintVar_eq {l : List Nat} (h : IsUintvar l) (rest : List Nat) (k : Nat) :
    decodeUintVar ⟨l ++ rest, k⟩ = .ok (uvVal l) ⟨rest, 0⟩ := uintVarLoop_eq 0 h rest

theorem _root_.Verif.Spec.Wsp.IsUintvar.append_high {l : List Nat} (h : IsUintvar l) (n : Nat) : IsUintvar (uvHigh n ++ l) := by
  induction n using Nat.strongRecOn generalizing l with
  | _ n ih =>
    rw [uvHigh]
    split
    · exact h
    · rename_i hn
      rw [List.append_assoc]
      exact ih (n / 128) (by omega) (.more _ _ (by omega) (by omega) h)

theorem uvHigh_val (n : Nat) (l : List Nat) :
    (uvHigh n ++ l).foldl (fun a b => 128 * a + b % 128) 0 = l.foldl (fun a b => 128 * a + b % 128) n := by
  induction n using Nat.strongRecOn generalizing l with
  | _ n ih =>
    rw [uvHigh]
    split
    · rename_i h; subst h; rfl
    · rename_i hn
      rw [List.append_assoc, ih (n / 128) (by omega)]
      simp only [List.cons_append, List.nil_append, List.foldl]
      congr 1
      omega

theorem uintvar_is (n : Nat) : IsUintvar (uintvar n) := IsUintvar.append_high (.last _ (by omega)) _

theorem uintvar_val (n : Nat) : uvVal (uintvar n) = n := by
  unfold uvVal uintvar
  rw [uvHigh_val]
  simp only [List.foldl]
  omega

theorem decodeUintVar_uintvar (n : Nat) (rest : List Nat) (k : Nat) :
    decodeUintVar ⟨uintvar n ++ rest, k⟩ = .ok n ⟨rest, 0⟩ := by
  rw [decodeUintVar_eq (uintvar_is n), uintvar_val]

theorem uintvar_ne_nil (n : Nat) : uintvar n ≠ [] := by simp [uintvar]

theorem _root_.Verif.Spec.Wsp.IsUintvar.lt {l : List Nat} (h : IsUintvar l) : ∀ x ∈ l, x < 256 := by
  induction h with
  | last b hb => intro x hx; simp at hx; omega
  | more b l h1 h2 hl ih =>
    intro x hx
    rcases List.mem_cons.1 hx with rfl | h
    · exact h2
    · exact ih x h

theorem uintVarEncLoop_eq (n : Nat) (acc : List Int) :
    uintVarEncLoop n acc = (uvHigh n).map (fun x : Nat => (x : Int)) ++ acc := by
  induction n using Nat.strongRecOn generalizing acc with
  | _ n ih =>
    rw [uintVarEncLoop, uvHigh]
    by_cases h : n = 0
    · subst h; simp
    · rw [if_pos (by omega), dif_neg h, ih (n / 128) (by omega)]
      simp

theorem encodeUintVar_eq (n : Nat) : encodeUintVar (n : Int) = (uintvar n).map (fun x : Nat => (x : Int)) := by
  unfold encodeUintVar uintvar
  rw [uintVarEncLoop_eq]
  have : ((n : Int) / 128).toNat = n / 128 := by omega
  rw [this]
  simp

/-! ### integers -/

theorem decodeShortInteger_ok {b : Nat} (h1 : 128 ≤ b) (h2 : b < 256) (rest : List Nat) :
    decodeShortInteger ⟨b :: rest, 0⟩ = .ok (b - 128) ⟨rest, 0⟩ := by
  have : ¬ (b &&& 0x80 = 0) := by rw [and_80 h2]; omega
  unfold decodeShortInteger
  rw [M.bind_ok (preview_zero _ _), if_neg this, M.bind_ok (next_cons _ _ _), M.pure_apply, and_7f,
    show b % 128 = b - 128 by omega]

theorem decodeShortInteger_err {b : Nat} (h1 : b < 128) (rest : List Nat) :
    decodeShortInteger ⟨b :: rest, 0⟩ = .err .decodeError ⟨b :: rest, 0⟩ := by
  have : b &&& 0x80 = 0 := (and_80 (by omega)).2 h1
  unfold decodeShortInteger
  rw [M.bind_ok (preview_zero _ _), if_pos this, M.bind_ok (resetPreview_apply _)]
  rfl

theorem decodeShortLength_ok {b : Nat} (h : b ≤ 30) (rest : List Nat) :
    decodeShortLength ⟨b :: rest, 0⟩ = .ok b ⟨rest, 0⟩ := by
  unfold decodeShortLength
  rw [M.bind_ok (preview_zero _ _), if_neg (by omega), next_cons]

theorem decodeShortLength_err {b : Nat} (h : 30 < b) (rest : List Nat) :
    decodeShortLength ⟨b :: rest, 0⟩ = .err .decodeError ⟨b :: rest, 0⟩ := by
  unfold decodeShortLength
  rw [M.bind_ok (preview_zero _ _), if_pos (by omega), M.bind_ok (resetPreview_apply _)]
  rfl

theorem longIntLoop_eq (u : Nat) (l : List Nat) (hl : ∀ x ∈ l, x < 256) (rest : List Nat) :
    longIntLoop u l.length ⟨l ++ rest, 0⟩ = .ok (l.foldl (fun a b => 256 * a + b) u) ⟨rest, 0⟩ := by
  induction l generalizing u with
  | nil => rfl
  | cons b l ih =>
    simp only [List.length_cons, longIntLoop, List.cons_append]
    rw [M.bind_ok (next_cons _ _ _), shl8_or _ _ (hl b (by simp)), ih _ (fun x hx => hl x (by simp [hx]))]
    rfl

theorem decodeLongInteger_ok (l : List Nat) (h : l.length ≤ 30) (hl : ∀ x ∈ l, x < 256) (rest : List Nat) :
    decodeLongInteger ⟨longInt l ++ rest, 0⟩ = .ok (beVal l) ⟨rest, 0⟩ := by
  unfold decodeLongInteger longInt
  rw [List.cons_append, M.bind_ok (decodeShortLength_ok h _), longIntLoop_eq _ _ hl]
  rfl

theorem decodeLongInteger_err {b : Nat} (h : 30 < b) (rest : List Nat) :
    decodeLongInteger ⟨b :: rest, 0⟩ = .err .decodeError ⟨b :: rest, 0⟩ := by
  unfold decodeLongInteger
  rw [M.bind_err (decodeShortLength_err h _)]

theorem decodeIntegerValue_short {b : Nat} (h1 : 128 ≤ b) (h2 : b < 256) (rest : List Nat) :
    decodeIntegerValue ⟨b :: rest, 0⟩ = .ok (b - 128) ⟨rest, 0⟩ := orDE_ok (decodeShortInteger_ok h1 h2 rest)

theorem decodeIntegerValue_long (l : List Nat) (h : l.length ≤ 30) (hl : ∀ x ∈ l, x < 256) (rest : List Nat) :
    decodeIntegerValue ⟨longInt l ++ rest, 0⟩ = .ok (beVal l) ⟨rest, 0⟩ := by
  unfold decodeIntegerValue
  have he : decodeShortInteger ⟨longInt l ++ rest, 0⟩ = .err .decodeError ⟨longInt l ++ rest, 0⟩ :=
    decodeShortInteger_err (by omega) _
  rw [orDE_err he]
  exact decodeLongInteger_ok l h hl rest

theorem decodeIntegerValue_err {b : Nat} (h1 : 30 < b) (h2 : b < 128) (rest : List Nat) :
    decodeIntegerValue ⟨b :: rest, 0⟩ = .err .decodeError ⟨b :: rest, 0⟩ := by
  unfold decodeIntegerValue
  rw [orDE_err (decodeShortInteger_err h2 _), decodeLongInteger_err h1]

/-! ### value length -/

theorem decodeValueLength_ok (n : Nat) (rest : List Nat) :
    decodeValueLength ⟨valueLength n ++ rest, 0⟩ = .ok n ⟨rest, 0⟩ := by
  unfold valueLength decodeValueLength
  by_cases h : n ≤ 30
  · rw [if_pos h]; exact orDE_ok (decodeShortLength_ok h rest)
  · rw [if_neg h, List.cons_append, orDE_err (decodeShortLength_err (by decide) _), M.bind_ok (preview_zero _ _),
      if_pos rfl, M.bind_ok (next_cons _ _ _), decodeUintVar_uintvar]

theorem decodeValueLength_err {b : Nat} (h : 31 < b) (rest : List Nat) :
    decodeValueLength ⟨b :: rest, 0⟩ = .err .decodeError ⟨b :: rest, 0⟩ := by
  unfold decodeValueLength
  rw [orDE_err (decodeShortLength_err (by omega) _), M.bind_ok (preview_zero _ _), if_neg (by omega),
    M.bind_ok (resetPreview_apply _)]
  rfl

theorem valueLength_lt (n : Nat) : ∀ x ∈ valueLength n, x < 256 := by
  unfold valueLength
  split
  · intro x hx; simp at hx; omega
  · intro x hx
    rcases List.mem_cons.1 hx with rfl | h
    · decide
    · exact (uintvar_is n).lt x h

theorem encodeValueLength_eq (n : Nat) :
    encodeValueLength (n : Int) = (valueLength n).map (fun x : Nat => (x : Int)) := by
  unfold encodeValueLength encodeShortLength valueLength
  by_cases h : n ≤ 30
  · rw [if_neg (by omega), if_pos h]; rfl
  · rw [if_pos (by omega), if_neg h]
    simp only [List.map_cons]
    rw [encodeUintVar_eq]; rfl

/-! ### text -/

theorem textLoop_eq (acc s : List Nat) (h : 0 ∉ s) (rest : List Nat) :
    textLoop acc (s ++ 0 :: rest) = .ok (acc ++ s) ⟨rest, 0⟩ := by
  induction s generalizing acc with
  | nil => simp [textLoop]
  | cons c s ih =>
    have hc : c ≠ 0 := fun e => h (by simp [e])
    simp only [List.cons_append, textLoop, if_pos hc]
    rw [ih _ (fun e => h (by simp [e]))]
    simp

theorem decodeTextString_plain (s : List Nat) (h : 0 ∉ s) (h127 : s.head? ≠ some 127) (rest : List Nat) (k : Nat) :
    decodeTextString ⟨s ++ 0 :: rest, k⟩ = .ok s ⟨rest, 0⟩ := by
  unfold decodeTextString
  cases s with
  | nil => rfl
  | cons c s =>
    have hc : c ≠ 127 := fun e => h127 (by simp [e])
    have := textLoop_eq [] (c :: s) h rest
    simp only [List.cons_append] at this ⊢
    split
    · rename_i h; injection h with h _; exact absurd h hc
    · rw [this]; simp

theorem decodeTextString_quoted (s : List Nat) (h : 0 ∉ s) (rest : List Nat) (k : Nat) :
    decodeTextString ⟨127 :: (s ++ 0 :: rest), k⟩ = .ok s ⟨rest, 0⟩ := by
  have := textLoop_eq [] s h rest
  rw [List.nil_append] at this
  exact this

theorem decodeTextString_text (s : List Nat) (h : 0 ∉ s) (rest : List Nat) (k : Nat) :
    decodeTextString ⟨text s ++ rest, k⟩ = .ok s ⟨rest, 0⟩ := by
  unfold text
  cases s with
  | nil => rfl
  | cons c s =>
    by_cases hc : c ≥ 127
    · simp only [if_pos hc, List.append_assoc, List.cons_append, List.nil_append]
      exact decodeTextString_quoted (c :: s) h rest k
    · simp only [if_neg hc, List.append_assoc, List.cons_append, List.nil_append]
      exact decodeTextString_plain (c :: s) h (by simp; omega) rest k

theorem isTokenChar_sep {c : Nat} (h : isTokenChar c = true) : 31 < c ∧ c ∉ separators ∧ c < 127 := by
  unfold isTokenChar at h
  simp only [Bool.and_eq_true, decide_eq_true_eq, Bool.not_eq_true', List.contains_eq_mem,
    decide_eq_false_iff_not] at h
  obtain ⟨⟨h1, h2⟩, h3⟩ := h
  refine ⟨by omega, ?_, h2⟩
  intro hm
  unfold separators at hm
  apply h3
  simp only [List.mem_cons, List.not_mem_nil, or_false] at hm ⊢
  omega

theorem tokenLoop_eq (acc s : List Nat) (h : ∀ c ∈ s, 31 < c ∧ c ∉ separators) (t : Nat) (ht : ¬ (31 < t ∧ t ∉ separators))
    (rest : List Nat) : tokenLoop acc (s ++ t :: rest) = .ok (acc ++ s) ⟨rest, 0⟩ := by
  induction s generalizing acc with
  | nil => simp only [List.nil_append, tokenLoop]; rw [if_neg ht]; simp
  | cons c s ih =>
    simp only [List.cons_append, tokenLoop]
    rw [if_pos (h c (by simp)), ih _ (fun x hx => h x (by simp [hx]))]
    simp

theorem decodeTokenText_ok (s : List Nat) (hne : s ≠ []) (h : ∀ c ∈ s, 31 < c ∧ c ∉ separators) (rest : List Nat) :
    decodeTokenText ⟨s ++ 0 :: rest, 0⟩ = .ok s ⟨rest, 0⟩ := by
  unfold decodeTokenText
  cases s with
  | nil => exact absurd rfl hne
  | cons c s =>
    have hc := h c (by simp)
    rw [List.cons_append, M.bind_ok (preview_zero _ _), if_neg (by
      rintro (h' | h')
      · omega
      · exact hc.2 h')]
    have := tokenLoop_eq [] (c :: s) h 0 (by decide) rest
    rw [List.cons_append] at this
    rw [this]; rfl

theorem decodeTokenText_err {c : Nat} (h : c ≤ 31 ∨ c ∈ separators) (rest : List Nat) :
    decodeTokenText ⟨c :: rest, 0⟩ = .err .decodeError ⟨c :: rest, 0⟩ := by
  unfold decodeTokenText
  rw [M.bind_ok (preview_zero _ _), if_pos h, M.bind_ok (resetPreview_apply _)]
  rfl

theorem decodeQuotedString_ok (s : List Nat) (h : 0 ∉ s) (h127 : s.head? ≠ some 127) (rest : List Nat) :
    decodeQuotedString ⟨34 :: (s ++ 0 :: rest), 0⟩ = .ok s ⟨rest, 0⟩ := by
  unfold decodeQuotedString
  rw [M.bind_ok (preview_zero _ _), if_neg (by simp), M.bind_ok (next_cons _ _ _), decodeTextString_plain s h h127]

theorem decodeExtensionMedia_ok (s : List Nat) (h : 0 ∉ s) (c : Nat) (hc : 32 ≤ c ∧ c ≠ 127) (rest : List Nat)
    (hs : c :: s.tail = s) : decodeExtensionMedia ⟨s ++ 0 :: rest, 0⟩ = .ok s ⟨rest, 0⟩ := by
  unfold decodeExtensionMedia
  rw [← hs] at h ⊢
  rw [List.cons_append, M.bind_ok (preview_zero _ _), if_neg (by omega)]
  have := textLoop_eq [] (c :: s.tail) h rest
  rw [List.cons_append] at this
  rw [this]; simp

theorem decodeExtensionMedia_err {c : Nat} (h : c < 32 ∨ c = 127) (rest : List Nat) :
    decodeExtensionMedia ⟨c :: rest, 0⟩ = .err .decodeError ⟨c :: rest, 0⟩ := by
  unfold decodeExtensionMedia
  rw [M.bind_ok (preview_zero _ _), if_pos h, M.bind_ok (resetPreview_apply _)]
  rfl

end Verif.Mms

import Verif.Proofs.Wsp1
import Mathlib.Data.List.Induction
/-!
# Lemmas on the WSP encoders: octets, long integers, versions, tables
-/
set_option autoImplicit false

namespace Verif.Mms
open Verif.Spec.Wsp

/-- octets of a list of naturals, as Python ints -/
def toInts (l : List Nat) : List Int := l.map (fun x : Nat => (x : Int))

/-- all values are octets -/
def Octets (l : List Int) : Prop := ∀ x ∈ l, 0 ≤ x ∧ x < 256

/-- a value whose text, if it is a text, consists of octets -/
def OctetVal : Val → Prop
  | .str s => ∀ c ∈ s, c < 256
  | .uni s => ∀ c ∈ s, c < 256
  | _ => True

theorem toInts_octets {l : List Nat} (h : ∀ x ∈ l, x < 256) : Octets (toInts l) := by
  intro x hx
  obtain ⟨y, hy, rfl⟩ := List.mem_map.1 hx
  have := h y hy
  constructor <;> omega

theorem Octets.append {a b : List Int} (ha : Octets a) (hb : Octets b) : Octets (a ++ b) := by
  intro x hx
  rcases List.mem_append.1 hx with h | h
  · exact ha x h
  · exact hb x h

theorem toInts_append (a b : List Nat) : toInts (a ++ b) = toInts a ++ toInts b := by simp [toInts]

theorem toInts_inj {a b : List Nat} (h : toInts a = toInts b) : a = b := by
  induction a generalizing b with
  | nil => cases b with
    | nil => rfl
    | cons y b => simp [toInts] at h
  | cons x a ih => cases b with
    | nil => simp [toInts] at h
    | cons y b =>
      simp only [toInts, List.map_cons, List.cons.injEq] at h
      rw [ih (b := b) h.2, show x = y by omega]

theorem reverse_short {l : List Nat} (h : l.length ≤ 1) : l.reverse = l := by
  match l, h with
  | [], _ => rfl
  | [_], _ => rfl

theorem textOctets_eq (s : Str) : textOctets s = toInts (s ++ [0]) := by simp [textOctets, toInts]

theorem textOctets_octets {s : Str} (h : ∀ c ∈ s, c < 256) : Octets (textOctets s) := by
  rw [textOctets_eq]
  apply toInts_octets
  intro x hx
  rcases List.mem_append.1 hx with h' | h'
  · exact h x h'
  · simp at h'; omega

theorem encodeUintVar_octets (n : Int) : Octets (encodeUintVar n) := by
  by_cases h : 0 ≤ n
  · obtain ⟨m, rfl⟩ := Int.eq_ofNat_of_zero_le h
    have := encodeUintVar_eq m
    rw [this]
    exact toInts_octets (uintvar_is m).lt
  · unfold encodeUintVar
    have : (n / 128).toNat = 0 := by omega
    rw [this, uintVarEncLoop, if_neg (by omega)]
    intro x hx
    simp at hx
    omega

theorem encodeShortInteger_octets {n : Int} {l : List Int} (h : encodeShortInteger n = .ok l) : Octets l := by
  unfold encodeShortInteger at h
  split at h
  · cases h
  · injection h with h
    subst h
    intro x hx
    simp at hx
    omega

/-! ### long integers -/

/-- base-256 digits, least significant first, as the loop collects them -/
def leDigits (n : Nat) : List Nat := if _h : n = 0 then [] else (n % 256) :: leDigits (n / 256)
termination_by n
decreasing_by omega

theorem longIntEncLoop_eq (n : Nat) (acc : List Int) : longIntEncLoop n acc = acc ++ toInts (leDigits n) := by
  induction n using Nat.strongRecOn generalizing acc with
  | _ n ih =>
    rw [longIntEncLoop, leDigits]
    by_cases h : n = 0
    · subst h; simp [toInts]
    · rw [if_pos (by omega), dif_neg h, ih (n / 256) (by omega)]
      simp [toInts]

theorem leDigits_lt (n : Nat) : ∀ x ∈ leDigits n, x < 256 := by
  induction n using Nat.strongRecOn with
  | _ n ih =>
    rw [leDigits]
    by_cases h : n = 0
    · simp [h]
    · rw [dif_neg h]
      intro x hx
      rcases List.mem_cons.1 hx with rfl | hx
      · omega
      · exact ih (n / 256) (by omega) x hx

theorem beVal_append_single (l : List Nat) (x : Nat) : beVal (l ++ [x]) = 256 * beVal l + x := by
  simp [beVal]

theorem beVal_leDigits_reverse (n : Nat) : beVal (leDigits n).reverse = n := by
  induction n using Nat.strongRecOn with
  | _ n ih =>
    rw [leDigits]
    by_cases h : n = 0
    · simp [h, beVal]
    · rw [dif_neg h, List.reverse_cons, beVal_append_single, ih (n / 256) (by omega)]
      omega

theorem leDigits_length {n k : Nat} (h : n < 256 ^ k) : (leDigits n).length ≤ k := by
  induction k generalizing n with
  | zero =>
    have : n = 0 := by simpa using h
    subst this
    rw [leDigits]; simp
  | succ k ih =>
    rw [leDigits]
    by_cases h0 : n = 0
    · simp [h0]
    · rw [dif_neg h0, List.length_cons]
      have : n / 256 < 256 ^ k := by
        rw [Nat.div_lt_iff_lt_mul (by decide)]
        rw [Nat.pow_succ] at h
        omega
      have := ih this
      omega

theorem encodeLongInteger_eq (n : Nat) (h : n < 2 ^ 63) :
    encodeLongInteger (n : Int) = .ok (toInts (longInt (leDigits n))) := by
  unfold encodeLongInteger isPyInt longInt
  have hi : (-(2 ^ 63 : Int) ≤ (n : Int) && decide ((n : Int) < 2 ^ 63)) = true := by
    simp only [Bool.and_eq_true, decide_eq_true_eq]
    constructor <;> omega
  rw [hi]
  have hl : (leDigits n).length ≤ 8 := leDigits_length (Nat.lt_of_lt_of_le h (by decide))
  simp only [Int.toNat_natCast, longIntEncLoop_eq, List.nil_append]
  have : (toInts (leDigits n)).length = (leDigits n).length := by simp [toInts]
  rw [this, if_neg (by simp), if_neg (by omega)]
  rfl

theorem beVal_inj {a b : List Nat} (hl : a.length = b.length) (ha : ∀ x ∈ a, x < 256) (hb : ∀ x ∈ b, x < 256)
    (h : beVal a = beVal b) : a = b := by
  induction a using List.reverseRecOn generalizing b with
  | nil => simp at hl; exact (List.length_eq_zero_iff.1 hl.symm).symm
  | append_singleton a x ih =>
    rcases List.eq_nil_or_concat b with rfl | ⟨b', y, rfl⟩
    · simp at hl
    · rw [List.concat_eq_append, beVal_append_single, beVal_append_single] at h
      have hx := ha x (by simp)
      have hy := hb y (by simp)
      have h1 : x = y := by omega
      have h2 : beVal a = beVal b' := by omega
      rw [List.concat_eq_append]
      rw [ih (b := b') (by simpa using hl) (fun z hz => ha z (by simp [hz])) (fun z hz => hb z (by simp [hz])) h2, h1]

/-! ### tables -/

theorem indexOf_get {l : List Str} {x : Str} {i : Nat} (h : indexOf l x = some i) : l[i]? = some x := by
  induction l generalizing i with
  | nil => cases h
  | cons y r ih =>
    unfold indexOf at h
    split at h
    · injection h with h; subst h; rename_i hy; subst hy; rfl
    · cases hr : indexOf r x with
      | none => rw [hr] at h; cases h
      | some j =>
        rw [hr] at h
        injection h with h
        subst h
        exact ih hr

theorem indexOf_lt {l : List Str} {x : Str} {i : Nat} (h : indexOf l x = some i) : i < l.length := by
  have := indexOf_get h
  exact (List.getElem?_eq_some_iff.1 this).1

theorem indexOf_none {l : List Str} {x : Str} : indexOf l x = none ↔ x ∉ l := by
  induction l with
  | nil => simp [indexOf]
  | cons y r ih =>
    unfold indexOf
    by_cases h : y = x
    · rw [if_pos h]; simp [h]
    · rw [if_neg h, Option.map_eq_none_iff, ih]
      simp only [List.mem_cons, not_or]
      constructor
      · exact fun h' => ⟨fun e => h e.symm, h'⟩
      · exact fun h' => h'.2

theorem lookupNum_of_mem {α : Type} {t : List (Nat × α)} {n : Nat} {x : α} (hm : (n, x) ∈ t)
    (hd : t.Pairwise (fun a b => a.1 ≠ b.1)) : lookupNum t n = some x := by
  induction t with
  | nil => cases hm
  | cons e r ih =>
    obtain ⟨k, y⟩ := e
    rw [List.pairwise_cons] at hd
    unfold lookupNum
    rcases List.mem_cons.1 hm with h | h
    · injection h with h1 h2; rw [if_pos h1.symm, h2]
    · have := hd.1 _ h
      rw [if_neg this]
      exact ih h hd.2

theorem wellKnownContentTypes_length : wellKnownContentTypes.length ≤ 127 := by decide +kernel

theorem encodeShortInteger_nat {n : Nat} (h : n < 128) : encodeShortInteger (n : Int) = .ok (toInts (shortInt n)) := by
  unfold encodeShortInteger shortInt
  rw [if_neg (by omega)]
  simp only [toInts, List.map_cons, List.map_nil]
  congr 2
  omega

theorem encodeConstrainedMedia_known {mt : Str} {i : Nat} (h : indexOf wellKnownContentTypes mt = some i) :
    encodeConstrainedMedia mt = .ok (toInts (shortInt i)) := by
  have hi := indexOf_lt h
  have := wellKnownContentTypes_length
  unfold encodeConstrainedMedia
  rw [h]
  simp only [encodeConstrainedEncoding]
  have hp : isPyInt (i : Int) = true := by
    unfold isPyInt
    simp only [Bool.and_eq_true, decide_eq_true_eq]
    constructor <;> omega
  rw [if_pos hp, encodeShortInteger_nat (by omega)]

theorem decodeConstrainedMedia_known {i : Nat} {mt : Str} (h : wellKnownContentTypes[i]? = some mt) (rest : List Nat) :
    decodeConstrainedMedia ⟨shortInt i ++ rest, 0⟩ = .ok mt ⟨rest, 0⟩ := by
  have hi := (List.getElem?_eq_some_iff.1 h).1
  have := wellKnownContentTypes_length
  have hd : decodeConstrainedEncoding ⟨shortInt i ++ rest, 0⟩ = .ok (.int i) ⟨rest, 0⟩ := by
    unfold decodeConstrainedEncoding
    apply orDE_ok
    unfold shortInt
    rw [List.cons_append, M.bind_ok (decodeShortInteger_ok (by omega) (by omega) _), M.pure_apply,
      show 128 + i - 128 = i by omega]
    rfl
  unfold decodeConstrainedMedia
  rw [M.bind_ok hd]
  simp only [Int.toNat_natCast]
  unfold mediaName
  rw [h]
  rfl

theorem decodeConstrainedEncoding_text (s : List Nat) (h : 0 ∉ s) (c : Nat) (hc : 32 ≤ c ∧ c < 127)
    (hs : c :: s.tail = s) (rest : List Nat) :
    decodeConstrainedEncoding ⟨s ++ 0 :: rest, 0⟩ = .ok (.str s) ⟨rest, 0⟩ := by
  have he : decodeShortInteger ⟨s ++ 0 :: rest, 0⟩ = .err .decodeError ⟨s ++ 0 :: rest, 0⟩ := by
    rw [← hs]; exact decodeShortInteger_err (by omega) _
  unfold decodeConstrainedEncoding
  rw [orDE_err (M.bind_err he), M.bind_ok (decodeExtensionMedia_ok s h c (by omega) rest hs)]
  rfl

theorem decodeConstrainedMedia_text (s : List Nat) (h : 0 ∉ s) (c : Nat) (hc : 32 ≤ c ∧ c < 127)
    (hs : c :: s.tail = s) (rest : List Nat) :
    decodeConstrainedMedia ⟨s ++ 0 :: rest, 0⟩ = .ok s ⟨rest, 0⟩ := by
  unfold decodeConstrainedMedia
  rw [M.bind_ok (decodeConstrainedEncoding_text s h c hc hs rest)]
  rfl

theorem encodeExtensionMedia_ok {c : Nat} {s : List Nat} (hc : 32 ≤ c ∧ c ≠ 127) :
    encodeExtensionMedia (c :: s) = .ok (toInts ((c :: s) ++ [0])) := by
  have h : ¬ (c < 32 ∨ c = 127) := by omega
  simp only [encodeExtensionMedia, if_neg h]
  rw [textOctets_eq]

theorem encodeContentTypeValue_known {mt : Str} {i : Nat} (h : indexOf wellKnownContentTypes mt = some i) :
    encodeContentTypeValue mt [] = .ok (ints (toInts (shortInt i))) := by
  unfold encodeContentTypeValue
  rw [if_neg (by simp), encodeConstrainedMedia_known h]

theorem encodeContentTypeValue_text {s : Str} (h : indexOf wellKnownContentTypes s = none) {c : Nat}
    (hc : 32 ≤ c ∧ c ≠ 127) (hs : c :: s.tail = s) :
    encodeContentTypeValue s [] = .ok (ints (toInts (s ++ [0]))) := by
  unfold encodeContentTypeValue
  have he : encodeConstrainedMedia s = .ok (toInts (s ++ [0])) := by
    unfold encodeConstrainedMedia
    rw [h]
    simp only [encodeConstrainedEncoding]
    rw [← hs, encodeExtensionMedia_ok hc]
  rw [if_neg (by simp), he]

theorem decodeContentTypeValue_constrained {mt : Str} {s s' : It} (h : decodeConstrainedMedia s = .ok mt s') :
    decodeContentTypeValue s = .ok (mt, []) s' := by
  unfold decodeContentTypeValue
  apply orDE_ok
  rw [M.bind_ok h]
  rfl

/-! ### versions -/

theorem decodeVersionValue_octet {b : Nat} (h1 : 128 ≤ b) (h2 : b < 256) (rest : List Nat) :
    decodeVersionValue ⟨b :: rest, 0⟩ = .ok (versionStr ((b - 128) / 16) (b % 16)) ⟨rest, 0⟩ := by
  have hd : decodeShortInteger ⟨b :: rest, 0⟩ = .ok (b - 128) ⟨rest, 0⟩ := decodeShortInteger_ok h1 h2 rest
  have hb : ∀ c : Fin 128, (c.val &&& 0x70) >>> 4 = c.val / 16 ∧ c.val &&& 0x0f = c.val % 16 := by decide +kernel
  have hb := hb ⟨b - 128, by omega⟩
  unfold decodeVersionValue
  apply orDE_ok
  rw [M.bind_ok hd, M.pure_apply, hb.1, hb.2]
  rw [show (b - 128) % 16 = b % 16 by omega]

end Verif.Mms

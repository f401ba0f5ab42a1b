import Verif.Proofs.Iter
import Verif.Proofs.Wsp3
/-!
# Properties of the iterator and the WSP primitives (C36-C42, C52, C60, C62)

`⟨data, 0⟩ : It` is an iterator with `data` left to read and no preview pending; a result `.ok v ⟨rest, 0⟩` means the
call returned `v` and exactly `rest` is left.  `toInts` views octets as Python ints.
-/
set_option autoImplicit false

namespace Verif.Props
open Verif Verif.Mms
open Verif.Spec.Wsp (beVal uvVal IsUintvar IsToken isTokenChar paramVersion headerVersion version1)

/-! ### C36 `PreviewIterator` is a list with a cursor -/

/-- the class and the view of it that the decoders use give the same results on every sequence of calls -/
theorem C36_refines (data : List Nat) (ops : List Spec.Cursor.Op) :
    (PIter.new data).calls ops = (It.new data).calls ops :=
  sim_calls (sim_new data) ops

/-- every sequence of calls on a fresh iterator gives what reading the list with a cursor gives -/
theorem C36_cursor (data : List Nat) (ops : List Spec.Cursor.Op) :
    (PIter.new data).calls ops = Spec.Cursor.run data 0 0 ops := by
  rw [C36_refines]; exact it_cursor data 0 0 ops

/-- whatever previews and resets happen in between, the items returned by `next` are the data in order, each once -/
theorem C36_in_order (data : List Nat) (ops : List Spec.Cursor.Op) :
    Spec.Cursor.consumed ops ((PIter.new data).calls ops) = data.take (ops.count .next) := by
  rw [C36_cursor]; exact cursor_consumed data 0 0 ops

example : (PIter.new [7, 8, 9]).calls [.preview, .preview, .next, .preview, .reset, .preview, .next, .next, .next]
    = [.item 7, .item 8, .item 7, .item 8, .unit, .item 8, .item 8, .item 9, .stop] := by decide

/-! ### C37 uintvar -/

theorem C37_roundtrip (n : Nat) : ∃ l : List Nat, encodeUintVar n = toInts l ∧ (∀ x ∈ l, x < 256) ∧
    IsUintvar l ∧ uvVal l = n ∧ ∀ rest k, decodeUintVar ⟨l ++ rest, k⟩ = .ok n ⟨rest, 0⟩ :=
  ⟨Spec.Wsp.uintvar n, encodeUintVar_eq n, (uintvar_is n).lt, uintvar_is n, uintvar_val n,
    decodeUintVar_uintvar n⟩

/-- no uintvar for `n` is shorter than the encoder's -/
theorem C37_minimal (n : Nat) (l : List Nat) (h : IsUintvar l) (hv : uvVal l = n) :
    (encodeUintVar n).length ≤ l.length := by
  have he := encodeUintVar_eq n
  rw [he, List.length_map]
  exact uintvar_minimal h hv

example : (encodeUintVar 133).length ≤ 3 :=
  C37_minimal 133 [0x80, 0x81, 0x05]
    (.more _ _ (by decide) (by decide) (.more _ _ (by decide) (by decide) (.last _ (by decide)))) (by decide)

/-- any uintvar, minimal or not, decodes to its value -/
theorem C37_decode (l : List Nat) (h : IsUintvar l) (rest : List Nat) (k : Nat) :
    decodeUintVar ⟨l ++ rest, k⟩ = .ok (uvVal l) ⟨rest, 0⟩ := decodeUintVar_eq h rest k

example : encodeUintVar 16384 = [0x81, 0x80, 0] := by decide +kernel
example : IsUintvar [0x80, 0x81, 0x05] ∧ uvVal [0x80, 0x81, 0x05] = 133 :=
  ⟨.more _ _ (by decide) (by decide) (.more _ _ (by decide) (by decide) (.last _ (by decide))), by decide⟩

/-! ### C38 short integers and lengths -/

theorem C38_short_integer (n : Int) (h : 0 ≤ n ∧ n ≤ 127) : ∃ b : Nat, encodeShortInteger n = .ok [(b : Int)] ∧
    128 ≤ b ∧ b < 256 ∧ ∀ rest, decodeShortInteger ⟨b :: rest, 0⟩ = .ok n.toNat ⟨rest, 0⟩ := by
  refine ⟨n.toNat + 128, ?_, by omega, by omega, ?_⟩
  · unfold encodeShortInteger
    rw [if_neg (by omega)]
    congr 2
    omega
  · intro rest
    rw [decodeShortInteger_ok (by omega) (by omega)]
    rw [show n.toNat + 128 - 128 = n.toNat by omega]

example := C38_short_integer 127 (by decide)

theorem C38_short_integer_range (n : Int) (h : n < 0 ∨ 127 < n) : encodeShortInteger n = .error .encodeError := by
  unfold encodeShortInteger; rw [if_pos (by omega)]

example : encodeShortInteger 128 = .error .encodeError := C38_short_integer_range _ (by decide)

theorem C38_short_length (n : Int) (h : 0 ≤ n ∧ n ≤ 30) : encodeShortLength n = .ok [n] ∧
    ∀ rest, decodeShortLength ⟨n.toNat :: rest, 0⟩ = .ok n.toNat ⟨rest, 0⟩ := by
  constructor
  · unfold encodeShortLength; rw [if_neg (by omega)]
  · intro rest; exact decodeShortLength_ok (by omega) rest

example := C38_short_length 30 (by decide)

theorem C38_short_length_range (n : Int) (h : n < 0 ∨ 30 < n) : encodeShortLength n = .error .encodeError := by
  unfold encodeShortLength; rw [if_pos (by omega)]

example : encodeShortLength (-1) = .error .encodeError := C38_short_length_range _ (by decide)

theorem C38_value_length (n : Nat) : ∃ l : List Nat, encodeValueLength n = toInts l ∧ (∀ x ∈ l, x < 256) ∧
    ∀ rest, decodeValueLength ⟨l ++ rest, 0⟩ = .ok n ⟨rest, 0⟩ :=
  ⟨_, encodeValueLength_eq n, valueLength_lt n, decodeValueLength_ok n⟩

example : encodeValueLength 30 = [30] ∧ encodeValueLength 31 = [31, 31] ∧ encodeValueLength 300 = [31, 0x82, 0x2c] := by
  decide +kernel

/-! ### C39 long integers -/

/-- the full property -/
def C39_full : Prop := ∀ n : Nat, n < 2 ^ 63 → ∃ l : List Nat, encodeLongInteger n = .ok (toInts l) ∧
    ∀ rest, decodeLongInteger ⟨l ++ rest, 0⟩ = .ok n ⟨rest, 0⟩

/-- 256 is written 02 00 01 and read back as 1 -/
theorem C39_refuted : ¬ C39_full := by
  intro h
  obtain ⟨l, h1, h2⟩ := h 256 (by decide)
  have he : encodeLongInteger 256 = .ok (toInts [2, 0, 1]) := by decide +kernel
  have hl : toInts l = toInts [2, 0, 1] := by
    have := h1.symm.trans he
    injection this
  have hl : l = [2, 0, 1] := by
    exact toInts_inj hl
  have := h2 []
  rw [hl] at this
  have h3 : decodeLongInteger ⟨[2, 0, 1] ++ [], 0⟩ = .ok 1 ⟨[], 0⟩ := by decide +kernel
  rw [h3] at this
  injection this with h _
  cases h

/-- what holds for every n below 2^63: encoding succeeds with octets (`d` are the base-256 digits), and decoding reads
them in the opposite order; the value survives exactly when the digits are a palindrome.  The full property lacks
the other values. -/
theorem C39_partial (n : Nat) (h : n < 2 ^ 63) : ∃ d : List Nat, beVal d = n ∧ (∀ x ∈ d, x < 256) ∧ d.length ≤ 8 ∧
    encodeLongInteger n = .ok (toInts (d.length :: d.reverse)) ∧
    (∀ rest, decodeLongInteger ⟨d.length :: d.reverse ++ rest, 0⟩ = .ok (beVal d.reverse) ⟨rest, 0⟩) ∧
    (beVal d.reverse = n ↔ d.reverse = d) := by
  have hl : (leDigits n).length ≤ 8 := leDigits_length (Nat.lt_of_lt_of_le h (by decide))
  refine ⟨(leDigits n).reverse, beVal_leDigits_reverse n, ?_, ?_, ?_, ?_, ?_⟩
  · intro x hx; exact leDigits_lt n x (List.mem_reverse.1 hx)
  · simpa using hl
  · rw [List.reverse_reverse, List.length_reverse]; exact encodeLongInteger_eq n h
  · intro rest
    rw [List.reverse_reverse, List.length_reverse]
    exact decodeLongInteger_ok (leDigits n) (by omega) (leDigits_lt n) rest
  · rw [List.reverse_reverse]
    constructor
    · intro hv
      apply beVal_inj (by simp) (leDigits_lt n) (fun x hx => leDigits_lt n x (List.mem_reverse.1 hx))
      rw [hv, beVal_leDigits_reverse]
    · intro hd
      have := beVal_leDigits_reverse n
      rwa [← hd] at this

example := C39_partial 66049 (by decide)

/-- one-octet values round trip -/
theorem C39_small_partial (n : Nat) (h : n < 256) : ∃ l : List Nat, encodeLongInteger n = .ok (toInts l) ∧
    ∀ rest, decodeLongInteger ⟨l ++ rest, 0⟩ = .ok n ⟨rest, 0⟩ := by
  obtain ⟨d, h1, h2, h3, h4, h5, h6⟩ := C39_partial n (by omega)
  refine ⟨_, h4, ?_⟩
  intro rest
  rw [h5 rest]
  rw [show beVal d.reverse = n from ?_]
  have hn : (leDigits n).length ≤ 1 := leDigits_length (by simpa using h)
  have hd : d.length ≤ 1 := by
    have := encodeLongInteger_eq n (by omega)
    rw [h4] at this
    injection this with this
    have := congrArg List.length this
    simp [toInts, Spec.Wsp.longInt] at this
    omega
  exact h6.2 (reverse_short hd)

example := C39_small_partial 255 (by decide)

/-- numbers from 2^63 on are a Python `long`, which the encoder rejects -/
theorem C39_too_large (n : Nat) (h : 2 ^ 63 ≤ n) : encodeLongInteger n = .error .encodeError := by
  unfold encodeLongInteger
  have : isPyInt (n : Int) = false := by
    unfold isPyInt
    simp only [Bool.and_eq_false_iff, decide_eq_false_iff_not]
    right; omega
  rw [this]; rfl

example : encodeLongInteger (2 ^ 63 : Nat) = .error .encodeError := C39_too_large _ (by decide)

/-- a conformant sender's long integer (up to 30 octets, most significant first) is decoded exactly -/
theorem C39_decode (l : List Nat) (h : l.length ≤ 30) (hl : ∀ x ∈ l, x < 256) (rest : List Nat) :
    decodeLongInteger ⟨l.length :: l ++ rest, 0⟩ = .ok (beVal l) ⟨rest, 0⟩ := decodeLongInteger_ok l h hl rest

example : decodeLongInteger ⟨[4, 0x4c, 0x3f, 0xa0, 0x11, 99], 0⟩ = .ok 0x4c3fa011 ⟨[99], 0⟩ := by decide +kernel
example : beVal [1, 2, 1] = 66049 ∧ [1, 2, 1].reverse = [1, 2, 1] := by decide

/-! ### C40 text strings -/

/-- every NUL-free string that does not start with octet 127 round trips as Text-string -/
theorem C40_text (s : List Nat) (h : 0 ∉ s) (h127 : s.head? ≠ some 127) :
    ∃ l : List Nat, encodeTextString (.str s) = .ok (toInts l) ∧
      ∀ rest k, decodeTextString ⟨l ++ rest, k⟩ = .ok s ⟨rest, 0⟩ := by
  refine ⟨s ++ [0], by rw [← textOctets_eq]; rfl, ?_⟩
  intro rest k
  rw [List.append_assoc]
  exact decodeTextString_plain s h h127 rest k

example := C40_text (py! "Hi") (by decide) (by decide)

/-- the hypothesis on 127 is needed: such a string loses its first octet -/
theorem C40_text_127 (s : List Nat) (h : 0 ∉ s) : encodeTextString (.str (127 :: s)) = .ok (toInts (127 :: s ++ [0])) ∧
    ∀ rest k, decodeTextString ⟨127 :: s ++ [0] ++ rest, k⟩ = .ok s ⟨rest, 0⟩ := by
  refine ⟨by rw [← textOctets_eq]; rfl, ?_⟩
  intro rest k
  have := decodeTextString_quoted s h rest k
  simpa using this

/-- a conformant Text-string (quoted when it starts with an octet from 127 on) decodes to its text -/
theorem C40_decode (s : List Nat) (h : 0 ∉ s) (rest : List Nat) (k : Nat) :
    decodeTextString ⟨Spec.Wsp.text s ++ rest, k⟩ = .ok s ⟨rest, 0⟩ := decodeTextString_text s h rest k

example : decodeTextString ⟨[72, 105, 0, 5], 0⟩ = .ok [72, 105] ⟨[5], 0⟩ := by decide

/-! ### C41 versions -/

/-- the full property: every version string is encoded and read back -/
def C41_full : Prop := ∀ s : Str, 0 ∉ s → ∃ l : List Nat, encodeVersionValue (.str s) = .ok (toInts l) ∧
    ∀ rest, decodeVersionValue ⟨l ++ rest, 0⟩ = .ok s ⟨rest, 0⟩

/-- "1.2.4" is encoded as nothing at all -/
theorem C41_refuted : ¬ C41_full := by
  intro h
  obtain ⟨l, h1, h2⟩ := h (py! "1.2.4") (by decide)
  have he : encodeVersionValue (.str (py! "1.2.4")) = .ok (toInts []) := by decide +kernel
  rw [he] at h1
  injection h1 with h1
  have : l = [] := by
    cases l with
    | nil => rfl
    | cons a l => simp [toInts] at h1
  have h3 := h2 [129]
  rw [this] at h3
  revert h3
  decide +kernel

/-- "1" is read back as "1.15" -/
theorem C41_major_only : encodeVersionValue (.str (py! "1")) = .ok [0x9f] ∧
    decodeVersionValue ⟨[0x9f], 0⟩ = .ok (py! "1.15") ⟨[], 0⟩ := by decide +kernel

/-- major.minor with major 1-7, minor 0-14 is one octet and is read back (the whole domain) -/
theorem C41_canonical_partial (major minor : Nat) (h1 : 1 ≤ major) (h2 : major ≤ 7) (h3 : minor ≤ 14) :
    ∃ b : Nat, encodeVersionValue (.str (versionStr major minor)) = .ok [(b : Int)] ∧ 128 ≤ b ∧ b < 256 ∧
      ∀ rest, decodeVersionValue ⟨b :: rest, 0⟩ = .ok (versionStr major minor) ⟨rest, 0⟩ := by
  have hall : ∀ a : Fin 8, ∀ b : Fin 15, 1 ≤ a.val →
      encodeVersionValue (.str (versionStr a.val b.val)) = .ok [((128 + 16 * a.val + b.val : Nat) : Int)] := by
    decide +kernel
  refine ⟨128 + 16 * major + minor, hall ⟨major, by omega⟩ ⟨minor, by omega⟩ h1, by omega, by omega, ?_⟩
  intro rest
  rw [decodeVersionValue_octet (by omega) (by omega)]
  rw [show (128 + 16 * major + minor - 128) / 16 = major by omega, show (128 + 16 * major + minor) % 16 = minor by omega]

example := C41_canonical_partial 1 2 (by decide) (by decide) (by decide)

/-- a character that cannot occur in a number: not a digit, sign, white space or dot -/
def nonNumeric (c : Nat) : Bool := !(48 ≤ c && c ≤ 57) && c != 43 && c != 45 && c != 46 && c != 32 && !(9 ≤ c && c ≤ 13)

/-- a string with at most one dot and some non-numeric character is sent as text and read back, when it is NUL-free
and starts with a character below 127.  The other strings are not covered: with two or more dots nothing is sent
(`C41_refuted`); white space, a sign or leading zeros are lost. -/
theorem C41_text_partial (s : Str) (hdot : s.count 46 ≤ 1) (hbad : ∃ c ∈ s, nonNumeric c = true) (h0 : 0 ∉ s)
    (h7 : ∀ c, s.head? = some c → c < 127) :
    ∃ l : List Nat, encodeVersionValue (.str s) = .ok (toInts l) ∧
      ∀ rest, decodeVersionValue ⟨l ++ rest, 0⟩ = .ok s ⟨rest, 0⟩ := by
  obtain ⟨c, hc, hn⟩ := hbad
  obtain ⟨e, h⟩ := versionTry_error hdot hc (by
    simp only [nonNumeric, Bool.and_eq_true, bne_iff_ne, Bool.not_eq_true', Bool.and_eq_false_iff,
      decide_eq_false_iff_not] at hn
    unfold isSpace
    simp only [Bool.or_eq_false_iff, Bool.and_eq_false_iff, decide_eq_false_iff_not, beq_eq_false_iff_ne]
    omega)
  exact version_text h h0 h7

example := C41_text_partial (py! "1.0-beta") (by decide) (by decide) (by decide) (by decide)

/-- numbers out of range (major 0 or above 7, minor above 14) are sent as text and read back -/
theorem C41_out_of_range_partial (major minor : Nat) (h : major < 1 ∨ 7 < major ∨ 14 < minor) :
    ∃ l : List Nat, encodeVersionValue (.str (versionStr major minor)) = .ok (toInts l) ∧
      ∀ rest, decodeVersionValue ⟨l ++ rest, 0⟩ = .ok (versionStr major minor) ⟨rest, 0⟩ := by
  obtain ⟨e, he⟩ := versionTry_range h
  refine version_text he ?_ ?_
  · exact versionStr_not_zero major minor
  · intro c hc; exact (versionStr_range major minor c (List.mem_of_mem_head? hc)).2

example := C41_out_of_range_partial 8 0 (by decide)

/-- every octet with the top bit decodes to "<bits 6-4>.<bits 3-0>" -/
theorem C41_decode (b : Nat) (h1 : 128 ≤ b) (h2 : b < 256) (rest : List Nat) :
    decodeVersionValue ⟨b :: rest, 0⟩ = .ok (versionStr ((b - 128) / 16) (b % 16)) ⟨rest, 0⟩ :=
  decodeVersionValue_octet h1 h2 rest

example : (py! "1.0-beta" : Str).count 46 ≤ 1 ∧ (∃ c ∈ (py! "1.0-beta" : Str), nonNumeric c = true) ∧
    (0 : Nat) ∉ (py! "1.0-beta" : Str) := by decide
example : versionStr 1 2 = py! "1.2" := by decide +kernel

/-! ### C42 content types without parameters -/

/-- every well-known media type round trips -/
theorem C42_known (mt : Str) (h : mt ∈ wellKnownContentTypes) :
    ∃ l : List Nat, encodeContentTypeValue mt [] = .ok (ints (toInts l)) ∧ l.length = 1 ∧
      ∀ rest, decodeContentTypeValue ⟨l ++ rest, 0⟩ = .ok (mt, []) ⟨rest, 0⟩ := by
  cases hi : indexOf wellKnownContentTypes mt with
  | none => exact absurd h (indexOf_none.1 hi)
  | some i =>
    refine ⟨Spec.Wsp.shortInt i, encodeContentTypeValue_known hi, rfl, ?_⟩
    intro rest
    exact decodeContentTypeValue_constrained (decodeConstrainedMedia_known (indexOf_get hi) rest)

example := C42_known (py! "application/vnd.wap.multipart.related") (by decide +kernel)

/-- every other NUL-free media type starting with a printable character round trips -/
theorem C42_other (c : Nat) (cs : Str) (hc : 32 ≤ c ∧ c < 127) (h0 : 0 ∉ c :: cs) :
    ∃ l : List Nat, encodeContentTypeValue (c :: cs) [] = .ok (ints (toInts l)) ∧
      ∀ rest, decodeContentTypeValue ⟨l ++ rest, 0⟩ = .ok (c :: cs, []) ⟨rest, 0⟩ := by
  cases hi : indexOf wellKnownContentTypes (c :: cs) with
  | none =>
    refine ⟨c :: cs ++ [0], encodeContentTypeValue_text hi (c := c) (by omega) rfl, ?_⟩
    intro rest
    apply decodeContentTypeValue_constrained
    rw [List.append_assoc]
    exact decodeConstrainedMedia_text (c :: cs) h0 c hc rfl rest
  | some i =>
    obtain ⟨l, h1, _, h2⟩ := C42_known (c :: cs) (List.mem_of_getElem? (indexOf_get hi))
    exact ⟨l, h1, h2⟩

example : (py! "application/vnd.wap.multipart.related") ∈ wellKnownContentTypes ∧
    (py! "application/x-none") ∉ wellKnownContentTypes := by decide +kernel

/-! ### C52 8-bit integers -/

/-- the full property -/
def C52_full : Prop := ∀ n : Nat, n < 256 → ∃ b : Nat, encodeUint8 n = [(b : Int)] ∧
    ∀ rest k, decodeUint8 ⟨b :: rest, k⟩ = .ok n ⟨rest, 0⟩

/-- 16 is read back as 0 -/
theorem C52_refuted : ¬ C52_full := by
  intro h
  obtain ⟨b, h1, h2⟩ := h 16 (by decide)
  have he : encodeUint8 16 = [16] := by decide
  have hb : b = 16 := by
    have := h1.symm.trans he
    injection this with this _
    omega
  have := h2 [] 0
  subst hb
  have h3 : decodeUint8 ⟨[16], 0⟩ = .ok 0 ⟨[], 0⟩ := by decide
  rw [h3] at this
  injection this with h _
  cases h

/-- what is read back is the value modulo 16, so exactly the values below 16 survive -/
theorem C52_partial (n : Nat) (h : n < 256) : ∃ b : Nat, encodeUint8 n = [(b : Int)] ∧
    ∀ rest k, decodeUint8 ⟨b :: rest, k⟩ = .ok (n % 16) ⟨rest, 0⟩ := by
  refine ⟨n, ?_, ?_⟩
  · unfold encodeUint8; congr 1; omega
  · intro rest k
    unfold decodeUint8
    rw [M.bind_ok (next_cons _ _ _), and_0f]
    rfl

example := C52_partial 200 (by decide)

/-! ### C60 encoders emit octets -/

/-- the full property, for Text-string: whatever string is given -/
def C60_full : Prop := ∀ (x : Val) (l : List Int), encodeTextString x = .ok l → Octets l

/-- a unicode text puts code points above 255 in the octet list -/
theorem C60_refuted : ¬ C60_full := by
  intro h
  have := h (.uni [0x20ac]) _ rfl 0x20ac (by decide)
  omega

/-- with octet texts (every `str`, and `unicode` below 256) each primitive encoder emits only octets -/
theorem C60_text_partial (x : Val) (hx : OctetVal x) (l : List Int) (h : encodeTextString x = .ok l) : Octets l :=
  encodeTextString_octets hx h

example := C60_text_partial (.str (py! "abc")) (by simp only [OctetVal]; decide) [97, 98, 99, 0] (by decide +kernel)

/-- and only with these -/
theorem C60_text_iff (x : Val) (l : List Int) (h : encodeTextString x = .ok l) : Octets l ↔ OctetVal x := by
  refine ⟨fun ho => ?_, fun hx => encodeTextString_octets hx h⟩
  have key : ∀ s : Str, textOctets s = l → ∀ c ∈ s, c < 256 := by
    rintro s rfl c hc
    have := (ho c (by unfold textOctets; exact List.mem_append_left _ (List.mem_map.2 ⟨c, hc, rfl⟩))).2
    omega
  cases x with
  | str s => injection h with h; exact key s h
  | uni s => injection h with h; exact key s h
  | _ => cases h

example := C60_text_iff (.str (py! "abc")) [97, 98, 99, 0] (by decide +kernel)

theorem C60_uint8 (n : Int) : Octets (encodeUint8 n) := by
  intro x hx
  simp [encodeUint8] at hx
  omega

theorem C60_uintvar (n : Int) : Octets (encodeUintVar n) := encodeUintVar_octets n

theorem C60_short_integer (n : Int) (l : List Int) (h : encodeShortInteger n = .ok l) : Octets l :=
  encodeShortInteger_octets h

example := C60_short_integer 5 [0x85] (by decide +kernel)

theorem C60_long_integer (n : Int) (l : List Int) (h : encodeLongInteger n = .ok l) : Octets l :=
  encodeLongInteger_octets h

example := C60_long_integer 258 [2, 2, 1] (by decide +kernel)

theorem C60_version_partial (x : Val) (hx : OctetVal x) (l : List Int) (h : encodeVersionValue x = .ok l) : Octets l :=
  encodeVersionValue_octets hx h

example := C60_version_partial (.str (py! "1.0")) (by simp only [OctetVal]; decide) [0x90] (by decide +kernel)

theorem C60_integer (x : Val) (l : List Int) (h : encodeIntegerValue x = .ok l) : Octets l :=
  encodeIntegerValue_octets h

example := C60_integer (.int 5) [0x85] (by decide +kernel)

theorem C60_value_length (n : Int) : Octets (encodeValueLength n) := encodeValueLength_octets n

theorem C60_constrained_encoding_partial (x : Val) (hx : OctetVal x) (l : List Int)
    (h : encodeConstrainedEncoding x = .ok l) : Octets l := encodeConstrainedEncoding_octets hx h

example := C60_constrained_encoding_partial (.int 5) (by simp only [OctetVal]) [0x85] (by decide +kernel)

theorem C60_parameter_partial (name : Str) (x : Val) (version : Str) (hn : ∀ c ∈ name, c < 256) (hx : OctetVal x)
    (l : List Int) (h : encodeParameter name x version = .ok l) : Octets l := encodeParameter_octets hn hx h

example : OctetVal (.str (py! "abc")) ∧ encodeParameter (py! "Name") (.str (py! "abc")) (py! "1.2")
    = .ok [0x85, 97, 98, 99, 0] := ⟨by simp only [OctetVal]; decide, by decide +kernel⟩

/-! ### C62 well-known tables -/

/-- for each version exactly the assignments of that version and lower -/
theorem C62_parameters (v : Nat) (h1 : 1 ≤ v) (h4 : v ≤ 4) :
    getWellKnownParameters (version1 v) = .ok (wellKnownParameters.filter (fun e => paramVersion e.1 ≤ v)) :=
  parameters_version v h1 h4

example := C62_parameters 2 (by decide) (by decide)

theorem C62_headers (v : Nat) (h1 : 1 ≤ v) (h4 : v ≤ 4) : ∃ names, getHeaderFieldNames (version1 v) = .ok names ∧
    ∀ n name, names[n]? = some name ↔ headerFieldNames[n]? = some name ∧ headerVersion n ≤ v :=
  header_versions v h1 h4

example := C62_headers 2 (by decide) (by decide)

/-- other versions are rejected -/
theorem C62_invalid (version : Str) (h : ∀ v, 1 ≤ v → v ≤ 4 → version ≠ version1 v) :
    getWellKnownParameters version = .error .valueError ∧ getHeaderFieldNames version = .error .valueError := by
  have hv : versionMinor version = .error .valueError := by
    unfold versionMinor
    have h1 : ¬ version = [49, 46, 49] := h 1 (by decide) (by decide)
    have h2 : ¬ version = [49, 46, 50] := h 2 (by decide) (by decide)
    have h3 : ¬ version = [49, 46, 51] := h 3 (by decide) (by decide)
    have h4 : ¬ version = [49, 46, 52] := h 4 (by decide) (by decide)
    rw [if_neg h1, if_neg h2, if_neg h3, if_neg h4]
  constructor
  · unfold getWellKnownParameters; rw [hv]; rfl
  · unfold getHeaderFieldNames; rw [hv]; rfl

example := C62_invalid (py! "2.0") (by
  intro v h1 h4
  rcases (by omega : v = 1 ∨ v = 2 ∨ v = 3 ∨ v = 4) with rfl | rfl | rfl | rfl <;> decide)

/-- a parameter name that the version's table has is encoded as one octet which the decoder, for the same version,
reads as that name -/
theorem C62_parameter_name (v : Nat) (h1 : 1 ≤ v) (h4 : v ≤ 4) (name : Str) (x : Val) (l : List Int)
    (hk : ∃ e ∈ wellKnownParameters, e.2.1 = name ∧ paramVersion e.1 ≤ v)
    (h : encodeParameter name x (version1 v) = .ok l) : ∃ (b : Nat) (tail : List Int) (ty : PType),
      l = (b : Int) :: tail ∧ encodeTyped ty x = .ok tail ∧
      ∀ rest, decodeWellKnownParameter (version1 v) ⟨b :: rest, 0⟩ = .ok (name, ty) ⟨rest, 0⟩ :=
  parameter_name v h1 h4 hk h

example := C62_parameter_name 4 (by decide) (by decide) (py! "Name") (.str (py! "x")) [0x97, 120, 0] (by decide +kernel)
  (by decide +kernel)

/-- a name that is not in the table is encoded as a token which the decoder reads as that name -/
theorem C62_other_name (v : Nat) (h1 : 1 ≤ v) (h4 : v ≤ 4) (name : Str) (x : Val) (l : List Int) (ht : IsToken name)
    (hk : ¬ ∃ e ∈ wellKnownParameters, e.2.1 = name ∧ paramVersion e.1 ≤ v)
    (h : encodeParameter name x (version1 v) = .ok l) : ∃ tail : List Int, l = toInts (name ++ [0]) ++ tail ∧
      ∀ rest, decodeTokenText ⟨name ++ 0 :: rest, 0⟩ = .ok name ⟨rest, 0⟩ :=
  other_name v h1 h4 ht hk h

example : (∃ e ∈ wellKnownParameters, e.2.1 = py! "Name" ∧ paramVersion e.1 ≤ 2) ∧
    encodeParameter (py! "Name") (.str (py! "x")) (version1 4) = .ok [0x97, 120, 0] := by decide +kernel
example : IsToken (py! "foo") := ⟨by decide, by decide⟩

end Verif.Props

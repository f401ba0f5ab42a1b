import Verif.Spec.MmsEnc
import Verif.Proofs.Mms3
import Verif.Proofs.Wsp3
/-!
# Lemmas on the MMS encoder: single headers
-/
set_option autoImplicit false

namespace Verif.Mms
open Verif.Spec.Wsp Verif.Spec.Mms Verif.Spec.MmsEnc

theorem toOctets_ints {l : List Nat} (h : ∀ x ∈ l, x < 256) : toOctets (ints (toInts l)) = .ok l := by
  induction l with
  | nil => rfl
  | cons x l ih =>
    have hx := h x (List.mem_cons_self ..)
    have ih := ih (fun y hy => h y (List.mem_cons_of_mem _ hy))
    show (if (x : Int) < 0 ∨ (x : Int) > 255 then _ else _) = _
    rw [if_neg (by omega)]
    unfold ints toInts at ih
    simp only [bind, Except.bind, ih, Int.toNat_natCast]

theorem toOctets_append (a b : List Item) : toOctets (a ++ b) = (do
    let x ← toOctets a; let y ← toOctets b; .ok (x ++ y) : Py (List Nat)) := by
  induction a with
  | nil =>
    simp only [toOctets, List.nil_append, bind, Except.bind]
    cases toOctets b <;> rfl
  | cons i a ih =>
    cases i with
    | int n =>
      simp only [List.cons_append, toOctets, ih]
      split
      · rfl
      · simp only [bind, Except.bind]
        cases toOctets a with
        | error e => rfl
        | ok x => cases toOctets b <;> rfl
    | str s => rfl
    | list l => rfl

theorem ints_append (a b : List Int) : ints (a ++ b) = ints a ++ ints b := by simp [ints]

/-- `o` is what the decoder reads as the header `n` with value `v` -/
structure DecH (o : List Nat) (n : Str) (v : HVal) : Prop where
  ne : o ≠ []
  name : n ≠ py! "Content-Type"
  dec : ∀ rest, decodeHeader ⟨o ++ rest, 0⟩ = .ok (n, v) ⟨rest, 0⟩

theorem headerOctets_field {name : Str} {n : Nat} {ty : MType} {v : HVal} {body : List Nat}
    (hf : findField mmsFieldNames name = some (n, ty)) (hn : n < 128)
    (hv : encodeMmsValue ty v = .ok (ints (toInts body))) (hb : ∀ x ∈ body, x < 256) :
    headerOctets name v = .ok ((0x80 + n) :: body) := by
  unfold headerOctets encodeHeader
  rw [hf]
  simp only [encodeShortInteger_nat hn, hv, bind, Except.bind]
  rw [← ints_append, ← toInts_append, toOctets_ints]
  · rfl
  · intro x hx
    rcases List.mem_append.1 hx with h | h
    · simp [shortInt] at h; omega
    · exact hb x h

theorem text_body {s : Str} (h : ∀ c ∈ s, c < 256) : ∀ x ∈ s ++ [0], x < 256 := by
  intro x hx
  rcases List.mem_append.1 hx with h' | h'
  · exact h x h'
  · simp at h'; omega

theorem encodeTextH_str (s : Str) : encodeTextStringH (.v (.str s)) = .ok (toInts (s ++ [0])) := by
  show Except.ok (textOctets s) = _
  rw [textOctets_eq]

theorem field_text {name : Str} {n : Nat} {s : Str} (hf : findField mmsFieldNames name = some (n, .encodedStringValue))
    (hl : lookupNum mmsFieldNames n = some (name, .encodedStringValue)) (hn : n < 128)
    (hc : name ≠ py! "Content-Type") (h : Sendable s) :
    headerOctets name (.v (.str s)) = .ok ((0x80 + n) :: (s ++ [0])) ∧
      DecH ((0x80 + n) :: (s ++ [0])) name (.v (.str s)) := by
  obtain ⟨h0, h8, c, hh, h1, h2⟩ := h
  refine ⟨headerOctets_field hf hn ?_ (text_body h8), ⟨by simp, hc, fun rest => decodeHeader_field hn hl ?_⟩⟩
  · simp only [encodeMmsValue, encodeEncodedStringValue, encodeTextH_str, bind, Except.bind]
  · exact mmsValue_str rfl (encodedString_raw h0 hh h1 h2 rest)

theorem field_plain {name : Str} {n : Nat} {s : Str} (hf : findField mmsFieldNames name = some (n, .textString))
    (hl : lookupNum mmsFieldNames n = some (name, .textString)) (hn : n < 128)
    (hc : name ≠ py! "Content-Type") (h : Unquoted s) :
    headerOctets name (.v (.str s)) = .ok ((0x80 + n) :: (s ++ [0])) ∧
      DecH ((0x80 + n) :: (s ++ [0])) name (.v (.str s)) := by
  obtain ⟨h0, h8, h2⟩ := h
  refine ⟨headerOctets_field hf hn ?_ (text_body h8), ⟨by simp, hc, fun rest => decodeHeader_field hn hl ?_⟩⟩
  · simp only [encodeMmsValue, encodeTextH_str, bind, Except.bind]
  · refine mmsValue_str rfl ?_
    have := decodeTextString_plain s h0 h2 rest 0
    rwa [show s ++ [0] ++ rest = s ++ 0 :: rest by simp]

theorem field_from {s : Str} (h : Sendable s) :
    headerOctets (py! "From") (.v (.str s)) = .ok (0x89 :: sized (128 :: (s ++ [0]))) ∧
      DecH (0x89 :: sized (128 :: (s ++ [0]))) (py! "From") (.v (.str s)) := by
  obtain ⟨h0, h8, c, hh, h1, h2⟩ := h
  refine ⟨headerOctets_field (n := 9) rfl (by decide) ?_ ?_, ⟨by simp, by decide, fun rest =>
    decodeHeader_field (n := 9) (by decide) rfl ?_⟩⟩
  · have hne : s.length ≠ 0 := by
      cases s with
      | nil => cases hh
      | cons _ _ => simp
    have hl : ((toInts (s ++ [0])).length : Int) + 1 = ((128 :: (s ++ [0])).length : Nat) := by
      simp [toInts]
    simp only [encodeMmsValue, encodeFromValue, hlen, encodeEncodedStringValue, encodeTextH_str, bind, Except.bind,
      if_neg hne]
    rw [hl, encodeValueLength_eq]
    simp [sized, toInts]
  · intro x hx
    unfold sized at hx
    rcases List.mem_append.1 hx with h | h
    · exact valueLength_lt _ x h
    · rcases List.mem_cons.1 h with h | h
      · omega
      · exact text_body h8 x h
  · exact mmsValue_str rfl (fromAddr_ok (encodedString_raw h0 hh h1 h2 rest))

theorem version_enc {a b : Nat} (h : 1 ≤ a ∧ a ≤ 7 ∧ b ≤ 14) :
    encodeVersionValue (.str (dotted a b)) = .ok (toInts (shortInt (16 * a + b))) := by
  have ht : versionTry (dotted a b) = .ok (toInts (shortInt (16 * a + b))) := by
    unfold versionTry
    rw [dotted_eq]
    unfold versionStr
    rw [splitDot_two (natStr_no_dot a) (natStr_no_dot b)]
    simp only [bind, Except.bind, pyIntStr_natStr]
    rw [if_neg (by omega), if_neg (by omega), show (16 * (a : Int) + b) = ((16 * a + b : Nat) : Int) by simp,
      encodeShortInteger_nat (by omega)]
  simp only [encodeVersionValue, ht]

theorem leDigits_beVal (o : List Nat) (ho : ∀ x ∈ o, x < 256) (h0 : o.head? ≠ some 0) :
    leDigits (beVal o) = o.reverse := by
  induction o using List.reverseRecOn with
  | nil => rw [leDigits]; rfl
  | append_singleton l x ih =>
    have hx := ho x (by simp)
    rw [beVal_append_single, leDigits]
    have hne : 256 * beVal l + x ≠ 0 := by
      intro hz
      have h1 : beVal l = 0 := by omega
      have h2 : x = 0 := by omega
      cases l with
      | nil => simp [h2] at h0
      | cons y l =>
        have hi := ih (fun z hz => ho z (List.mem_append_left _ hz)) (by simpa using h0)
        rw [h1, leDigits] at hi
        simp at hi
    rw [dif_neg hne, show (256 * beVal l + x) % 256 = x by omega, show (256 * beVal l + x) / 256 = beVal l by omega]
    cases l with
    | nil => simp [beVal, leDigits]
    | cons y l =>
      rw [ih (fun z hz => ho z (List.mem_append_left _ hz)) (by simpa using h0)]
      simp

theorem mmsValue_long (n : Int) : encodeMmsValue .longInteger (.v (.int n))
    = (do let l ← encodeLongInteger n; .ok (ints l)) := rfl

/-- what is sent for a Message-Size -/
theorem size_octets {n : Nat} (h : n < 2 ^ 63) :
    headerOctets (py! "Message-Size") (.v (.int n)) = .ok (0x8e :: longInt (leDigits n)) := by
  have hl : (leDigits n).length ≤ 8 := leDigits_length (Nat.lt_of_lt_of_le h (by decide))
  have he := encodeLongInteger_eq n h
  clear h
  refine headerOctets_field (n := 14) rfl (by decide) ?_ ?_
  · rw [mmsValue_long, he]
    rfl
  · intro x hx
    unfold longInt at hx
    rcases List.mem_cons.1 hx with h | h
    · omega
    · exact leDigits_lt n x h

/-- and what is read -/
theorem size_read (o : List Nat) (h8 : o.length ≤ 30) (ho : ∀ x ∈ o, x < 256) (rest : List Nat) :
    decodeHeader ⟨0x8e :: longInt o ++ rest, 0⟩ = .ok (py! "Message-Size", .v (.int (beVal o))) ⟨rest, 0⟩ := by
  refine decodeHeader_field (n := 14) (ty := .longInteger) (by decide) rfl ?_
  show (do let n ← decodeLongInteger; pure (HVal.v (.int n)) : D HVal) _ = _
  rw [M.bind_ok (decodeLongInteger_ok o h8 ho rest)]
  rfl

theorem field_size {o : List Nat} (h : Palindrome o) :
    headerOctets (py! "Message-Size") (.v (.int (beVal o))) = .ok (0x8e :: longInt o) ∧
      DecH (0x8e :: longInt o) (py! "Message-Size") (.v (.int (beVal o))) := by
  obtain ⟨ho, h0, hr, hlt⟩ := h
  have hd := leDigits_beVal o ho h0
  rw [hr] at hd
  have hl := leDigits_length (n := beVal o) (k := 8) (Nat.lt_of_lt_of_le hlt (by decide))
  rw [hd] at hl
  have hs := size_octets hlt
  rw [hd] at hs
  exact ⟨hs, ⟨by simp, by decide, fun rest => size_read o (by omega) ho rest⟩⟩

theorem field_const {name : Str} {n k : Nat} {ty : MType} {v : HVal}
    (hf : findField mmsFieldNames name = some (n, ty))
    (hl : lookupNum mmsFieldNames n = some (name, ty)) (hn : n < 128) (hc : name ≠ py! "Content-Type")
    (hv : encodeMmsValue ty v = .ok [.int (k : Int)]) (hk : k < 256)
    (hd : ∀ rest, decodeMmsValue ty ⟨k :: rest, 0⟩ = .ok v ⟨rest, 0⟩) :
    headerOctets name v = .ok [0x80 + n, k] ∧ DecH [0x80 + n, k] name v :=
  ⟨headerOctets_field (body := [k]) hf hn (by rw [hv]; rfl) (by simp [hk]),
    ⟨by simp, hc, fun rest => decodeHeader_field hn hl (hd rest)⟩⟩

theorem field_type {s : Str} (h : s ∈ typeNames) :
    ∃ i, i < 7 ∧ headerOctets (py! "Message-Type") (.v (.str s)) = .ok [0x8c, 128 + i] ∧
      typeNames[i]? = some s ∧ DecH [0x8c, 128 + i] (py! "Message-Type") (.v (.str s)) := by
  obtain ⟨i, hi, rfl⟩ := List.mem_iff_getElem.1 h
  have h7 : i < 7 := hi
  refine ⟨i, h7, ?_⟩
  have henc : ∀ j : Fin 7, lookupName messageTypes (typeNames[j.val]'(j.isLt)) = some (128 + j.val) := by decide +kernel
  have := field_const (name := py! "Message-Type") (n := 12) (k := 128 + i) (ty := .messageTypeValue)
    (v := .v (.str typeNames[i])) rfl rfl (by decide) (by decide) ?_ (by omega) ?_
  · exact ⟨this.1, List.getElem?_eq_getElem hi, this.2⟩
  · simp only [encodeMmsValue, encodeMessageTypeValue, henc ⟨i, h7⟩]
  · intro rest
    have hm := messageType_ok h7 rest
    rw [List.getD_eq_getElem?_getD, List.getElem?_eq_getElem hi] at hm
    exact mmsValue_str rfl hm

theorem field_status {s : Str} (h : s ∈ statusNames) :
    ∃ o, headerOctets (py! "Status") (.v (.str s)) = .ok o ∧ DecH o (py! "Status") (.v (.str s)) := by
  obtain ⟨i, hi, rfl⟩ := List.mem_iff_getElem.1 h
  have h7 : i < 5 := hi
  have henc : ∀ j : Fin 5, lookupName statusValues (statusNames[j.val]'(j.isLt)) = some (128 + j.val) := by decide +kernel
  refine ⟨_, field_const (name := py! "Status") (n := 0x15) (k := 128 + i) (ty := .statusValue)
    (v := .v (.str statusNames[i])) rfl rfl (by decide) (by decide) ?_ (by omega) ?_⟩
  · simp only [encodeMmsValue, encodeStatusValue, henc ⟨i, h7⟩]
  · intro rest
    have hm := status_ok h7 rest
    rw [List.getD_eq_getElem?_getD, List.getElem?_eq_getElem hi] at hm
    exact mmsValue_val rfl hm

theorem findField_none {t : List (Nat × Str × MType)} {name : Str} :
    findField t name = none ↔ name ∉ t.map (fun e => e.2.1) := by
  induction t with
  | nil => simp [findField]
  | cons e t ih =>
    obtain ⟨k, n, ty⟩ := e
    unfold findField
    by_cases h : n = name
    · rw [if_pos h]; simp [h]
    · rw [if_neg h, ih]
      have : name ≠ n := fun e => h e.symm
      simp [this]

theorem fieldNames_eq : mmsFieldNames.map (fun e => e.2.1) = fieldNames := rfl

theorem encodeTokenText_token {n : Str} (h : ∀ c ∈ n, c ∉ separators) : encodeTokenText n = .ok (toInts (n ++ [0])) := by
  unfold encodeTokenText
  rw [if_neg, textOctets_eq]
  simp only [List.any_eq_true, not_exists, not_and]
  intro x hx
  rw [List.contains_eq_mem, decide_eq_true_eq]
  exact fun hm => h x hm hx

/-- an application header read back, whatever its first octet -/
theorem appHeader_raw {n v : List Nat} (hn : IsToken n) (h0 : 0 ∉ v) (h7 : v.head? ≠ some 127) (rest : List Nat) :
    decodeHeader ⟨n ++ 0 :: (v ++ [0]) ++ rest, 0⟩ = .ok (n, .v (.str v)) ⟨rest, 0⟩ := by
  apply appHeader_gen hn
  have ht := decodeTextString_plain v h0 h7 rest 0
  rwa [show v ++ [0] ++ rest = v ++ 0 :: rest by simp]

theorem field_app {n s : Str} (hn : IsToken n) (hf : n ∉ fieldNames) (h : Unquoted s) :
    headerOctets n (.v (.str s)) = .ok (n ++ 0 :: (s ++ [0])) ∧
      DecH (n ++ 0 :: (s ++ [0])) n (.v (.str s)) := by
  obtain ⟨h0, h8, h7⟩ := h
  have htok : ∀ c ∈ n, 31 < c ∧ c ∉ separators ∧ c < 127 := fun c hc => isTokenChar_sep (hn.2 c hc)
  constructor
  · have hnone : findField mmsFieldNames n = none := findField_none.2 (by rw [fieldNames_eq]; exact hf)
    unfold headerOctets encodeHeader
    rw [hnone]
    simp only [encodeTokenText_token (fun c hc => (htok c hc).2.1), encodeTextH_str, bind, Except.bind]
    rw [← ints_append, ← toInts_append, toOctets_ints]
    · simp
    · intro x hx
      simp only [List.mem_append, List.mem_singleton] at hx
      rcases hx with (h | h) | (h | h)
      · have := (htok x h).2.2; omega
      · omega
      · exact h8 x h
      · omega
  · exact ⟨by simp, fun e => hf (by rw [e]; decide), fun rest => appHeader_raw hn h0 h7 rest⟩

/-- the header is accepted and read back, whatever follows -/
def Comes (n : Str) (v : HVal) : Prop := ∃ o, headerOctets n v = .ok o ∧ DecH o n v

theorem faithful_ok {n : Str} {v : HVal} (h : Faithful n v) : ∃ o, headerOctets n v = .ok o ∧ DecH o n v := by
  cases h with
  | text f s h => cases f <;> exact ⟨_, field_text rfl rfl (by decide) (by decide) h⟩
  | sender s h => exact ⟨_, field_from h⟩
  | messageId s h => exact ⟨_, field_plain (n := 11) rfl rfl (by decide) (by decide) h⟩
  | transactionId s h => exact ⟨_, field_plain (n := 0x18) rfl rfl (by decide) (by decide) h⟩
  | type s h => obtain ⟨i, _, h1, _, h2⟩ := field_type h; exact ⟨_, h1, h2⟩
  | version a b h =>
    refine ⟨_, headerOctets_field (n := 13) (body := shortInt (16 * a + b)) rfl (by decide) ?_ ?_,
      ⟨by simp, by decide, fun rest => decodeHeader_field (n := 13) (by decide) rfl ?_⟩⟩
    · simp only [encodeMmsValue, plain, version_enc h, bind, Except.bind]
    · intro x hx; simp [shortInt] at hx; omega
    · exact mmsValue_str rfl (version_ok h.1 h.2.1 h.2.2 rest)
  | status s h => exact field_status h
  | size o h => exact ⟨_, field_size h⟩
  | app n s hn hf h => exact ⟨_, field_app hn hf h⟩

end Verif.Mms

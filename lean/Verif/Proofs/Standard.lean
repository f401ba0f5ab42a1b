import Verif.Spec.Standard
import Verif.Props.Survive
import Verif.Props.Ctype
/-!
# Lemmas for C114: headers written as WAP-209 has them
-/
set_option autoImplicit false

namespace Verif.Mms
open Verif Verif.Props
open Verif.Spec.Wsp Verif.Spec.Mms Verif.Spec.MmsEnc Verif.Spec.Standard

theorem plain_text {s : List Nat} (h : PlainText s) : text s = s ++ [0] := by
  cases s with
  | nil => rfl
  | cons c s =>
    have := h.2.2 c rfl
    unfold text
    simp only [if_neg (show ¬ c ≥ 127 by omega), List.nil_append]

theorem text_plain {s : List Nat} (h : text s = s ++ [0]) : ∀ c, s.head? = some c → c < 127 := by
  intro c hc
  cases s with
  | nil => cases hc
  | cons d s =>
    injection hc with hc
    subst hc
    by_contra hge
    unfold text at h
    simp only [if_pos (show d ≥ 127 by omega)] at h
    have := congrArg List.length h
    simp at this

theorem text_length (s : List Nat) : s.length + 1 ≤ (text s).length := by
  unfold text
  simp only [List.length_append, List.length_singleton]
  omega

theorem sized_inj {a b : List Nat} (h : sized a = sized b) : a = b := by
  have h1 := decodeValueLength_ok a.length a
  have h2 := decodeValueLength_ok b.length b
  unfold sized at h
  rw [h] at h1
  rw [h1] at h2
  injection h2 with _ h3
  injection h3

theorem sized_length (a : List Nat) : a.length + 1 ≤ (sized a).length := by
  obtain ⟨b, t, h, _⟩ := valueLength_head a.length
  unfold sized
  rw [h]
  simp only [List.length_append, List.length_cons]
  omega

theorem intEnc_length (c : IntEnc) : 1 ≤ c.enc.length := by
  cases c <;> simp [IntEnc.enc, shortInt, longInt]

/-- text fields: what is sent -/
theorem text_sent {name : Str} {n : Nat} {s : Str} (hf : findField mmsFieldNames name = some (n, .encodedStringValue))
    (hn : n < 128) {l : List Nat} (h : headerOctets name (.v (.str s)) = .ok l) :
    l = (0x80 + n) :: (s ++ [0]) ∧ ∀ c ∈ s, c < 256 := by
  obtain ⟨i, h1, body, h2, rfl⟩ := headerOctets_field_inv hf hn h
  have he : encodeMmsValue .encodedStringValue (.v (.str s)) = .ok (ints (toInts (s ++ [0]))) := by
    simp only [encodeMmsValue, encodeEncodedStringValue, encodeTextH_str, bind, Except.bind]
  rw [he] at h1
  injection h1 with h1
  subst h1
  obtain ⟨rfl, h8⟩ := toOctets_str h2
  exact ⟨rfl, fun c hc => h8 c (List.mem_append_left _ hc)⟩

theorem string_sent {name : Str} {n : Nat} {s : Str} (hf : findField mmsFieldNames name = some (n, .textString))
    (hn : n < 128) {l : List Nat} (h : headerOctets name (.v (.str s)) = .ok l) :
    l = (0x80 + n) :: (s ++ [0]) ∧ ∀ c ∈ s, c < 256 := by
  obtain ⟨i, h1, body, h2, rfl⟩ := headerOctets_field_inv hf hn h
  have he : encodeMmsValue .textString (.v (.str s)) = .ok (ints (toInts (s ++ [0]))) := by
    simp only [encodeMmsValue, encodeTextH_str, bind, Except.bind]
  rw [he] at h1
  injection h1 with h1
  subst h1
  obtain ⟨rfl, h8⟩ := toOctets_str h2
  exact ⟨rfl, fun c hc => h8 c (List.mem_append_left _ hc)⟩

theorem from_sent {s : Str} (hs : s ≠ []) {l : List Nat} (h : headerOctets (py! "From") (.v (.str s)) = .ok l) :
    l = 0x89 :: sized (128 :: (s ++ [0])) ∧ ∀ c ∈ s, c < 256 := by
  obtain ⟨i, h1, body, h2, rfl⟩ := headerOctets_field_inv (n := 9) (ty := .fromValue) rfl (by decide) h
  have he : encodeMmsValue .fromValue (.v (.str s)) = .ok (ints (toInts (sized (128 :: (s ++ [0]))))) := by
    simp only [encodeMmsValue, from_enc s hs, bind, Except.bind]
  rw [he] at h1
  injection h1 with h1
  subst h1
  obtain ⟨rfl, h8⟩ := toOctets_str h2
  refine ⟨rfl, fun c hc => h8 c ?_⟩
  unfold sized
  simp [hc]

theorem from_sent_empty : headerOctets (py! "From") (.v (.str [])) = .ok [0x89, 1, 129] := by decide +kernel

/-- a field of its own: what is sent starts with its number -/
theorem field_head {n : Str} (hn : n ∈ fieldNames) {v : HVal} {l : List Nat} (h : headerOctets n v = .ok l) :
    ∃ c, l.head? = some c ∧ 128 ≤ c := by
  have hs : ∃ k ty, findField mmsFieldNames n = some (k, ty) ∧ k < 128 := by
    rw [← fieldNames_eq] at hn
    have key : ∀ n ∈ mmsFieldNames.map (fun e => e.2.1), ((findField mmsFieldNames n).elim false fun e => decide (e.1 < 128)) = true := by
      decide +kernel
    have := key n hn
    cases hf : findField mmsFieldNames n with
    | none => rw [hf] at this; cases this
    | some e =>
      rw [hf] at this
      exact ⟨e.1, e.2, rfl, by simpa using this⟩
  obtain ⟨k, ty, hk, hlt⟩ := hs
  obtain ⟨_, _, body, _, rfl⟩ := headerOctets_field_inv hk hlt h
  exact ⟨_, rfl, by omega⟩

theorem app_sent {n s : Str} (hf : n ∉ fieldNames) {l : List Nat} (h : headerOctets n (.v (.str s)) = .ok l) :
    l = n ++ 0 :: (s ++ [0]) ∧ ∀ c ∈ s, c < 256 := by
  have hnone : findField mmsFieldNames n = none := findField_none.2 (by rw [fieldNames_eq]; exact hf)
  unfold headerOctets encodeHeader at h
  rw [hnone] at h
  simp only [encodeTextH_str, bind, Except.bind] at h
  cases ht : encodeTokenText n with
  | error e => rw [ht] at h; cases h
  | ok a =>
    rw [ht] at h
    simp only [] at h
    unfold encodeTokenText at ht
    split at ht
    · cases ht
    · injection ht with ht
      subst ht
      rw [textOctets_eq, ← ints_append, ← toInts_append] at h
      obtain ⟨rfl, h8⟩ := toOctets_str h
      exact ⟨by simp, fun c hc => h8 c (by simp [hc])⟩

theorem version_sent {a b : Nat} (h : 1 ≤ a ∧ a ≤ 7 ∧ b ≤ 14) :
    headerOctets (py! "MMS-Version") (.v (.str (dotted a b))) = .ok (0x8d :: shortInt (16 * a + b)) := by
  refine headerOctets_field (n := 13) (ty := .versionValue) rfl (by decide) ?_ ?_
  · simp only [encodeMmsValue, plain, version_enc h, bind, Except.bind]
  · intro x hx
    simp only [shortInt, List.mem_singleton] at hx
    omega

theorem major_sent {a : Nat} (h : 1 ≤ a ∧ a ≤ 7) :
    headerOctets (py! "MMS-Version") (.v (.str (dec a))) = .ok (0x8d :: shortInt (16 * a + 15)) := by
  obtain ⟨h1, h7⟩ := h
  obtain rfl | rfl | rfl | rfl | rfl | rfl | rfl : a = 1 ∨ a = 2 ∨ a = 3 ∨ a = 4 ∨ a = 5 ∨ a = 6 ∨ a = 7 := by omega
  all_goals decide +kernel

theorem string_key {name : Str} {n : Nat} {s : Str} (hf : findField mmsFieldNames name = some (n, .textString))
    (hn : n < 128) (h : PlainText s) : headerOctets name (.v (.str s)) = .ok ((0x80 + n) :: text s) := by
  rw [plain_text h]
  refine headerOctets_field hf hn ?_ (text_body h.2.1)
  simp only [encodeMmsValue, encodeTextH_str, bind, Except.bind]

theorem palindrome_octets {o : List Nat} (h : Palindrome o) : IsOctets o := by
  obtain ⟨ho, h0, hr, hlt⟩ := h
  have hd := leDigits_beVal o ho h0
  rw [hr] at hd
  have hl := leDigits_length (n := beVal o) (k := 8) (Nat.lt_of_lt_of_le hlt (by decide))
  rw [hd] at hl
  exact ⟨by omega, ho⟩

/-- a number whose digits are sent as it has them -/
theorem size_written {o : List Nat} (ho : IsOctets o) (h : headerOctets (py! "Message-Size") (.v (.int (beVal o))) = .ok (0x8e :: longInt o)) :
    Palindrome o := by
  have hlt : beVal o < 2 ^ 63 := by
    by_contra hge
    obtain ⟨i, h1, _⟩ := headerOctets_field_inv (n := 14) (ty := .longInteger) rfl (by decide) h
    rw [mmsValue_long] at h1
    unfold encodeLongInteger at h1
    have : isPyInt (beVal o) = false := by
      unfold isPyInt
      simp only [Bool.and_eq_false_iff, decide_eq_false_iff_not]
      right
      omega
    rw [this] at h1
    cases h1
  have hs := size_octets hlt
  rw [hs] at h
  injection h with h
  injection h with _ h
  have hd : leDigits (beVal o) = o := by
    unfold longInt at h
    injection h
  have hp : o = o.reverse := by
    apply beVal_inj (by simp) ho.2 (fun x hx => ho.2 x (List.mem_reverse.1 hx))
    have := beVal_leDigits_reverse (beVal o)
    rw [hd] at this
    exact this.symm
  refine ⟨ho.2, ?_, hp.symm, hlt⟩
  rw [hp, List.head?_reverse, ← hd]
  exact leDigits_last _

/-- the forms of a header the library writes -/
def SentForm : Hdr → Prop
  | .str _ _ => True
  | .fromAddr _ => True
  | .messageId _ => True
  | .transactionId _ => True
  | .messageType _ => True
  | .version _ _ => True
  | .versionMajor _ => True
  | .status _ => True
  | .size _ => True
  | .app _ _ => True
  | _ => False

/-- a standard header is accepted and written as a conformant one with the same value -/
theorem standard_form {n : Str} {v : HVal} (h : Standard n v) :
    ∃ h : Hdr, h.Conf ∧ h.name = n ∧ h.value = v ∧ SentForm h ∧ headerOctets n v = .ok h.enc := by
  cases h with
  | text f s h =>
    have key : ∀ n, findField mmsFieldNames f.name = some (n, .encodedStringValue) → n < 128 →
        headerOctets f.name (.v (.str s)) = .ok ((0x80 + n) :: text s) := by
      intro n hf hn
      rw [plain_text h]
      refine headerOctets_field hf hn ?_ (text_body h.2.1)
      simp only [encodeMmsValue, encodeEncodedStringValue, encodeTextH_str, bind, Except.bind]
    exact ⟨.str f s, h.1, rfl, rfl, trivial, by cases f <;> exact key _ rfl (by decide)⟩
  | sender s h hs =>
    refine ⟨.fromAddr s, h.1, rfl, rfl, trivial, ?_⟩
    show headerOctets _ _ = .ok (0x89 :: sized (128 :: text s))
    rw [plain_text h]
    refine headerOctets_field (n := 9) (ty := .fromValue) rfl (by decide) ?_ ?_
    · simp only [encodeMmsValue, from_enc s hs, bind, Except.bind]
    · intro x hx
      unfold sized at hx
      rcases List.mem_append.1 hx with hx | hx
      · exact valueLength_lt _ x hx
      · rcases List.mem_cons.1 hx with hx | hx
        · omega
        · exact text_body h.2.1 x hx
  | messageId s h => exact ⟨.messageId s, h.1, rfl, rfl, trivial, string_key (n := 11) rfl (by decide) h⟩
  | transactionId s h => exact ⟨.transactionId s, h.1, rfl, rfl, trivial, string_key (n := 24) rfl (by decide) h⟩
  | type s h =>
    obtain ⟨i, hi, h1, h2, _⟩ := field_type h
    refine ⟨.messageType i, hi, rfl, ?_, trivial, h1⟩
    show HVal.v (.str (typeNames.getD i [])) = _
    rw [List.getD_eq_getElem?_getD, h2]
    rfl
  | version a b h => exact ⟨.version a b, h, rfl, rfl, trivial, version_sent h⟩
  | versionMajor a h => exact ⟨.versionMajor a, h, rfl, rfl, trivial, major_sent h⟩
  | status s h =>
    obtain ⟨i, hi, rfl⟩ := List.mem_iff_getElem.1 h
    have h5 : i < 5 := hi
    refine ⟨.status i, h5, rfl, ?_, trivial, ?_⟩
    · show HVal.v (.str (statusNames.getD i [])) = _
      rw [List.getD_eq_getElem?_getD, List.getElem?_eq_getElem hi]
      rfl
    · have : ∀ j : Fin 5, headerOctets (py! "Status") (.v (.str (statusNames[j.val]'(j.isLt)))) = .ok (Hdr.status j.val).enc := by
        decide +kernel
      exact this ⟨i, h5⟩
  | size o h => exact ⟨.size o, palindrome_octets h, rfl, rfl, trivial, (field_size h).1⟩
  | app n s hn hf h =>
    refine ⟨.app n s, ⟨hn, h.1, fun e => hf (by rw [e]; decide)⟩, rfl, rfl, trivial, ?_⟩
    show headerOctets _ _ = .ok (n ++ 0 :: text s)
    rw [plain_text h]
    exact (field_app hn hf ⟨h.1, h.2.1, fun e => by have := h.2.2 _ e; omega⟩).1

theorem standard_sent {n : Str} {v : HVal} (h : Standard n v) :
    ∃ h : Hdr, h.Conf ∧ h.name = n ∧ h.value = v ∧ headerOctets n v = .ok h.enc := by
  obtain ⟨x, h1, h2, h3, _, h4⟩ := standard_form h
  exact ⟨x, h1, h2, h3, h4⟩

theorem no_field {name : Str} {n : Nat} {ty : MType} {v : HVal} {e : PyErr} {l : List Nat}
    (hf : findField mmsFieldNames name = some (n, ty)) (hn : n < 128) (he : encodeMmsValue ty v = .error e) :
    headerOctets name v ≠ .ok l := by
  intro h
  obtain ⟨i, h1, _⟩ := headerOctets_field_inv hf hn h
  rw [he] at h1
  cases h1

/-- and no other is -/
theorem sent_standard (h : Hdr) (hc : h.Conf) (hs : headerOctets h.name h.value = .ok h.enc) : Standard h.name h.value := by
  cases h with
  | str f s =>
    have key : ∀ n, findField mmsFieldNames f.name = some (n, .encodedStringValue) → n < 128 → f.num = n →
        PlainText s := by
      intro n hf hn he
      obtain ⟨h1, h2⟩ := text_sent hf hn hs
      simp only [Hdr.enc, he, List.cons.injEq, true_and] at h1
      exact ⟨hc, h2, text_plain h1⟩
    exact .text f s (by cases f <;> exact key _ rfl (by decide) rfl)
  | strCs f c s =>
    have key : ∀ n, findField mmsFieldNames f.name = some (n, .encodedStringValue) → n < 128 → False := by
      intro n hf hn
      obtain ⟨h1, _⟩ := text_sent hf hn hs
      have := congrArg List.length h1
      have h2 := sized_length (c.enc ++ text s)
      have h3 := text_length s
      have h4 := intEnc_length c
      simp only [Hdr.enc, List.length_cons, List.length_append, List.length_nil] at this h2
      omega
    exact absurd (by cases f <;> exact key _ rfl (by decide)) id
  | fromInsert =>
    have : headerOctets (py! "From") (.v (.str (py! "<not inserted>"))) ≠ .ok Hdr.fromInsert.enc := by decide +kernel
    exact absurd hs this
  | fromAddr s =>
    by_cases h0 : s = []
    · subst h0
      have := from_sent_empty.symm.trans hs
      injection this with this
      exact absurd this (by decide +kernel)
    · obtain ⟨h1, h2⟩ := from_sent h0 hs
      simp only [Hdr.enc, List.cons.injEq, true_and] at h1
      have h3 := sized_inj h1
      injection h3 with _ h3
      exact .sender s ⟨hc, h2, text_plain h3⟩ h0
  | fromCs c s =>
    by_cases h0 : s = []
    · subst h0
      have := from_sent_empty.symm.trans hs
      injection this with this
      simp only [Hdr.enc, List.cons.injEq, true_and] at this
      have h3 := sized_inj (a := [129]) this
      cases h3
    · obtain ⟨h1, h2⟩ := from_sent h0 hs
      simp only [Hdr.enc, List.cons.injEq, true_and] at h1
      have h3 := sized_inj h1
      injection h3 with _ h3
      have := congrArg List.length h3
      have h5 := sized_length (c.enc ++ text s)
      have h6 := text_length s
      have h4 := intEnc_length c
      simp only [List.length_cons, List.length_append, List.length_nil] at this h5
      omega
  | messageId s =>
    obtain ⟨h1, h2⟩ := string_sent (n := 11) rfl (by decide) hs
    simp only [Hdr.enc, List.cons.injEq, true_and] at h1
    exact .messageId s ⟨hc, h2, text_plain h1⟩
  | transactionId s =>
    obtain ⟨h1, h2⟩ := string_sent (n := 24) rfl (by decide) hs
    simp only [Hdr.enc, List.cons.injEq, true_and] at h1
    exact .transactionId s ⟨hc, h2, text_plain h1⟩
  | messageType i =>
    refine .type _ ?_
    have hi : i < typeNames.length := hc
    rw [List.getD_eq_getElem?_getD, List.getElem?_eq_getElem hi]
    exact List.getElem_mem hi
  | version a b => exact .version a b hc
  | versionMajor a => exact .versionMajor a hc
  | size o => exact .size o (size_written hc hs)
  | status i =>
    refine .status _ ?_
    have hi : i < statusNames.length := hc
    rw [List.getD_eq_getElem?_getD, List.getElem?_eq_getElem hi]
    exact List.getElem_mem hi
  | app n v =>
    by_cases hf : n ∈ fieldNames
    · obtain ⟨c, h1, h2⟩ := field_head hf hs
      obtain ⟨d, t, rfl, h3, h4, _⟩ := token_head hc.1
      injection h1 with h1
      omega
    · obtain ⟨h1, h2⟩ := app_sent hf hs
      simp only [Hdr.enc, List.append_cancel_left_eq, List.cons.injEq, true_and] at h1
      exact .app n v hc.1 hf ⟨hc.2.1, h2, text_plain h1⟩
  | contentLocation s => exact absurd hs (no_field (n := 3) (ty := .uriValue) rfl (by decide) rfl)
  | date d o => exact absurd hs (no_field (n := 5) (ty := .dateValue) rfl (by decide) rfl)
  | bool f b => cases f <;> exact absurd hs (no_field (ty := .booleanValue) rfl (by decide) rfl)
  | deliveryAbs o => exact absurd hs (no_field (n := 7) (ty := .deliveryTimeValue) rfl (by decide) rfl)
  | deliveryRel o => exact absurd hs (no_field (n := 7) (ty := .deliveryTimeValue) rfl (by decide) rfl)
  | deliveryRelShort o => exact absurd hs (no_field (n := 7) (ty := .deliveryTimeValue) rfl (by decide) rfl)
  | expiryAbs d o => exact absurd hs (no_field (n := 8) (ty := .expiryValue) rfl (by decide) rfl)
  | expiryRel i => exact absurd hs (no_field (n := 8) (ty := .expiryValue) rfl (by decide) rfl)
  | classId i => exact absurd hs (no_field (n := 10) (ty := .messageClassValue) rfl (by decide) rfl)
  | classToken i => exact absurd hs (no_field (n := 10) (ty := .messageClassValue) rfl (by decide) rfl)
  | priority i => exact absurd hs (no_field (n := 15) (ty := .priorityValue) rfl (by decide) rfl)
  | responseStatus i => exact absurd hs (no_field (n := 18) (ty := .responseStatusValue) rfl (by decide) rfl)
  | visibility b => exact absurd hs (no_field (n := 20) (ty := .senderVisibilityValue) rfl (by decide) rfl)

end Verif.Mms

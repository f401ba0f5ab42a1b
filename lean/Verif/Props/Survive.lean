import Verif.Props.Refusal
import Verif.Props.Version
import Verif.Props.MmsDec
import Verif.Proofs.Survive
/-!
# C40, C44 continued: exactly which texts and which headers come back
-/
set_option autoImplicit false

namespace Verif.Props
open Verif Verif.Mms
open Verif.Spec.Wsp Verif.Spec.Mms Verif.Spec.MmsEnc Verif.Spec.Survive Verif.Spec.Refusal

/-- C40: exactly the texts without NUL that start with a character from 32 on, other than 127, come back as encoded
strings. -/
theorem C40_encoded_iff (s : List Nat) :
    (∃ l : List Nat, encodeEncodedStringValue (.v (.str s)) = .ok (toInts l) ∧
      ∀ rest, decodeEncodedStringValue ⟨l ++ rest, 0⟩ = .ok s ⟨rest, 0⟩) ↔
    0 ∉ s ∧ ∃ c, s.head? = some c ∧ 32 ≤ c ∧ c ≠ 127 := by
  constructor
  · rintro ⟨l, h1, h2⟩
    have he : encodeEncodedStringValue (.v (.str s)) = .ok (toInts (s ++ [0])) := encodeTextH_str s
    rw [he] at h1
    injection h1 with h1
    have := toInts_inj h1
    subst this
    exact encoded_self (h2 [])
  · rintro ⟨h0, c, hc, h1, h2⟩
    exact C40_encoded_partial s h0 c hc h1 h2

/-- C40: whatever follows, the other texts are not read back: another text is read, what follows is touched, or an exception
is raised. -/
theorem C40_encoded_never (s : List Nat) (h : ¬ (0 ∉ s ∧ ∃ c, s.head? = some c ∧ 32 ≤ c ∧ c ≠ 127)) (rest : List Nat) :
    decodeEncodedStringValue ⟨s ++ [0] ++ rest, 0⟩ ≠ .ok s ⟨rest, 0⟩ := fun he => h (encoded_self he)

example : ¬ ((0 : Nat) ∉ ([31, 65] : List Nat) ∧ ∃ c, ([31, 65] : List Nat).head? = some c ∧ 32 ≤ c ∧ c ≠ 127) := by decide

/-- the same texts come back as sender -/
theorem from_enc (s : Str) (hs : s ≠ []) : encodeFromValue (.v (.str s)) = .ok (toInts (sized (128 :: (s ++ [0])))) := by
  have hne : s.length ≠ 0 := fun h => hs (List.length_eq_zero_iff.1 h)
  have hl : ((toInts (s ++ [0])).length : Int) + 1 = ((128 :: (s ++ [0])).length : Nat) := by simp [toInts]
  simp only [encodeFromValue, hlen, encodeEncodedStringValue, encodeTextH_str, bind, Except.bind, if_neg hne]
  rw [hl, encodeValueLength_eq]
  simp [sized, toInts]

theorem from_dec (s rest : List Nat) : decodeFromValue ⟨sized (128 :: (s ++ [0])) ++ rest, 0⟩ =
    decodeEncodedStringValue ⟨s ++ [0] ++ rest, 0⟩ := by
  unfold decodeFromValue
  rw [sized_append, M.bind_ok (decodeValueLength_ok _ _), List.cons_append, M.bind_ok (next_cons _ _ _),
    if_neg (by decide)]

theorem C40_from_iff (s : List Nat) :
    (∃ l : List Nat, encodeFromValue (.v (.str s)) = .ok (toInts l) ∧
      ∀ rest, decodeFromValue ⟨l ++ rest, 0⟩ = .ok s ⟨rest, 0⟩) ↔
    0 ∉ s ∧ ∃ c, s.head? = some c ∧ 32 ≤ c ∧ c ≠ 127 := by
  constructor
  · rintro ⟨l, h1, h2⟩
    by_cases hs : s = []
    · subst hs
      rw [C40_from_empty.1] at h1
      injection h1 with h1
      have := toInts_inj h1
      subst this
      have := (C40_from_empty.2 []).symm.trans (h2 [])
      injection this with this
      revert this
      decide
    · rw [from_enc s hs] at h1
      injection h1 with h1
      have := toInts_inj h1
      subst this
      have := h2 []
      rw [from_dec] at this
      exact encoded_self this
  · rintro ⟨h0, c, hc, h1, h2⟩
    exact C40_from_partial s h0 c hc h1 h2

/-! ### C44 -/

theorem headerOctets_field_inv {name : Str} {n : Nat} {ty : MType} {v : HVal} {l : List Nat}
    (hf : findField mmsFieldNames name = some (n, ty)) (hn : n < 128) (h : headerOctets name v = .ok l) :
    ∃ i, encodeMmsValue ty v = .ok i ∧ ∃ body, toOctets i = .ok body ∧ l = (0x80 + n) :: body := by
  unfold headerOctets encodeHeader at h
  rw [hf] at h
  simp only [encodeShortInteger_nat hn, bind, Except.bind] at h
  cases he : encodeMmsValue ty v with
  | error e => rw [he] at h; cases h
  | ok i =>
    rw [he] at h
    simp only [] at h
    rw [toOctets_append] at h
    have h1 : toOctets (ints (toInts (shortInt n))) = .ok (shortInt n) :=
      toOctets_ints (fun x hx => by simp [shortInt] at hx; omega)
    simp only [h1, bind, Except.bind] at h
    cases ho : toOctets i with
    | error e => rw [ho] at h; cases h
    | ok body =>
      rw [ho] at h
      injection h with h
      exact ⟨i, rfl, body, ho, h.symm⟩

theorem toOctets_str {s : Str} {body : List Nat} (h : toOctets (ints (toInts s)) = .ok body) : body = s ∧ ∀ c ∈ s, c < 256 := by
  induction s generalizing body with
  | nil => injection h with h; exact ⟨h.symm, by simp⟩
  | cons c s ih =>
    change (if (c : Int) < 0 ∨ (c : Int) > 255 then _ else _) = _ at h
    split at h
    · cases h
    · cases hs : toOctets (ints (toInts s)) with
      | error e =>
        have : toOctets (List.map Item.int (List.map (fun n : Nat => (n : Int)) s)) = .error e := hs
        simp only [this, bind, Except.bind] at h
        cases h
      | ok r =>
        have : toOctets (List.map Item.int (List.map (fun n : Nat => (n : Int)) s)) = .ok r := hs
        simp only [this, bind, Except.bind] at h
        injection h with h
        obtain ⟨h1, h2⟩ := ih hs
        subst h1
        refine ⟨by rw [← h]; simp, ?_⟩
        intro x hx
        rcases List.mem_cons.1 hx with hx | hx
        · omega
        · exact h2 x hx

theorem mmsValue_str_inv {ty : MType} {v : HVal} {m : D Str} {t t' : It}
    (hm : decodeMmsValue ty = (do let s ← m; pure (.v (.str s)))) (h : decodeMmsValue ty t = .ok v t') :
    ∃ s, v = .v (.str s) ∧ m t = .ok s t' := by
  rw [hm] at h
  obtain ⟨s, t1, h1, h2⟩ := bind_ok_invM h
  injection h2 with h2 h3
  subst h2 h3
  exact ⟨s, rfl, h1⟩

theorem mmsValue_str_err {ty : MType} {m : D Str} {t : It} {E : List PyErr}
    (hm : decodeMmsValue ty = (do let s ← m; pure (.v (.str s)))) (hs : Safe E m) (hE : PyErr.decodeError ∉ E) (t' : It) :
    decodeMmsValue ty t ≠ .err .decodeError t' := by
  rw [hm, M.bind_apply]
  cases h : m t with
  | ok a b => intro h'; cases h'
  | err e b =>
    intro h'
    injection h' with h1 _
    subst h1
    exact hE ((hs t).2 _ _ h).1

theorem from_no_de (s : List Nat) (t : It) : decodeMmsValue .fromValue ⟨sized (128 :: (s ++ [0])), 0⟩ ≠ .err .decodeError t := by
  change (decodeFromValue >>= fun s => pure (HVal.v (.str s))) _ ≠ _
  have := from_dec s []
  rw [List.append_nil, List.append_nil] at this
  rw [M.bind_apply, this]
  cases h : decodeEncodedStringValue ⟨s ++ [0], 0⟩ with
  | ok a b => intro h'; cases h'
  | err e b =>
    intro h'
    injection h' with h1 _
    subst h1
    have := ((encodedString_safe _).2 _ _ h).1
    simp at this

theorem text_field_inv {name : Str} {n : Nat} {v : HVal} {l : List Nat}
    (hf : findField mmsFieldNames name = some (n, .encodedStringValue)) (hn : n < 128)
    (hl : lookupNum mmsFieldNames n = some (name, .encodedStringValue)) (h : headerOctets name v = .ok l)
    (hd : decodeHeader ⟨l, 0⟩ = .ok (name, v) ⟨[], 0⟩) : ∃ s, v = .v (.str s) ∧ Sendable s := by
  obtain ⟨i, h1, body, h2, rfl⟩ := headerOctets_field_inv hf hn h
  have hv := field_inv hn hl (fun t => mmsValue_str_err rfl encodedString_safe (by decide) t) hd
  obtain ⟨s, rfl, hs⟩ := mmsValue_str_inv (m := decodeEncodedStringValue) rfl hv
  have he : encodeMmsValue .encodedStringValue (.v (.str s)) = .ok (ints (toInts (s ++ [0]))) := by
    simp only [encodeMmsValue, encodeEncodedStringValue, encodeTextH_str, bind, Except.bind]
  rw [he] at h1
  injection h1 with h1
  subst h1
  obtain ⟨rfl, h8⟩ := toOctets_str h2
  have hs' : decodeEncodedStringValue ⟨s ++ [0] ++ [], 0⟩ = .ok s ⟨[], 0⟩ := by rw [List.append_nil]; exact hs
  obtain ⟨h0, h3⟩ := encoded_self hs'
  exact ⟨s, rfl, h0, fun c hc => h8 c (List.mem_append_left _ hc), h3⟩

theorem plain_field_inv {name : Str} {n : Nat} {v : HVal} {l : List Nat}
    (hf : findField mmsFieldNames name = some (n, .textString)) (hn : n < 128)
    (hl : lookupNum mmsFieldNames n = some (name, .textString)) (h : headerOctets name v = .ok l)
    (hd : decodeHeader ⟨l, 0⟩ = .ok (name, v) ⟨[], 0⟩) : ∃ s, v = .v (.str s) ∧ Unquoted s := by
  obtain ⟨i, h1, body, h2, rfl⟩ := headerOctets_field_inv hf hn h
  have hv := field_inv hn hl (fun t => mmsValue_str_err rfl textString_safe (by decide) t) hd
  obtain ⟨s, rfl, hs⟩ := mmsValue_str_inv (m := decodeTextString) rfl hv
  have he : encodeMmsValue .textString (.v (.str s)) = .ok (ints (toInts (s ++ [0]))) := by
    simp only [encodeMmsValue, encodeTextH_str, bind, Except.bind]
  rw [he] at h1
  injection h1 with h1
  subst h1
  obtain ⟨rfl, h8⟩ := toOctets_str h2
  have hs' : decodeTextString ⟨s ++ [0] ++ [], 0⟩ = .ok s ⟨[], 0⟩ := by rw [List.append_nil]; exact hs
  obtain ⟨h0, h3⟩ := text_self hs'
  exact ⟨s, rfl, h0, fun c hc => h8 c (List.mem_append_left _ hc), h3⟩

/-- a text, or what is sent like one -/
theorem text_like {v : HVal} {l : List Int} (h : encodeTextStringH v = .ok l) :
    ∃ t, l = toInts (t ++ [0]) ∧ hlen v = .ok t.length ∧ ∀ s, v = .v (.str s) → t = s := by
  unfold encodeTextStringH at h
  split at h
  · rename_i x
    unfold encodeTextString at h
    split at h
    · rename_i s
      injection h with h
      exact ⟨s, by rw [← h, textOctets_eq], rfl, fun s' hs => by injection hs with hs; injection hs⟩
    · rename_i s
      injection h with h
      exact ⟨s, by rw [← h, textOctets_eq], rfl, fun s' hs => by injection hs with hs; injection hs⟩
    · cases h
  · rename_i a b
    injection h with h
    exact ⟨[a, b], h.symm, rfl, fun s hs => by cases hs⟩
  · rename_i a b
    injection h with h
    exact ⟨[a, b], h.symm, rfl, fun s hs => by cases hs⟩
  · cases h
  · cases h

theorem from_field_inv {v : HVal} {l : List Nat} (h : headerOctets (py! "From") v = .ok l)
    (hd : decodeHeader ⟨l, 0⟩ = .ok (py! "From", v) ⟨[], 0⟩) : ∃ s, v = .v (.str s) ∧ Sendable s := by
  obtain ⟨i, h1, body, h2, rfl⟩ := headerOctets_field_inv (n := 9) (ty := .fromValue) rfl (by decide) h
  have h1' := h1
  simp only [encodeMmsValue, encodeFromValue, bind, Except.bind] at h1
  cases hk : hlen v with
  | error e => rw [hk] at h1; cases h1
  | ok k =>
    simp only [hk] at h1
    by_cases h0 : k = 0
    · rw [if_pos h0] at h1
      have e : encodeValueLength 1 ++ [129] = toInts [1, 129] := by decide
      rw [e] at h1
      injection h1 with h1
      subst h1
      obtain ⟨rfl, _⟩ := toOctets_str h2
      have := decodeHeader_field (n := 9) (body := [1, 129]) (rest := []) (ty := .fromValue) (by decide) rfl
        (mmsValue_str (m := decodeFromValue) rfl (C40_from_empty.2 []))
      rw [List.append_nil] at this
      rw [this] at hd
      injection hd with hd _
      injection hd with _ hd
      rw [← hd] at hk
      injection hk with hk
      subst hk
      cases h0
    · rw [if_neg h0] at h1
      cases ht : encodeEncodedStringValue v with
      | error e => rw [ht] at h1; cases h1
      | ok b =>
        simp only [ht] at h1
        obtain ⟨t, rfl, hlen', hstr⟩ := text_like ht
        have hl : ((toInts (t ++ [0])).length : Int) + 1 = ((128 :: (t ++ [0])).length : Nat) := by simp [toInts]
        rw [hl, encodeValueLength_eq] at h1
        have e : List.map (fun x : Nat => (x : Int)) (valueLength (128 :: (t ++ [0])).length) ++ [128] ++ toInts (t ++ [0]) =
            toInts (sized (128 :: (t ++ [0]))) := by
          simp [sized, toInts]
        rw [e] at h1
        injection h1 with h1
        subst h1
        obtain ⟨rfl, h8⟩ := toOctets_str h2
        have hv := field_inv (n := 9) (by decide) rfl (from_no_de t) hd
        obtain ⟨s, rfl, hs⟩ := mmsValue_str_inv (m := decodeFromValue) rfl hv
        have := hstr s rfl
        subst this
        have hx := from_dec t []
        rw [List.append_nil] at hx
        rw [hx] at hs
        obtain ⟨h3, h4⟩ := encoded_self hs
        refine ⟨t, rfl, h3, fun c hc => h8 c ?_, h4⟩
        unfold sized
        simp [hc]

theorem messageType_stop : Safe [.stopIteration] decodeMessageTypeValue := by
  refine .bind (.preview (by simp)) (fun b => ?_)
  split
  · exact .bind (.next (by simp)) (fun _ => .pure _)
  · exact .bind .reset (fun _ => .pure _)

theorem type_field_inv {v : HVal} {l : List Nat} (h : headerOctets (py! "Message-Type") v = .ok l)
    (hd : decodeHeader ⟨l, 0⟩ = .ok (py! "Message-Type", v) ⟨[], 0⟩) : ∃ s, v = .v (.str s) ∧ s ∈ typeNames := by
  obtain ⟨i, h1, body, h2, rfl⟩ := headerOctets_field_inv (n := 12) (ty := .messageTypeValue) rfl (by decide) h
  have hv := field_inv (n := 12) (by decide) rfl (fun t => mmsValue_str_err rfl messageType_stop (by decide) t) hd
  obtain ⟨s, rfl, hs⟩ := mmsValue_str_inv (m := decodeMessageTypeValue) rfl hv
  refine ⟨s, rfl, ?_⟩
  by_contra hn
  obtain ⟨h3, h4⟩ := C44_unknown_type s hn
  rw [h3] at h
  injection h with h
  rw [← h] at hd
  have := (h4 []).symm.trans hd
  injection this with this
  injection this with _ this
  injection this with this
  injection this with this
  rw [← this] at hn
  exact hn (by decide)

theorem status_field_inv {v : HVal} {l : List Nat} (h : headerOctets (py! "Status") v = .ok l)
    (hb : ∀ s, v = .v (.str s) → ∀ c ∈ s, c < 256)
    (hd : decodeHeader ⟨l, 0⟩ = .ok (py! "Status", v) ⟨[], 0⟩) : ∃ s, v = .v (.str s) ∧ s ∈ statusNames := by
  have hr := C88_exact (py! "Status") v hb
  rw [h] at hr
  have e : refusal (py! "Status") v = statusRefusal v := by
    unfold refusal
    rw [if_neg (by decide), if_neg (by decide), if_neg (by decide), if_pos rfl]
  rw [e] at hr
  unfold statusRefusal at hr
  split at hr
  · rename_i s
    by_cases hs : s ∈ statusNames
    · exact ⟨s, rfl, hs⟩
    · rw [if_neg hs] at hr; cases hr
  · rename_i s
    by_cases hs : s ∈ statusNames
    · obtain ⟨o, h1, h2⟩ := field_status hs
      rw [C44_unicode _ _ (by decide), h1] at h
      injection h with h
      subst h
      have := h2.dec []
      rw [List.append_nil, hd] at this
      injection this with this
      injection this with _ this
      injection this with this
      cases this
    · rw [if_neg hs] at hr; cases hr
  · cases hr

theorem leDigits_last (n : Nat) : (leDigits n).getLast? ≠ some 0 := by
  induction n using Nat.strongRecOn with
  | _ n ih =>
    rw [leDigits]
    by_cases h : n = 0
    · rw [dif_pos h]; simp
    · rw [dif_neg h]
      have := ih (n / 256) (by omega)
      cases hd : leDigits (n / 256) with
      | nil =>
        have hz := beVal_leDigits_reverse (n / 256)
        rw [hd] at hz
        change 0 = n / 256 at hz
        simp only [List.getLast?_singleton, ne_eq, Option.some.injEq]
        omega
      | cons x r =>
        rw [hd] at this
        rw [List.getLast?_cons_cons]
        exact this

theorem size_field_inv {v : HVal} {l : List Nat} (h : headerOctets (py! "Message-Size") v = .ok l)
    (hb : ∀ s, v = .v (.str s) → ∀ c ∈ s, c < 256)
    (hd : decodeHeader ⟨l, 0⟩ = .ok (py! "Message-Size", v) ⟨[], 0⟩) : ∃ o, v = .v (.int (beVal o)) ∧ Palindrome o := by
  have hr := C88_exact (py! "Message-Size") v hb
  rw [h] at hr
  have e : refusal (py! "Message-Size") v = sizeRefusal v := by
    unfold refusal
    rw [if_neg (by decide), if_neg (by decide), if_neg (by decide), if_neg (by decide), if_neg (by decide), if_pos rfl]
  rw [e] at hr
  have read : ∀ n : Nat, n < 2 ^ 63 → headerOctets (py! "Message-Size") v = headerOctets (py! "Message-Size") (.v (.int n)) →
      v = .v (.int (beVal (leDigits n))) := by
    intro n hn hv
    rw [hv, size_octets hn] at h
    injection h with h
    subst h
    have hl := leDigits_length (n := n) (k := 8) (Nat.lt_of_lt_of_le hn (by decide))
    have := size_read (leDigits n) (by omega) (leDigits_lt n) []
    rw [List.append_nil, hd] at this
    injection this with this
    injection this
  unfold sizeRefusal at hr
  split at hr
  · rename_i b
    have := read (if b then 1 else 0) (by cases b <;> decide) (by cases b <;> rfl)
    cases this
  · rename_i i
    by_cases hi : -2 ^ 63 ≤ i ∧ i < 2 ^ 63
    · by_cases h0 : 0 ≤ i
      · obtain ⟨n, rfl⟩ := Int.eq_ofNat_of_zero_le h0
        have hn : n < 2 ^ 63 := by have := hi.2; omega
        have := read n hn rfl
        injection this with this
        injection this with this
        have hv : beVal (leDigits n) = n := by omega
        have hp : leDigits n = (leDigits n).reverse := by
          apply beVal_inj (by simp) (leDigits_lt n) (fun x hx => leDigits_lt n x (List.mem_reverse.1 hx))
          rw [hv, beVal_leDigits_reverse]
        refine ⟨leDigits n, by rw [hv], leDigits_lt n, ?_, hp.symm, by omega⟩
        rw [hp, List.head?_reverse]
        exact leDigits_last n
      · have := read 0 (by decide) (by
          unfold headerOctets encodeHeader
          have e1 : encodeLongInteger i = encodeLongInteger ((0 : Nat) : Int) := by
            unfold encodeLongInteger
            have : isPyInt i = true := by unfold isPyInt; simp only [Bool.and_eq_true, decide_eq_true_eq]; exact hi
            rw [this, show i.toNat = 0 by omega]
            rfl
          have e2 : encodeMmsValue .longInteger (.v (.int i)) = encodeMmsValue .longInteger (.v (.int ((0 : Nat) : Int))) := by
            simp only [encodeMmsValue, plain, encodeLongIntegerV, intOf, bind, Except.bind, e1]
          have e3 : findField mmsFieldNames (py! "Message-Size") = some (14, .longInteger) := rfl
          rw [e3]
          simp only [e2])
        injection this with this
        injection this with this
        omega
    · rw [if_neg hi] at hr; cases hr
  · cases hr

theorem version_octets {s : Str} {l : List Nat} (ho : ∀ c ∈ s, c < 256)
    (h : encodeVersionValue (.str s) = .ok (toInts l)) : ∀ x ∈ l, x < 256 := by
  obtain ⟨h2, hshort, htext⟩ := C41_exact s
  by_cases hc : s.count 46 ≤ 1
  · by_cases hs : ∃ a b, Spec.Numeral.Short s a b
    · obtain ⟨a, b, hab⟩ := hs
      have hbd := short_bounds hab
      rw [hshort a b hab] at h
      injection h with h
      have : [128 + 16 * a + b] = l := toInts_inj h
      rw [← this]
      intro x hx
      simp only [List.mem_singleton] at hx
      omega
    · rw [htext hc (fun a b hab => hs ⟨a, b, hab⟩)] at h
      injection h with h
      rw [← toInts_inj h]
      exact text_body ho
  · rw [h2 (by omega)] at h
    injection h with h
    have : ([] : List Nat) = l := toInts_inj h
    rw [← this]
    simp

theorem version_nat (s : Str) : ∃ l : List Nat, encodeVersionValue (.str s) = .ok (toInts l) := by
  obtain ⟨h2, hshort, htext⟩ := C41_exact s
  by_cases hc : s.count 46 ≤ 1
  · by_cases hs : ∃ a b, Spec.Numeral.Short s a b
    · obtain ⟨a, b, hab⟩ := hs
      exact ⟨[128 + 16 * a + b], hshort a b hab⟩
    · exact ⟨_, htext hc (fun a b hab => hs ⟨a, b, hab⟩)⟩
  · exact ⟨[], h2 (by omega)⟩

theorem version_field_iff (v : HVal) (hb : ∀ s, v = .v (.str s) → ∀ c ∈ s, c < 256) :
    (∃ l, headerOctets (py! "MMS-Version") v = .ok l ∧
      ∀ rest, decodeHeader ⟨l ++ rest, 0⟩ = .ok (py! "MMS-Version", v) ⟨rest, 0⟩) ↔
    ∃ s, v = .v (.str s) ∧ VersionText s := by
  constructor
  · rintro ⟨l, h, hd⟩
    obtain ⟨i, h1, body, h2, rfl⟩ := headerOctets_field_inv (n := 13) (ty := .versionValue) rfl (by decide) h
    have key : ∀ rest, decodeMmsValue .versionValue ⟨body ++ rest, 0⟩ = .ok v ⟨rest, 0⟩ := fun rest =>
      field_inv (n := 13) (by decide) rfl (fun t => mmsValue_str_err rfl versionValue_safe (by decide) t) (hd rest)
    obtain ⟨s, rfl, _⟩ := mmsValue_str_inv (m := decodeVersionValue) rfl (key [])
    refine ⟨s, rfl, (C41_round_trip_iff s (hb s rfl)).1 ?_⟩
    obtain ⟨l', hl'⟩ := version_nat s
    refine ⟨l', hl', fun rest => ?_⟩
    simp only [encodeMmsValue, plain, hl', bind, Except.bind] at h1
    injection h1 with h1
    subst h1
    obtain ⟨rfl, _⟩ := toOctets_str h2
    obtain ⟨s', hs', h3⟩ := mmsValue_str_inv (m := decodeVersionValue) rfl (key rest)
    injection hs' with hs'
    injection hs' with hs'
    rw [hs']
    exact h3
  · rintro ⟨s, rfl, h⟩
    obtain ⟨l, h1, h2⟩ := (C41_round_trip_iff s (hb s rfl)).2 h
    refine ⟨_, headerOctets_field (n := 13) (ty := .versionValue) (body := l) rfl (by decide) ?_ (version_octets (hb s rfl) h1),
      fun rest => decodeHeader_field (n := 13) (by decide) rfl (mmsValue_str (m := decodeVersionValue) rfl (h2 rest))⟩
    simp only [encodeMmsValue, plain, h1, bind, Except.bind]

/-! application headers -/

theorem sep_iff (c : Nat) : isSeparator c = true ↔ c ∈ separators := by
  simp only [isSeparator, separators, Bool.or_eq_true, decide_eq_true_eq, List.contains_iff_mem, List.mem_cons, List.not_mem_nil,
    or_false]
  omega

theorem app_octets {n : Str} {v : HVal} {l : List Nat} (hf : n ∉ fieldNames)
    (h : headerOctets n v = .ok l) : (∀ c ∈ n, isSeparator c = false) ∧ (∀ c ∈ l, c < 256) ∧
      ∃ t, l = n ++ 0 :: (t ++ [0]) ∧ ∀ s, v = .v (.str s) → t = s := by
  have hnone : findField mmsFieldNames n = none := findField_none.2 (by rw [fieldNames_eq]; exact hf)
  unfold headerOctets encodeHeader at h
  rw [hnone] at h
  simp only [] at h
  by_cases hs : ∀ c ∈ n, c ∉ separators
  · have hsep : ∀ c ∈ n, isSeparator c = false := fun c hc => by
      cases hx : isSeparator c with
      | false => rfl
      | true => exact absurd ((sep_iff c).1 hx) (hs c hc)
    rw [encodeTokenText_token hs] at h
    cases ht : encodeTextStringH v with
    | error e => simp only [ht, bind, Except.bind] at h; cases h
    | ok b =>
      obtain ⟨t, rfl, _, hstr⟩ := text_like ht
      simp only [ht, bind, Except.bind] at h
      rw [← ints_append, ← toInts_append] at h
      obtain ⟨rfl, h8⟩ := toOctets_str h
      exact ⟨hsep, h8, t, by simp, hstr⟩
  · exfalso
    have : encodeTokenText n = .error .encodeError := by
      unfold encodeTokenText
      rw [if_pos]
      push Not at hs
      obtain ⟨c, hc, hs⟩ := hs
      rw [List.any_eq_true]
      exact ⟨c, hs, by rw [List.contains_iff_mem]; exact hc⟩
    simp only [this, bind, Except.bind] at h
    cases h

theorem wsp_names_ascii : ∀ n ∈ wspNames, 2 ≤ n.length ∧ ∀ c ∈ n.take 2, c < 128 := by decide +kernel

theorem app_field_inv {n : Str} {v : HVal} {l : List Nat} (hf : n ∉ fieldNames)
    (h : headerOctets n v = .ok l) (hd : decodeHeader ⟨l, 0⟩ = .ok (n, v) ⟨[], 0⟩) :
    ∃ s, v = .v (.str s) ∧ AppName n s ∧ Unquoted s := by
  obtain ⟨hsep, h8, t, rfl, hstr⟩ := app_octets hf h
  obtain ⟨f, g, r, hfg⟩ : ∃ f g r, n ++ 0 :: (t ++ [0]) = f :: g :: r := by
    match n with
    | [] => match t with
      | [] => exact ⟨0, 0, [], rfl⟩
      | c :: t => exact ⟨0, c, t ++ [0], rfl⟩
    | [c] => exact ⟨c, 0, t ++ [0], rfl⟩
    | c :: d :: n => exact ⟨c, d, n ++ 0 :: (t ++ [0]), rfl⟩
  have hlen : n.length + t.length + 2 = r.length + 2 := by
    have := congrArg List.length hfg
    simp at this
    omega
  by_cases h2 : f < 128 ∧ g < 128
  · rw [hfg, header_plain h2.1 h2.2, ← hfg] at hd
    have hn8 : ∀ c ∈ n, c < 256 := fun c hc => h8 c (List.mem_append_left _ hc)
    have ht8 : ∀ c ∈ t, c < 256 := fun c hc => h8 c (by simp [hc])
    have hfirst : ∀ c ∈ (n ++ 0 :: (t ++ [0])).take 2, c < 128 := by
      rw [hfg]
      intro c hc
      simp only [List.take_succ_cons, List.take_zero, List.mem_cons, List.not_mem_nil, or_false] at hc
      rcases hc with rfl | rfl
      · exact h2.1
      · exact h2.2
    unfold decodeApplicationHeader at hd
    obtain ⟨a, s1, k1, k2⟩ := bind_ok_invM hd
    obtain ⟨u, s2, k3, k4⟩ := bind_ok_invM k2
    injection k4 with k4 k5
    injection k4 with k4 k6
    subst k4 k5 k6
    have := hstr u rfl
    subst this
    have hval : ∀ k, s1 = ⟨t ++ [0], k⟩ → Unquoted t := by
      intro k hk
      rw [hk] at k3
      have k3' : decodeTextString ⟨t ++ [0] ++ [], k⟩ = .ok t ⟨[], 0⟩ := by rw [List.append_nil]; exact k3
      obtain ⟨h0, h7⟩ := text_self k3'
      exact ⟨h0, ht8, h7⟩
    obtain ⟨rem, k⟩ := s1
    unfold orDecodeError M.tryCatch at k1
    cases hk : decodeTokenText ⟨a ++ 0 :: (t ++ [0]), 0⟩ with
    | ok x y =>
      rw [hk] at k1
      injection k1 with e1 e2
      subst e1 e2
      obtain ⟨c, hc, hx⟩ := token_inv hk
      simp only [List.append_cancel_left_eq, List.cons.injEq] at hx
      refine ⟨t, rfl, ⟨hn8, hsep, fun h0 => ?_, hfirst, fun _ c hc' => (hc c hc').1⟩, hval k (by rw [hx.2])⟩
      exact absurd (hc 0 h0).1 (by decide)
    | err e y =>
      rw [hk] at k1
      simp only [beq_iff_eq] at k1
      split at k1
      · rename_i he
        subst he
        have hy := tokenText_restores _ _ hk
        subst hy
        obtain ⟨h0, hx⟩ := text_inv k1
        simp only at hx
        rcases hx with ⟨hx, _⟩ | hx
        · simp only [List.append_cancel_left_eq, List.cons.injEq, true_and] at hx
          refine ⟨t, rfl, ⟨hn8, hsep, h0, hfirst, ?_⟩, hval k (by rw [hx])⟩
          rintro ⟨c, hc, h32⟩
          exfalso
          cases a with
          | nil => cases hc
          | cons b a =>
            injection hc with hc
            subst hc
            have hns : b ∉ separators := fun hm => by
              have := hsep b (by simp)
              rw [(sep_iff b).2 hm] at this
              cases this
            unfold decodeTokenText at hk
            rw [List.cons_append, M.bind_ok (preview_zero _ _), if_neg (by rintro (h | h); omega; exact hns h)] at hk
            have := ((tokenLoop_D _).2 _ _ hk).1
            simp at this
        · have h1 := congrArg List.length hx
          have h3 := text_count k3
          simp at h1 h3
          omega
      · cases k1
  · exfalso
    rw [hfg] at hd h8
    have := header_number h8 (by
      by_cases h1 : 128 ≤ f
      · exact .inl h1
      · exact .inr ⟨g, r, rfl, by omega⟩) hd
    rcases this with h1 | h1 | ⟨u, h1, h3⟩
    · exact hf h1
    · obtain ⟨h3, h4⟩ := wsp_names_ascii n h1
      match n, h3 with
      | c :: d :: n, _ =>
        simp only [List.cons_append, List.cons.injEq] at hfg
        have e1 := h4 c (by simp)
        have e2 := h4 d (by simp)
        rw [hfg.1] at e1
        rw [hfg.2.1] at e2
        exact h2 ⟨e1, e2⟩
    · have := hstr u h1
      subst this
      simp at h3
      omega

theorem app_field_ok {n s : Str} (hf : n ∉ fieldNames) (h : AppName n s) (hs : Unquoted s) :
    headerOctets n (.v (.str s)) = .ok (n ++ 0 :: (s ++ [0])) ∧
      ∀ rest, decodeHeader ⟨n ++ 0 :: (s ++ [0]) ++ rest, 0⟩ = .ok (n, .v (.str s)) ⟨rest, 0⟩ := by
  have hsep : ∀ c ∈ n, c ∉ separators := fun c hc hm => by
    have := h.separators c hc
    rw [(sep_iff c).2 hm] at this
    cases this
  obtain ⟨h0, h8, h7⟩ := hs
  constructor
  · have hnone : findField mmsFieldNames n = none := findField_none.2 (by rw [fieldNames_eq]; exact hf)
    unfold headerOctets encodeHeader
    rw [hnone]
    simp only [encodeTokenText_token hsep, encodeTextH_str, bind, Except.bind]
    rw [← ints_append, ← toInts_append, toOctets_ints]
    · simp
    · intro x hx
      simp only [List.mem_append, List.mem_singleton] at hx
      rcases hx with (hx | hx) | (hx | hx)
      · exact h.octets x hx
      · omega
      · exact h8 x hx
      · omega
  · intro rest
    obtain ⟨f, g, r, hfg⟩ : ∃ f g r, n ++ 0 :: (s ++ [0]) = f :: g :: r := by
      match n with
      | [] => match s with
        | [] => exact ⟨0, 0, [], rfl⟩
        | c :: t => exact ⟨0, c, t ++ [0], rfl⟩
      | [c] => exact ⟨c, 0, s ++ [0], rfl⟩
      | c :: d :: n => exact ⟨c, d, n ++ 0 :: (s ++ [0]), rfl⟩
    have hfirst := h.first
    rw [hfg] at hfirst
    have e : decodeHeader ⟨n ++ 0 :: (s ++ [0]) ++ rest, 0⟩ = decodeApplicationHeader ⟨n ++ 0 :: (s ++ [0]) ++ rest, 0⟩ := by
      rw [hfg]
      exact header_plain (hfirst f (by simp)) (hfirst g (by simp))
    rw [e, show n ++ 0 :: (s ++ [0]) ++ rest = n ++ 0 :: (s ++ 0 :: rest) by simp]
    have hv := fun k => decodeTextString_plain s h0 h7 rest k
    unfold decodeApplicationHeader
    have hname : orDecodeError decodeTokenText decodeTextString ⟨n ++ 0 :: (s ++ 0 :: rest), 0⟩ = .ok n ⟨s ++ 0 :: rest, 0⟩ := by
      by_cases hc : ∃ c, n.head? = some c ∧ 32 ≤ c
      · have h32 := h.control hc
        obtain ⟨c, hc, _⟩ := hc
        apply orDE_ok
        cases n with
        | nil => cases hc
        | cons b n =>
          unfold decodeTokenText
          have hb1 := h32 b (by simp)
          have hb2 := hsep b (by simp)
          rw [List.cons_append, M.bind_ok (preview_zero _ _), if_neg (by rintro (h | h); omega; exact hb2 h)]
          have := tokenLoop_run (b :: n) (0 :: (s ++ 0 :: rest)) [] (fun x hx => (ends_iff x).2 ⟨h32 x hx, hsep x hx⟩)
          rw [List.nil_append, List.cons_append] at this
          show tokenLoop [] (b :: (n ++ 0 :: (s ++ 0 :: rest))) = _
          rw [this, tokenLoop, if_neg (by decide)]
      · have hlow : ∀ c, n.head? = some c → c < 32 := fun c hn => by
          by_contra h'
          exact hc ⟨c, hn, by omega⟩
        have ht : decodeTokenText ⟨n ++ 0 :: (s ++ 0 :: rest), 0⟩ = .err .decodeError ⟨n ++ 0 :: (s ++ 0 :: rest), 0⟩ := by
          unfold decodeTokenText
          cases n with
          | nil =>
            rw [List.nil_append, M.bind_ok (preview_zero _ _), if_pos (by decide)]
            rfl
          | cons b n =>
            rw [List.cons_append, M.bind_ok (preview_zero _ _), if_pos (by have := hlow b rfl; omega)]
            rfl
        rw [orDE_err ht]
        exact decodeTextString_plain n h.nul (fun h' => by have := hlow _ h'; omega) _ _
    rw [M.bind_ok hname, M.bind_ok (hv 0)]
    rfl

/-- C44: exactly which headers come back: a header is accepted, read back with the same name and value, and what follows is
untouched, whatever it is, if and only if it is in `Survives`.  (A `str` holds octets.) -/
theorem C44_iff (n : Str) (v : HVal) (hb : ∀ s, v = .v (.str s) → ∀ c ∈ s, c < 256) :
    (∃ l, headerOctets n v = .ok l ∧ ∀ rest, decodeHeader ⟨l ++ rest, 0⟩ = .ok (n, v) ⟨rest, 0⟩) ↔ Survives n v := by
  constructor
  · rintro ⟨l, h, hd⟩
    have hd0 := hd []
    rw [List.append_nil] at hd0
    by_cases hn : n ∈ fieldNames
    · have hr := C88_exact n v hb
      rw [h] at hr
      simp only [fieldNames, List.mem_cons, List.not_mem_nil, or_false] at hn
      rcases hn with rfl | rfl | rfl | rfl | rfl | rfl | rfl | rfl | rfl | rfl | rfl | rfl | rfl | rfl | rfl | rfl | rfl | rfl |
        rfl | rfl | rfl | rfl | rfl | rfl
      · obtain ⟨s, rfl, hs⟩ := text_field_inv (n := 1) rfl (by decide) rfl h hd0; exact .text .bcc s hs
      · obtain ⟨s, rfl, hs⟩ := text_field_inv (n := 2) rfl (by decide) rfl h hd0; exact .text .cc s hs
      · cases hr
      · cases hr
      · cases hr
      · cases hr
      · cases hr
      · cases hr
      · obtain ⟨s, rfl, hs⟩ := from_field_inv h hd0; exact .sender s hs
      · cases hr
      · obtain ⟨s, rfl, hs⟩ := plain_field_inv (n := 11) rfl (by decide) rfl h hd0; exact .messageId s hs
      · obtain ⟨s, rfl, hs⟩ := type_field_inv h hd0; exact .type s hs
      · obtain ⟨s, rfl, hs⟩ := (version_field_iff v hb).1 ⟨l, h, hd⟩; exact .version s hs
      · obtain ⟨o, rfl, ho⟩ := size_field_inv h hb hd0; exact .size o ho
      · cases hr
      · cases hr
      · cases hr
      · cases hr
      · obtain ⟨s, rfl, hs⟩ := text_field_inv (n := 0x13) rfl (by decide) rfl h hd0; exact .text .responseText s hs
      · cases hr
      · obtain ⟨s, rfl, hs⟩ := status_field_inv h hb hd0; exact .status s hs
      · obtain ⟨s, rfl, hs⟩ := text_field_inv (n := 0x16) rfl (by decide) rfl h hd0; exact .text .subject s hs
      · obtain ⟨s, rfl, hs⟩ := text_field_inv (n := 0x17) rfl (by decide) rfl h hd0; exact .text .to s hs
      · obtain ⟨s, rfl, hs⟩ := plain_field_inv (n := 0x18) rfl (by decide) rfl h hd0; exact .transactionId s hs
    · obtain ⟨s, rfl, h1, h2⟩ := app_field_inv hn h hd0
      exact .app n s hn h1 h2
  · intro h
    cases h with
    | text f s h => exact C44_partial _ _ (.text f s h)
    | sender s h => exact C44_partial _ _ (.sender s h)
    | messageId s h => exact C44_partial _ _ (.messageId s h)
    | transactionId s h => exact C44_partial _ _ (.transactionId s h)
    | type s h => exact C44_partial _ _ (.type s h)
    | version s h => exact (version_field_iff _ hb).2 ⟨s, rfl, h⟩
    | status s h => exact C44_partial _ _ (.status s h)
    | size o h => exact C44_partial _ _ (.size o h)
    | app n s hf hn h => exact ⟨_, app_field_ok hf hn h⟩

/-- a name beyond ASCII in the second place is lost; one in the third place is not, nor is a control character in front -/
example : ¬ AppName [97, 233] (py! "x") ∧ AppName [97, 98, 233] (py! "x") ∧ AppName [1, 98, 10] (py! "x") := by
  refine ⟨fun h => absurd (h.first 233 (by decide)) (by decide), ⟨?_, ?_, ?_, ?_, ?_⟩, ⟨?_, ?_, ?_, ?_, ?_⟩⟩
  all_goals decide

end Verif.Props

import Verif.Props.Refusal
import Verif.Proofs.MmsEnc3
/-!
# C86: the headers of parts that cannot be sent; C39, C49, C58: single values
-/
set_option autoImplicit false

namespace Verif.Props
open Verif Verif.Mms
open Verif.Spec.Wsp Verif.Spec.Mms Verif.Spec.MmsEnc Verif.Spec.Refusal

theorem sep_any (n : Str) : (separators.any fun c => n.contains c) = n.any isSeparator := by
  rw [Bool.eq_iff_iff, List.any_eq_true, List.any_eq_true]
  constructor
  · rintro ⟨c, hc, h⟩
    exact ⟨c, List.contains_iff_mem.1 h, (show ∀ c ∈ separators, isSeparator c = true by decide) c hc⟩
  · rintro ⟨c, hc, h⟩
    refine ⟨c, ?_, List.contains_iff_mem.2 hc⟩
    simp only [isSeparator, Bool.or_eq_true, decide_eq_true_eq, List.contains_iff_mem, List.mem_cons, List.not_mem_nil,
      or_false] at h
    simp only [separators, List.mem_cons, List.not_mem_nil, or_false]
    omega

theorem raised_media (s : Str) : raised (toOctets (ints (textOctets s))) = if ∀ x ∈ s, x < 256 then none else some .overflowError := by
  by_cases h : ∀ x ∈ s, x < 256
  · rw [if_pos h, raised_ints ((octets_text s).2 h)]
  · rw [if_neg h, raised_bad (fun h' => h ((octets_text s).1 h'))]

/-- the assigned media types begin with a letter or a star and are ASCII -/
theorem known_plain : ∀ s ∈ wellKnownContentTypes, ∀ e, acceptText s e = none := by
  have h : ∀ s ∈ wellKnownContentTypes, s ≠ [] ∧ (∀ x ∈ s, 32 ≤ x ∧ x < 127) := by decide +kernel
  intro s hs e
  obtain ⟨h0, h1⟩ := h s hs
  cases s with
  | nil => exact absurd rfl h0
  | cons c s =>
    have := h1 c (by simp)
    simp only [acceptText]
    rw [if_neg (by omega), if_pos (fun x hx => by have := h1 x hx; omega)]

theorem raised_general (s : Str) (hs : s ∉ wellKnownContentTypes) :
    raised (encodeAcceptGeneral s >>= toOctets) = some .typeError := by
  unfold encodeAcceptGeneral encodeMediaType
  rw [indexOf_none.2 hs]
  rfl

theorem constrained_short (i : Nat) (h : i < 128) :
    encodeConstrainedEncoding (.int i) = .ok [(i : Int) + 128] := by
  have hp : isPyInt (i : Int) = true := by
    simp only [isPyInt, Bool.and_eq_true, decide_eq_true_eq]
    omega
  show (if isPyInt (i : Int) = true then encodeShortInteger i else encodeExtensionMedia (intStr i)) = _
  rw [if_pos hp, encodeShortInteger, if_neg (by omega)]

theorem raised_ok (l : List Item) : raised ((.ok l : Py (List Item)) >>= toOctets) = raised (toOctets l) := rfl

theorem raised_known {s : Str} {i : Nat} (hi : indexOf wellKnownContentTypes s = some i) :
    encodeConstrainedEncoding (.int i) = .ok [(i : Int) + 128] ∧ Octets [(i : Int) + 128] ∧
      ∀ e, acceptText s e = none := by
  have h1 := indexOf_lt hi
  have h2 := wellKnownContentTypes_length
  exact ⟨constrained_short i (by omega), octets_short (by omega), known_plain s (List.mem_of_getElem? (indexOf_get hi))⟩

theorem raised_accept_int (n : Int) : raised (encodeAcceptValue (.v (.int n)) >>= toOctets) = acceptRefusal (.v (.int n)) := by
  simp only [encodeAcceptValue, acceptRefusal, encodeConstrainedEncoding]
  by_cases hp : -2 ^ 63 ≤ n ∧ n < 2 ^ 63
  · have : isPyInt n = true := by
      simp only [isPyInt, Bool.and_eq_true, decide_eq_true_eq]
      exact hp
    simp only [this, if_true, encodeShortInteger]
    by_cases hn : n < 0 ∨ n > 127
    · rw [if_pos hn, if_neg (by omega)]
      rfl
    · rw [if_neg hn, if_pos (by omega)]
      refine raised_ints ?_
      intro x hx
      simp only [List.mem_cons, List.not_mem_nil, or_false] at hx
      omega
  · have : isPyInt n = false := by
      rw [Bool.eq_false_iff]
      intro h
      simp only [isPyInt, Bool.and_eq_true, decide_eq_true_eq] at h
      exact hp h
    simp only [this, Bool.false_eq_true, if_false]
    rw [if_pos (.inr hp)]
    have hl := intStr_lt n
    have hx : ∃ c s, intStr n = c :: s ∧ ¬ (c < 32 ∨ c = 127) := by
      unfold intStr
      split
      · exact ⟨_, _, rfl, by decide⟩
      · cases h : natStr n.toNat with
        | nil => exact absurd h (natStr_ne_nil _)
        | cons c s =>
          have := natStr_digits n.toNat c (by rw [h]; simp)
          exact ⟨c, s, rfl, by omega⟩
    obtain ⟨c, s, hx, hc⟩ := hx
    rw [hx] at hl ⊢
    simp only [encodeExtensionMedia, if_neg hc]
    exact raised_ints ((octets_text _).2 hl)

theorem accept_str_ok {s : Str} {l : List Int} (h : encodeConstrainedMedia s = .ok l) :
    encodeAcceptValue (.v (.str s)) = .ok (ints l) := by
  unfold encodeAcceptValue
  dsimp only
  rw [h]

theorem accept_str_err {s : Str} (h : encodeConstrainedMedia s = .error .encodeError) :
    encodeAcceptValue (.v (.str s)) = encodeAcceptGeneral s := by
  unfold encodeAcceptValue
  dsimp only
  rw [h]

theorem media_known {s : Str} {i : Nat} {r : Py (List Int)} (h : indexOf wellKnownContentTypes s = some i)
    (hr : encodeConstrainedEncoding (.int i) = r) : encodeConstrainedMedia s = r := by
  unfold encodeConstrainedMedia
  rw [h]
  exact hr

theorem media_unknown {s : Str} (h : indexOf wellKnownContentTypes s = none) :
    encodeConstrainedMedia s = encodeExtensionMedia s := by
  unfold encodeConstrainedMedia
  rw [h]
  rfl

theorem raised_accept_str (s : Str) : raised (encodeAcceptValue (.v (.str s)) >>= toOctets) = acceptRefusal (.v (.str s)) := by
  rw [acceptRefusal]
  cases hi : indexOf wellKnownContentTypes s with
  | some i =>
    obtain ⟨h1, h2, h3⟩ := raised_known hi
    rw [accept_str_ok (media_known hi h1), raised_ok, raised_ints h2, h3]
  | none =>
    have hm := media_unknown hi
    cases s with
    | nil => decide +kernel
    | cons c s =>
      simp only [encodeExtensionMedia] at hm
      simp only [acceptText]
      by_cases hc : c < 32 ∨ c = 127
      · rw [if_pos hc] at hm ⊢
        rw [accept_str_err hm, raised_general _ (indexOf_none.1 hi)]
      · rw [if_neg hc] at hm ⊢
        rw [accept_str_ok hm, raised_ok, raised_media]

theorem accept_uni_known {s : Str} {i : Nat} {l : List Int} (h : indexOf wellKnownContentTypes s = some i)
    (hr : encodeConstrainedEncoding (.int i) = .ok l) : encodeAcceptValue (.v (.uni s)) = .ok (ints l) := by
  unfold encodeAcceptValue
  dsimp only
  rw [h]
  dsimp only
  rw [hr]
  rfl

theorem accept_uni_ok {s : Str} {l : List Int} (h : indexOf wellKnownContentTypes s = none)
    (hr : encodeConstrainedEncoding (.uni s) = .ok l) : encodeAcceptValue (.v (.uni s)) = .ok (ints l) := by
  unfold encodeAcceptValue
  dsimp only
  rw [h]
  dsimp only
  rw [hr]

theorem accept_uni_err {s : Str} {e : PyErr} (h : indexOf wellKnownContentTypes s = none)
    (hr : encodeConstrainedEncoding (.uni s) = .error e) :
    encodeAcceptValue (.v (.uni s)) = if e = .encodeError then encodeAcceptGeneral s else .error e := by
  unfold encodeAcceptValue
  dsimp only
  rw [h]
  dsimp only
  rw [hr]
  cases e <;> rfl

theorem raised_accept_uni (s : Str) : raised (encodeAcceptValue (.v (.uni s)) >>= toOctets) = acceptRefusal (.v (.uni s)) := by
  rw [acceptRefusal]
  cases hi : indexOf wellKnownContentTypes s with
  | some i =>
    obtain ⟨h1, h2, h3⟩ := raised_known hi
    rw [accept_uni_known hi h1, raised_ok, raised_ints h2, h3]
  | none =>
    cases s with
    | nil => decide +kernel
    | cons c s =>
      have hm : encodeConstrainedEncoding (.uni (c :: s)) = (match encodeExtensionMedia (c :: s) with
        | .error .encodeError => if (c :: s).any (127 < ·) then .error .unicodeError else .error .encodeError
        | r => r) := rfl
      simp only [encodeExtensionMedia] at hm
      simp only [acceptText]
      by_cases hc : c < 32 ∨ c = 127
      · rw [if_pos hc] at hm ⊢
        dsimp only at hm
        by_cases hx : ∃ x ∈ c :: s, 127 < x
        · rw [if_pos hx]
          have : ((c :: s).any fun x => decide (127 < x)) = true := by
            rw [List.any_eq_true]
            obtain ⟨x, hx, h⟩ := hx
            exact ⟨x, hx, decide_eq_true h⟩
          rw [if_pos this] at hm
          rw [accept_uni_err hi hm]
          rfl
        · rw [if_neg hx]
          have : ¬ ((c :: s).any fun x => decide (127 < x)) = true := by
            rw [List.any_eq_true]
            rintro ⟨x, h, h'⟩
            exact hx ⟨x, h, of_decide_eq_true h'⟩
          rw [if_neg this] at hm
          rw [accept_uni_err hi hm, if_pos rfl, raised_general _ (indexOf_none.1 hi)]
      · rw [if_neg hc] at hm ⊢
        rw [accept_uni_ok hi hm, raised_ok, raised_media]

/-- the text of a fraction, a date, a pair or a content type can be sent -/
theorem raised_other (x : HVal) : ∃ l, encodeExtensionMedia (strOther x) = .ok l ∧ raised (toOctets (ints l)) = none := by
  obtain ⟨s, h0, h1⟩ := strOther x
  cases s with
  | nil => exact absurd rfl h0
  | cons c s =>
    have := h1 c (by simp)
    refine ⟨textOctets (c :: s), ?_, raised_ints ((octets_text _).2 fun x hx => by have := h1 x hx; omega)⟩
    simp only [encodeExtensionMedia]
    rw [if_neg (by omega)]

theorem raised_accept (v : HVal) : raised (encodeAcceptValue v >>= toOctets) = acceptRefusal v := by
  cases v with
  | tup n x =>
    obtain ⟨l, h, h'⟩ := raised_other (.tup n x)
    simp only [encodeAcceptValue, h]
    exact h'
  | ct m ps =>
    obtain ⟨l, h, h'⟩ := raised_other (.ct m ps)
    simp only [encodeAcceptValue, h]
    exact h'
  | v v =>
    cases v with
    | str s => exact raised_accept_str s
    | uni s => exact raised_accept_uni s
    | int n => exact raised_accept_int n
    | bool b => cases b <;> decide +kernel
    | none => decide +kernel
    | flt a b =>
      obtain ⟨l, h, h'⟩ := raised_other (.v (.flt a b))
      simp only [encodeAcceptValue, encodeConstrainedEncoding, h]
      exact h'
    | dt d =>
      obtain ⟨l, h, h'⟩ := raised_other (.v (.dt d))
      simp only [encodeAcceptValue, encodeConstrainedEncoding, h]
      exact h'

/-- C86: which headers of a part cannot be sent, and with which exception. -/
theorem C86_refused (n : Str) (v : HVal) :
    raised (encodeWspHeader n v >>= toOctets) = partRefusal n v := by
  unfold partRefusal
  have short : ∀ i, indexOf wspNames n = some i → encodeShortInteger i = .ok [(i : Int) + 128] ∧ Octets [(i : Int) + 128] := by
    intro i hi
    have h1 := indexOf_lt hi
    have h2 : wspNames.length = 56 := rfl
    refine ⟨?_, octets_short (by omega)⟩
    rw [encodeShortInteger, if_neg (by omega)]
  have known : ∀ i, indexOf wspNames n = some i →
      raised (encodeWspHeader n v >>= toOctets) = raised (encodeWapValue n v >>= toOctets) := by
    intro i hi
    obtain ⟨h1, h2⟩ := short i hi
    unfold encodeWspHeader
    simp only [names12, bind, Except.bind, hi, h1]
    cases h : encodeWapValue n v with
    | error e => rfl
    | ok l => exact raised_octets h2 l
  by_cases h1 : n = py! "Accept"
  · rw [if_pos h1, known 0 (by rw [h1]; rfl), h1]
    simp only [encodeWapValue, if_true]
    exact raised_accept v
  · rw [if_neg h1]
    by_cases h2 : n = py! "Pragma"
    · rw [if_pos h2, known 31 (by rw [h2]; rfl), h2]
      rfl
    · rw [if_neg h2]
      by_cases h3 : n ∈ wspNames
      · rw [if_pos h3]
        cases hi : indexOf wspNames n with
        | none => exact absurd h3 (indexOf_none.1 hi)
        | some i =>
          rw [known i hi]
          simp only [encodeWapValue, if_neg h1, if_neg h2]
          exact raised_text v
      · rw [if_neg h3]
        unfold encodeWspHeader
        simp only [names12, bind, Except.bind, indexOf_none.2 h3, encodeWapValue, if_neg h1, if_neg h2, encodeTokenText, sep_any]
        by_cases hs : n.any isSeparator = true
        · rw [if_pos hs, if_pos hs]; rfl
        · rw [if_neg hs, if_neg hs]
          simp only []
          rcases text_cases v with ⟨h, h'⟩ | ⟨l, h, h'⟩
          · rw [h, if_pos h']; rfl
          · rw [h]
            have hne : ¬ textRefusal v = some .typeError := by
              rcases h' with ⟨_, h'⟩ | ⟨_, h'⟩ <;> rw [h'] <;> decide
            rw [if_neg hne]
            by_cases hc : ∀ c ∈ n, c < 256
            · rw [if_pos hc]
              refine (raised_octets ((octets_text n).2 hc) _).trans ?_
              rcases h' with ⟨h', h''⟩ | ⟨h', h''⟩
              · rw [h'']; exact raised_ints h'
              · rw [h'']; exact raised_bad h'
            · rw [if_neg hc]
              exact raised_not_octets (fun h => hc ((octets_text n).1 h)) _

example : partRefusal (py! "Accept") (.v (.str [7, 65])) = some .typeError := by decide
example : partRefusal (py! "Accept") (.v (.uni [])) = some .indexError := by decide
example : partRefusal (py! "Accept") (.v (.int 200)) = some .typeError := by decide
example : partRefusal (py! "Accept") (.v (.uni [7, 0xe9])) = some .unicodeError := by decide
example : partRefusal (py! "Age") (.v (.int 3)) = some .typeError := by decide +kernel
example : partRefusal (py! "X-Tag") (.v (.uni [0x20ac])) = some .overflowError := by decide +kernel
example : partRefusal (py! "X Tag") (.v (.str (py! "a"))) = some .encodeError := by decide +kernel
example : partRefusal (py! "X-Tag") (.v (.str (py! "a"))) = none := by decide +kernel
example : partRefusal (py! "X-Tag") (.v (.flt 1 2)) = some .typeError ∧ partRefusal (py! "Accept") (.v (.flt 1 2)) = none := by decide +kernel

/-- C39: integer values above 127 fall back to the long form (with the octets in the wrong order, as `C39_partial` has
it), and up to 127 are the short form. -/
theorem C39_integer_value (n : Nat) (h : n < 2 ^ 63) : encodeIntegerValue (.int n) =
    if n < 128 then .ok (toInts (shortInt n)) else encodeLongInteger n := by
  unfold encodeIntegerValue
  have hp : isPyInt (n : Int) = true := by
    simp only [isPyInt, Bool.and_eq_true, decide_eq_true_eq]
    omega
  simp only [intOf, hp, Bool.not_true, Bool.false_eq_true, if_false, encodeShortInteger]
  by_cases hn : n < 128
  · rw [if_neg (by omega), if_pos hn]
    simp [toInts, shortInt]
    omega
  · rw [if_pos (by omega), if_neg hn]

example : encodeIntegerValue (.int 300) = .ok (toInts [2, 44, 1]) := by decide +kernel

/-- C58: a status that is not one of the five names, or no text at all, is replaced by a text, not by an octet. -/
theorem C58_status_value (v : Val) (h : ∀ s, v = .str s ∨ v = .uni s → s ∉ statusNames) :
    encodeStatusValue (.v v) = .ok [.str (py! "Unrecognised")] := by
  have hn : ∀ x ∈ statusValues, x.2 ∈ statusNames := by decide +kernel
  have key : ∀ s, s ∉ statusNames → ∀ t : List (Nat × Str), (∀ x ∈ t, x.2 ∈ statusNames) → lookupName t s = none := by
    intro s h t
    induction t with
    | nil => intro _; rfl
    | cons x t ih =>
      intro ht
      simp only [lookupName]
      rw [if_neg (fun e : x.2 = s => h (e ▸ ht x (by simp))), ih (fun y hy => ht y (by simp [hy]))]
  cases v with
  | str s => simp only [encodeStatusValue, key s (h s (.inl rfl)) _ hn]
  | uni s => simp only [encodeStatusValue, key s (h s (.inr rfl)) _ hn]
  | _ => rfl

example : py! "Lost" ∉ statusNames := by decide +kernel

/-- C49: an octet that is no message type is read as `<unknown>`, and left to be read as the next header. -/
theorem C49_unknown_octet (b : Nat) (rest : List Nat) (h : b < 0x80 ∨ 0x86 < b) :
    decodeMessageTypeValue ⟨b :: rest, 0⟩ = .ok (py! "<unknown>") ⟨b :: rest, 0⟩ := by
  have hl : lookupNum messageTypes b = none := by
    have hn : ∀ x ∈ messageTypes, 0x80 ≤ x.1 ∧ x.1 ≤ 0x86 := by decide +kernel
    have key : ∀ t : List (Nat × Str), (∀ x ∈ t, 0x80 ≤ x.1 ∧ x.1 ≤ 0x86) → lookupNum t b = none := by
      intro t
      induction t with
      | nil => intro _; rfl
      | cons x t ih =>
        intro ht
        simp only [lookupNum]
        have := ht x (by simp)
        rw [if_neg (by omega), ih (fun y hy => ht y (by simp [hy]))]
    exact key _ hn
  unfold decodeMessageTypeValue
  rw [M.bind_ok (preview_zero b rest)]
  simp only [hl]
  rfl

example := C49_unknown_octet 0x87 [7] (by decide)

/-- C88: the octet of a field name is 128 plus its place in table 8 of WAP-209 (`fieldNames`, from 1); EncodeError for all
other names. -/
theorem C88_field_name (n : Str) : encodeMmsFieldName n =
    match indexOf fieldNames n with
    | some i => .ok [(i : Int) + 129]
    | none => .error .encodeError := by
  cases hi : indexOf fieldNames n with
  | none =>
    have hf : findField mmsFieldNames n = none := by
      rw [findField_none]
      intro h
      exact indexOf_none.1 hi ((show ∀ x ∈ mmsFieldNames.map (fun e => e.2.1), x ∈ fieldNames by decide +kernel) n h)
    unfold encodeMmsFieldName
    rw [hf]
  | some i =>
    have h : ∀ i ∈ List.range 24, ∀ n, fieldNames[i]? = some n → encodeMmsFieldName n = .ok [(i : Int) + 129] := by
      have : ∀ i ∈ List.range 24, (fieldNames[i]?).all (fun n => encodeMmsFieldName n = .ok [(i : Int) + 129]) = true := by
        decide +kernel
      intro i hi n hn
      have := this i hi
      rw [hn] at this
      simpa using this
    have hl := indexOf_lt hi
    exact h i (List.mem_range.2 hl) n (indexOf_get hi)

end Verif.Props

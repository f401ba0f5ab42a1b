import Verif.Props.Assigned
import Verif.Props.ParamRefusal
import Verif.Proofs.Slides
import Verif.Spec.Versions
/-!
# C99: parameters in the four versions of the encoding
-/
set_option autoImplicit false

namespace Verif.Props
open Verif Verif.Mms
open Verif.Spec.Wsp Verif.Spec.Assigned Verif.Spec.Refusal Verif.Spec.Versions

theorem closed_eq (s : Str) : textOctets s = closed s := rfl

theorem lowFirst_eq (n : Nat) : longIntEncLoop n [] = lowFirst n := by
  rw [longIntEncLoop_eq, List.nil_append]
  induction n using Nat.strongRecOn with
  | _ n ih =>
    rw [leDigits, lowFirst]
    by_cases h : n = 0
    · subst h; rfl
    · rw [if_neg h, dif_neg h]
      rw [← ih (n / 256) (by omega)]
      rfl

theorem last_filter {α : Type} (p : α → Bool) (l : List α) : (l.filter p).getLast? = l.reverse.find? p := by
  rw [← List.head?_filter, List.filter_reverse, List.head?_reverse]

theorem entry_eq (v : Nat) (h1 : 1 ≤ v) (h4 : v ≤ 4) (name : Str) : ∃ t, getWellKnownParameters (version1 v) = .ok t ∧
    (findParam t name).map (fun e => (e.1, form e.2)) = entry v name ∧ ∀ e ∈ t, e.1 < 128 := by
  obtain ⟨t, ht, hm⟩ := C62_table38 v h1 h4
  refine ⟨t, ht, ?_, ?_⟩
  · have e1 : entry v name = ((((parameters.filter fun e => e.2.2.2 ≤ v).map fun e => (e.1, e.2.1, e.2.2.1)).filter
        fun e => e.2.1 = name).getLast?).map fun e => (e.1, e.2.2) := by
      unfold entry
      rw [List.filter_map, List.getLast?_map, List.filter_filter, Option.map_map]
      simp only [Function.comp_def, Bool.decide_and]
    rw [e1, ← hm, List.filter_map, List.getLast?_map, last_filter, Option.map_map]
    unfold findParam
    simp only [Function.comp_def]
    cases t.reverse.find? (fun e => decide (e.2.1 = name)) <;> rfl
  · intro e he
    have h2 : (e.1, e.2.1, form e.2.2) ∈ (parameters.filter fun e => e.2.2.2 ≤ v).map fun e => (e.1, e.2.1, e.2.2.1) := by
      rw [← hm]
      exact List.mem_map_of_mem (f := fun e : Nat × Str × PType => (e.1, e.2.1, form e.2.2)) he
    obtain ⟨x, hx, hx'⟩ := List.mem_map.1 h2
    have h3 : ∀ x ∈ parameters, x.1 < 128 := by decide
    have := h3 x (List.mem_filter.1 hx).1
    injection hx' with h5 _
    omega

theorem whole_eq (x : Val) : encodeIntegerValue x = wholeAnswer x := by
  unfold encodeIntegerValue
  cases x with
  | bool b => cases b <;> rfl
  | int n =>
    simp only [intOf, wholeAnswer]
    by_cases hm : machine n
    · have hp : isPyInt n = true := by unfold machine at hm; simpa [isPyInt] using hm
      rw [if_pos hm, hp]
      simp only [Bool.not_true, Bool.false_eq_true, if_false, encodeShortInteger, wholeOctets]
      by_cases hr : 0 ≤ n ∧ n ≤ 127
      · rw [if_pos hr, if_neg (by omega), Int.add_comm]
      · rw [if_neg hr, if_pos (by omega)]
        simp only [encodeLongInteger, hp, Bool.not_true, Bool.false_eq_true, if_false, lowFirst_eq]
        have hl : (lowFirst n.toNat).length ≤ 30 := by
          have h8 : ∀ (k m : Nat), m < 256 ^ k → (lowFirst m).length ≤ k := by
            intro k
            induction k with
            | zero => intro m hm; rw [show m = 0 by omega, lowFirst]; simp
            | succ k ih =>
              intro m hm
              rw [lowFirst]
              split
              · simp
              · have := ih (m / 256) (by rw [Nat.pow_succ] at hm; omega)
                simp only [List.length_cons]
                omega
          have := h8 8 n.toNat (by unfold machine at hm; omega)
          omega
        rw [if_neg (by omega)]
    · have hp : isPyInt n = false := by
        rw [← Bool.not_eq_true]
        intro h
        exact hm (by unfold machine; simpa [isPyInt] using h)
      rw [if_neg hm, hp]
      rfl
  | _ => rfl

theorem short_eq (x : Val) : encodeShortIntegerV x = shortAnswer x := by
  unfold encodeShortIntegerV shortAnswer
  cases x with
  | bool b => cases b <;> rfl
  | int n =>
    simp only [intOf, encodeShortInteger, paddingRefusal]
    by_cases hr : 0 ≤ n ∧ n ≤ 127
    · rw [if_pos hr, if_neg (by omega), Int.add_comm]
    · rw [if_neg hr, if_pos (by omega)]
  | flt a b =>
    simp only [intOf, paddingRefusal]
    by_cases hr : a < 0 ∨ a > 127 * b
    · rw [if_pos hr, if_pos hr]
    · rw [if_neg hr, if_neg hr]
  | _ => rfl

theorem start_eq (s : Str) (odd : PyErr) : (match startRefusal odd s with | some e => .error e | none => .ok (closed s) : Py (List Int)) =
    match encodeExtensionMedia s with
    | .error .encodeError => .error odd
    | r => r := by
  cases s with
  | nil => rfl
  | cons c s =>
    simp only [startRefusal, encodeExtensionMedia]
    by_cases h : c < 32 ∨ c = 127
    · rw [if_pos h, if_pos h]
    · rw [if_neg h, if_neg h]
      rfl

theorem kind_eq (x : Val) (h1 : ∀ a b, x ≠ .flt a b) (h2 : ∀ d, x ≠ .dt d) : encodeConstrainedEncoding x = kindAnswer x := by
  cases x with
  | flt a b => exact absurd rfl (h1 a b)
  | dt d => exact absurd rfl (h2 d)
  | none => rfl
  | bool b => cases b <;> rfl
  | int n =>
    simp only [encodeConstrainedEncoding, kindAnswer, kindRefusal]
    by_cases hm : machine n
    · have hp : isPyInt n = true := by unfold machine at hm; simpa [isPyInt] using hm
      rw [if_pos hp]
      unfold encodeShortInteger
      by_cases hr : 0 ≤ n ∧ n ≤ 127
      · rw [if_neg (by omega), if_pos (.inl hr)]
        simp only
        rw [if_pos hm, Int.add_comm]
      · rw [if_pos (by omega), if_neg (by rintro (h | h); exacts [hr h, h hm])]
    · have hp : ¬ isPyInt n = true := by
        intro h
        exact hm (by unfold machine; simpa [isPyInt] using h)
      rw [if_neg hp, if_pos (.inr hm)]
      simp only
      rw [if_neg hm, ← intStr_decimal]
      obtain ⟨c, t, hc, hc'⟩ := intStr_head n
      rw [hc]
      simp only [encodeExtensionMedia]
      rw [if_neg hc']
      rfl
  | str s =>
    have := start_eq s .encodeError
    simp only [encodeConstrainedEncoding, kindAnswer, kindRefusal]
    cases hs : startRefusal .encodeError s with
    | none => rw [hs] at this; simp only at this ⊢; rw [this]; cases encodeExtensionMedia s with
      | ok l => rfl
      | error e => cases e <;> rfl
    | some e => rw [hs] at this; simp only at this ⊢; rw [this]; cases encodeExtensionMedia s with
      | ok l => rfl
      | error e => cases e <;> rfl
  | uni s =>
    have := start_eq s (if ∃ x ∈ s, 127 < x then .unicodeError else .encodeError)
    simp only [encodeConstrainedEncoding, kindAnswer, kindRefusal]
    have hany : (s.any (127 < ·) = true) ↔ ∃ x ∈ s, 127 < x := by simp
    cases hs : startRefusal (if ∃ x ∈ s, 127 < x then .unicodeError else .encodeError) s <;>
    · rw [hs] at this
      simp only at this ⊢
      rw [this]
      cases encodeExtensionMedia s with
      | ok l => rfl
      | error e =>
        cases e <;> try rfl
        by_cases hx : ∃ x ∈ s, 127 < x
        · simp only [if_pos hx, if_pos (hany.2 hx)]
        · simp only [if_neg hx, if_neg (fun h => hx (hany.1 h))]

theorem value_eq (ty : PType) (x : Val) (hk : ty = .constrainedEncoding → (∀ a b, x ≠ .flt a b) ∧ ∀ d, x ≠ .dt d) :
    encodeTyped ty x = valueAnswer (encodeVersionValue x) (form ty) x := by
  have htext : encodeTextString x = textAnswer x := by cases x <;> rfl
  cases ty with
  | integerValue => exact whole_eq x
  | shortInteger => exact short_eq x
  | constrainedEncoding => exact kind_eq x (hk rfl).1 (hk rfl).2
  | textString => exact htext
  | textValue => exact htext
  | _ => rfl

/-- C99: what `encode_parameter` answers in each of the four versions, for every name and every value: octets or exception.
The value of Level is what `encode_version_value` makes of it (C41).  Type as a number with a fraction or a date
from version 1.2 on is in `C99_kind`. -/
theorem C99_exact (v : Nat) (h1 : 1 ≤ v) (h4 : v ≤ 4) (name : Str) (x : Val)
    (hk : name = py! "Type" → 2 ≤ v → (∀ a b, x ≠ .flt a b) ∧ ∀ d, x ≠ .dt d) :
    encodeParameter name x (version1 v) = paramAnswer (encodeVersionValue x) v name x := by
  obtain ⟨t, ht, he, hlt⟩ := entry_eq v h1 h4 name
  unfold encodeParameter paramAnswer
  rw [ht, ← he]
  simp only [bind, Except.bind]
  cases hf : findParam t name with
  | some e =>
    obtain ⟨k, ty⟩ := e
    have hm := findParam_some hf
    have hk128 := hlt _ hm
    have hty : ty = .constrainedEncoding → (∀ a b, x ≠ .flt a b) ∧ ∀ d, x ≠ .dt d := by
      rintro rfl
      have : ∀ v, 1 ≤ v → v ≤ 4 → ∀ t, getWellKnownParameters (version1 v) = .ok t →
          ∀ e ∈ t, e.2.2 = .constrainedEncoding → e.2.1 = py! "Type" ∧ 2 ≤ v := by
        intro v h1 h4 t ht
        have : v = 1 ∨ v = 2 ∨ v = 3 ∨ v = 4 := by omega
        rcases this with rfl | rfl | rfl | rfl <;> (cases ht; decide +kernel)
      have := this v h1 h4 t ht _ hm rfl
      exact hk this.1 this.2
    simp only [Option.map_some, encodeShortInteger]
    rw [if_neg (by simp only at hk128; omega), value_eq ty x hty]
    cases valueAnswer (encodeVersionValue x) (form ty) x with
    | error e => rfl
    | ok b => simp only [Except.map, List.singleton_append, Int.add_comm]
  | none =>
    simp only [Option.map_none]
    unfold encodeTokenText
    rw [separators_iff]
    by_cases hs : name.any isSeparator = true
    · rw [if_pos hs, if_pos hs]
    · rw [if_neg hs, if_neg hs]
      simp only [freeAnswer, whole_eq]
      have htext : encodeTextString x = textAnswer x := by cases x <;> rfl
      have hw : ∀ e, wholeAnswer x = .error e → e = .encodeError := by
        intro e h
        unfold wholeAnswer at h
        split at h
        · cases h
        · split at h
          · cases h
          · cases h; rfl
        · cases h; rfl
      cases h : wholeAnswer x with
      | ok l => rfl
      | error e =>
        rw [hw e h]
        simp only [htext]
        cases textAnswer x <;> rfl

example := C99_exact 3 (by decide) (by decide) (py! "Secure") .none (by intro h; cases h)

/-- C99 for Type as a number with a fraction or a date, from version 1.2 on: sent as a text, which is Python's and left open.
Nothing is refused. -/
theorem C99_kind (v : Nat) (h2 : 2 ≤ v) (h4 : v ≤ 4) (x : Val) (hx : (∃ a b, x = .flt a b) ∨ ∃ d, x = .dt d) :
    ∃ s : Str, s ≠ [] ∧ (∀ c ∈ s, 32 ≤ c ∧ c < 127) ∧ encodeParameter (py! "Type") x (version1 v) = .ok (0x89 :: closed s) := by
  have key : ∀ y, encodeConstrainedEncoding x = encodeExtensionMedia (strOther y) →
      encodeParameter (py! "Type") x (version1 v) = .ok (0x89 :: closed (strOther y)) := by
    intro y hy
    have he : encodeExtensionMedia (strOther y) = .ok (closed (strOther y)) := by
      obtain ⟨s, h0, h1⟩ := strOther y
      cases s with
      | nil => exact absurd rfl h0
      | cons c s =>
        have := h1 c (by simp)
        simp only [encodeExtensionMedia]
        rw [if_neg (by omega)]
        rfl
    have hp : encodeParameter (py! "Type") x (version1 v) = (encodeConstrainedEncoding x).bind fun b => .ok (0x89 :: b) := by
      have : v = 2 ∨ v = 3 ∨ v = 4 := by omega
      rcases this with rfl | rfl | rfl <;> rfl
    rw [hp, hy, he]
    rfl
  rcases hx with ⟨a, b, rfl⟩ | ⟨d, rfl⟩
  · exact ⟨strOther (.v (.flt a b)), (strOther _).2.1, (strOther _).2.2, key _ rfl⟩
  · exact ⟨strOther (.v (.dt d)), (strOther _).2.1, (strOther _).2.2, key _ rfl⟩

example := C99_kind 3 (by decide) (by decide) (.flt 1 2) (.inl ⟨1, 2, rfl⟩)

/-- C99: other versions are refused. -/
theorem C99_version (version name : Str) (x : Val) (h : ∀ v, 1 ≤ v → v ≤ 4 → version ≠ version1 v) :
    encodeParameter name x version = .error .valueError := by
  unfold encodeParameter
  rw [(C62_invalid version h).1]
  rfl

example := C99_version (py! "1.5") (py! "Name") .none (by
  intro v h1 h4
  rcases (by omega : v = 1 ∨ v = 2 ∨ v = 3 ∨ v = 4) with rfl | rfl | rfl | rfl <;> decide)

/-- the decoder knows the parameters up to version 1.2 only: what is written in a later version is not read back -/
def C99_full : Prop := ∀ (v : Nat) (name s : Str) (l : List Nat), 1 ≤ v → v ≤ 4 → IsToken name → IsToken s →
  encodeParameter name (.str s) (version1 v) = .ok (toInts l) → decodeParameter ⟨l, 0⟩ = .ok (name, .str s) ⟨[], 0⟩

/-- Comment = hi, written in version 1.3 -/
theorem C99_refuted : ¬ C99_full := by
  intro h
  have := h 3 (py! "Comment") (py! "hi") [0x8c, 104, 105, 0] (by decide) (by decide) ⟨by decide, by decide⟩ ⟨by decide, by decide⟩
    (by decide +kernel)
  have h2 : ∃ e s, decodeParameter ⟨[0x8c, 104, 105, 0], 0⟩ = .err e s := ⟨_, _, rfl⟩
  obtain ⟨e, s, h2⟩ := h2
  rw [h2] at this
  cases this

theorem ints_closed (s : Str) : closed s = toInts (s ++ [0]) := by
  simp [closed, toInts]

theorem free_text (s : Str) : freeAnswer (.str s) = .ok (closed s) := rfl

theorem kind_text {s : Str} (h : IsToken s) : kindAnswer (.str s) = .ok (closed s) := by
  obtain ⟨c, t, rfl, h1, h2, _⟩ := token_head h
  simp only [kindAnswer, kindRefusal, startRefusal]
  rw [if_neg (by omega)]

theorem untyped_token {s : Str} (h : IsToken s) (rest : List Nat) :
    decodeUntypedValue ⟨s ++ 0 :: rest, 0⟩ = .ok (.str s) ⟨rest, 0⟩ := by
  have hd := decodeTokenText_token h rest
  obtain ⟨c, s', rfl, h1, h2, _⟩ := token_head h
  rw [List.cons_append] at hd ⊢
  unfold decodeUntypedValue
  rw [orDE_err (M.bind_err (decodeIntegerValue_err (by omega) (by omega) _))]
  unfold decodeTextValue
  rw [M.bind_ok (orDE_ok hd)]
  rfl

theorem token_nul {s : Str} (h : IsToken s) : 0 ∉ s ∧ s.head? ≠ some 127 := by
  constructor
  · intro h0
    exact absurd (h.2 0 h0) (by decide)
  · obtain ⟨c, t, rfl, h1, h2, _⟩ := token_head h
    intro h
    injection h with h
    omega

/-- which entries of the table have which number -/
theorem entry_mem {v k : Nat} {name f : Str} (h : entry v name = some (k, f)) : ∃ w, (k, name, f, w) ∈ parameters ∧ w ≤ v := by
  unfold entry at h
  rw [Option.map_eq_some_iff] at h
  obtain ⟨e, he, h2⟩ := h
  have hm := List.mem_filter.1 (List.mem_of_getLast? he)
  obtain ⟨k', n', f', w⟩ := e
  simp only [decide_eq_true_eq] at hm
  cases h2
  obtain ⟨h1, rfl, h3⟩ := hm
  exact ⟨w, h1, h3⟩

/-- C99, the part that holds: a text without separators, for a name without number, or one whose number (below 12) is that
of a text, or Type from version 1.2 on, comes back from the octets, whatever follows them. -/
theorem C99_partial (v : Nat) (h1 : 1 ≤ v) (h4 : v ≤ 4) (name s : Str) (hn : IsToken name) (hs : IsToken s)
    (he : entry v name = none ∨ ∃ k < 12, entry v name = some (k, py! "Text-string") ∨ entry v name = some (k, py! "Constrained-encoding")) :
    ∃ l, encodeParameter name (.str s) (version1 v) = .ok (toInts l) ∧
      ∀ rest, decodeParameter ⟨l ++ rest, 0⟩ = .ok (name, .str s) ⟨rest, 0⟩ := by
  have hx := C99_exact v h1 h4 name (.str s) (fun _ _ => ⟨fun _ _ h => (by cases h), fun _ h => (by cases h)⟩)
  rcases he with he | ⟨k, hk, he⟩
  · refine ⟨name ++ 0 :: (s ++ [0]), ?_, fun rest => ?_⟩
    · rw [hx]
      simp only [paramAnswer, he]
      have : ¬ name.any isSeparator = true := by
        rw [← separators_iff]
        intro h
        obtain ⟨c, hc, hc'⟩ := List.any_eq_true.1 h
        exact (isTokenChar_sep (hn.2 c (by simpa using hc'))).2.1 hc
      rw [if_neg this, free_text, ints_closed, ints_closed]
      simp [Except.map, toInts]
    · exact param_untyped (v := .str s) (body := s ++ [0]) (rest := rest) hn (by
        rw [List.append_assoc]; exact untyped_token hs rest)
  · refine ⟨(128 + k) :: (s ++ [0]), ?_, fun rest => ?_⟩
    · rw [hx]
      have hT : valueAnswer (encodeVersionValue (.str s)) (py! "Text-string") (.str s) = .ok (closed s) := rfl
      have hC : valueAnswer (encodeVersionValue (.str s)) (py! "Constrained-encoding") (.str s) = .ok (closed s) := kind_text hs
      rcases he with he | he <;>
      · simp only [paramAnswer, he]
        first | rw [hT] | rw [hC]
        rw [ints_closed]
        rfl
    · obtain ⟨hz, h127⟩ := token_nul hs
      have hval : ∀ {ty}, ty = .textString ∨ ty = .constrainedEncoding →
          decodeTyped ty ⟨(s ++ [0]) ++ rest, 0⟩ = .ok (.str s) ⟨rest, 0⟩ := by
        intro ty hty
        rw [List.append_assoc]
        rcases hty with rfl | rfl
        · exact typed_str (ty := .textString) rfl (decodeTextString_plain s hz h127 rest 0)
        · show decodeConstrainedEncoding _ = _
          obtain ⟨c, t, rfl, h1, h2, _⟩ := token_head hs
          exact decodeConstrainedEncoding_text _ hz c ⟨by omega, h2⟩ rfl rest
      have htab : ∀ e ∈ parameters, e.1 < 12 → (e.2.2.1 = py! "Text-string" ∨ e.2.2.1 = py! "Constrained-encoding") →
          lookupNum params12 e.1 = some (e.2.1, .textString) ∨ lookupNum params12 e.1 = some (e.2.1, .constrainedEncoding) := by
        decide +kernel
      have hmem : ∃ f w, (k, name, f, w) ∈ parameters ∧ (f = py! "Text-string" ∨ f = py! "Constrained-encoding") := by
        rcases he with he | he <;> obtain ⟨w, hw, _⟩ := entry_mem he
        exacts [⟨_, w, hw, .inl rfl⟩, ⟨_, w, hw, .inr rfl⟩]
      obtain ⟨f, w, hm, hf⟩ := hmem
      have ht := htab _ hm hk hf
      rcases ht with ht | ht
      · exact param_typed (n := k) (by omega) params12_eq ht (hval (.inl rfl))
      · exact param_typed (n := k) (by omega) params12_eq ht (hval (.inr rfl))

example := C99_partial 2 (by decide) (by decide) (py! "Name") (py! "x") ⟨by decide, by decide⟩ ⟨by decide, by decide⟩
  (.inr ⟨5, by decide, .inl (by decide +kernel)⟩)

/-- C99: a text written under a number the decoder does not know cannot be read when nothing follows it: StopIteration. -/
theorem C99_newer (v : Nat) (h1 : 1 ≤ v) (h4 : v ≤ 4) (name s : Str) (hs : IsToken s) (k : Nat) (hk : 12 ≤ k)
    (he : entry v name = some (k, py! "Text-string") ∨ entry v name = some (k, py! "Text-value")) :
    ∃ l it, encodeParameter name (.str s) (version1 v) = .ok (toInts l) ∧ decodeParameter ⟨l, 0⟩ = .err .stopIteration it := by
  have hx := C99_exact v h1 h4 name (.str s) (fun _ _ => ⟨fun _ _ h => (by cases h), fun _ h => (by cases h)⟩)
  have hk2 : k < 128 ∧ lookupNum params12 k = none := by
    have htab : ∀ e ∈ parameters, 12 ≤ e.1 → e.1 < 128 ∧ lookupNum params12 e.1 = none := by decide +kernel
    rcases he with he | he <;> obtain ⟨w, hw, _⟩ := entry_mem he <;> exact htab _ hw hk
  have henc : encodeParameter name (.str s) (version1 v) = .ok (toInts ((128 + k) :: (s ++ [0]))) := by
    rw [hx]
    have hT : valueAnswer (encodeVersionValue (.str s)) (py! "Text-string") (.str s) = .ok (closed s) := rfl
    have hV : valueAnswer (encodeVersionValue (.str s)) (py! "Text-value") (.str s) = .ok (closed s) := rfl
    rcases he with he | he <;>
    · simp only [paramAnswer, he]
      first | rw [hT] | rw [hV]
      rw [ints_closed]
      rfl
  have hw : decodeTypedParameter ⟨(128 + k) :: (s ++ [0]), 0⟩ = .err .decodeError ⟨s ++ [0], 0⟩ := by
    unfold decodeTypedParameter
    apply M.bind_err
    unfold decodeWellKnownParameter
    rw [M.bind_ok (decodeIntegerValue_short (by omega) (by omega) _), params12_eq, M.bind_ok (M.lift_ok _ _),
      show 128 + k - 128 = k by omega, hk2.2]
    rfl
  have hu : decodeUntypedParameter ⟨s ++ [0], 0⟩ = .err .stopIteration ⟨[], 0⟩ := by
    unfold decodeUntypedParameter
    rw [M.bind_ok (decodeTokenText_token hs [])]
    apply M.bind_err
    rfl
  refine ⟨_, ⟨[], 0⟩, henc, ?_⟩
  unfold decodeParameter
  rw [orDE_err hw, hu]

example : paramAnswer (.ok []) 3 (py! "Secure") .none = .ok [0x90, 0] ∧
    paramAnswer (.ok []) 2 (py! "Secure") .none = .error .typeError ∧
    paramAnswer (.ok []) 2 (py! "Secure") (.int 7) = .ok (closed (py! "Secure") ++ [0x87]) := by decide +kernel
example : paramAnswer (.ok []) 2 (py! "Name") (.str (py! "x")) = .ok [0x85, 120, 0] ∧
    paramAnswer (.ok []) 4 (py! "Name") (.str (py! "x")) = .ok [0x97, 120, 0] ∧
    paramAnswer (.ok []) 1 (py! "Type") (.int 300) = .ok [0x83, 2, 44, 1] ∧
    paramAnswer (.ok []) 2 (py! "Type") (.int 300) = .error .encodeError ∧
    paramAnswer (.ok []) 4 (py! "Read-date") (.int 300) = .error .attributeError := by decide +kernel
example : entry 3 (py! "Foo") = none ∧ entry 1 (py! "Start") = none ∧ entry 3 (py! "Name") = some (5, py! "Text-string") ∧
    entry 4 (py! "Type") = some (9, py! "Constrained-encoding") ∧ entry 3 (py! "Comment") = some (12, py! "Text-string") ∧
    entry 4 (py! "Name") = some (0x17, py! "Text-value") := by decide +kernel
example : ∀ v, 1 ≤ v → v ≤ 4 → py! "2.0" ≠ version1 v := by
  intro v _ _ h
  cases h

end Verif.Props

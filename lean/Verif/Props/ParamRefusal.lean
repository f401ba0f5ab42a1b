import Verif.Props.PartRefusal
import Verif.Props.CtSent
import Verif.Spec.ParamRefusal
/-!
# C97: content types that cannot be sent
-/
set_option autoImplicit false

namespace Verif.Props
open Verif Verif.Mms Verif.Spec.Layout
open Verif.Spec.Wsp Verif.Spec.Mms Verif.Spec.MmsEnc Verif.Spec.Refusal

/-- outcome of encoding a parameter -/
def Outcome (n : Str) (v : Val) : Prop :=
  (∃ e, paramRefusal n v = some e ∧ encodeParameter n v (py! "1.2") = .error e) ∨
  (paramRefusal n v = none ∧ ∃ l, encodeParameter n v (py! "1.2") = .ok l ∧ (Octets l ↔ ¬ Wide n v))

theorem octets_cons {x : Int} {l : List Int} (hx : 0 ≤ x ∧ x < 256) : Octets (x :: l) ↔ Octets l := by
  constructor
  · exact fun h y hy => h y (List.mem_cons_of_mem _ hy)
  · intro h y hy
    rcases List.mem_cons.1 hy with rfl | hy
    · exact hx
    · exact h y hy

theorem octets_append {a b : List Int} : Octets (a ++ b) ↔ Octets a ∧ Octets b := by
  constructor
  · exact fun h => ⟨fun y hy => h y (by simp [hy]), fun y hy => h y (by simp [hy])⟩
  · rintro ⟨h1, h2⟩ y hy
    rcases List.mem_append.1 hy with hy | hy
    · exact h1 y hy
    · exact h2 y hy

theorem not_wide_numbered {n : Str} {v : Val} (hn : n ∈ numbered) (hv : ∀ s, v ≠ .uni s) : ¬ Wide n v := by
  rintro (⟨h, _⟩ | ⟨s, h, _⟩)
  · exact h hn
  · exact hv s h

theorem wide_numbered {n : Str} {s : Str} (hn : n ∈ numbered) : (¬ Wide n (.uni s)) ↔ ∀ c ∈ s, c < 256 := by
  constructor
  · intro h c hc
    by_contra hlt
    exact h (.inr ⟨s, rfl, c, hc, by omega⟩)
  · rintro h (⟨h1, _⟩ | ⟨s', h1, c, hc, hlt⟩)
    · exact h1 hn
    · cases h1
      have := h c hc
      omega

/-- a numbered parameter: all depends on the value -/
theorem outcome_typed {k : Nat} {n : Str} {ty : PType} {v : Val} {r : Option PyErr} (hf : findParam params12 n = some (k, ty))
    (hk : k < 128) (hr : paramRefusal n v = r)
    (h : (∃ e, r = some e ∧ encodeTyped ty v = .error e) ∨
      (r = none ∧ ∃ l, encodeTyped ty v = .ok l ∧ (Octets l ↔ ¬ Wide n v))) : Outcome n v := by
  have key : encodeParameter n v (py! "1.2") = (encodeTyped ty v).bind fun b => .ok ((((k : Nat) : Int) + 128) :: b) := by
    unfold encodeParameter
    rw [params12_eq]
    simp only [bind, Except.bind, hf, encodeShortInteger]
    rw [if_neg (by omega)]
    cases encodeTyped ty v <;> rfl
  rcases h with ⟨e, h1, h2⟩ | ⟨h1, l, h2, h3⟩
  · exact .inl ⟨e, by rw [hr, h1], by rw [key, h2]; rfl⟩
  · refine .inr ⟨by rw [hr, h1], _, by rw [key, h2]; rfl, ?_⟩
    rw [octets_cons (by omega)]
    exact h3

theorem text_typed {n : Str} (hn : n ∈ numbered) (v : Val) (hb : ∀ s, v = .str s → ∀ c ∈ s, c < 256) :
    (∃ e, needsText v = some e ∧ encodeTextString v = .error e) ∨
      (needsText v = none ∧ ∃ l, encodeTextString v = .ok l ∧ (Octets l ↔ ¬ Wide n v)) := by
  cases v
  case str s =>
    refine .inr ⟨rfl, _, rfl, ?_⟩
    rw [octets_text]
    exact ⟨fun _ => not_wide_numbered hn (fun _ h => by cases h), fun _ => hb s rfl⟩
  case uni s =>
    refine .inr ⟨rfl, _, rfl, ?_⟩
    rw [octets_text, wide_numbered hn]
  all_goals exact .inl ⟨_, rfl, rfl⟩

theorem intStr_head (i : Int) : ∃ c t, intStr i = c :: t ∧ ¬ (c < 32 ∨ c = 127) := by
  unfold intStr
  split
  · exact ⟨_, _, rfl, by decide⟩
  · cases h : natStr i.toNat with
    | nil => exact absurd h (natStr_ne_nil _)
    | cons c s =>
      have := natStr_digits i.toNat c (by rw [h]; simp)
      exact ⟨c, s, rfl, by omega⟩

theorem other_typed {n : Str} (hn : n ∈ numbered) (x : HVal) {v : Val} (hu : ∀ s, v ≠ .uni s) :
    ∃ l, encodeExtensionMedia (strOther x) = .ok l ∧ (Octets l ↔ ¬ Wide n v) := by
  obtain ⟨s, h0, h1⟩ := strOther x
  cases s with
  | nil => exact absurd rfl h0
  | cons c s =>
    have := h1 c (by simp)
    refine ⟨textOctets (c :: s), ?_, fun _ => not_wide_numbered hn hu,
      fun _ => (octets_text _).2 fun x hx => by have := h1 x hx; omega⟩
    simp only [encodeExtensionMedia]
    rw [if_neg (by omega)]

theorem media_typed {n : Str} (hn : n ∈ numbered) (v : Val) (hb : ∀ s, v = .str s → ∀ c ∈ s, c < 256) :
    (∃ e, kindRefusal v = some e ∧ encodeConstrainedEncoding v = .error e) ∨
      (kindRefusal v = none ∧ ∃ l, encodeConstrainedEncoding v = .ok l ∧ (Octets l ↔ ¬ Wide n v)) := by
  cases v with
  | flt a b => exact .inr ⟨rfl, other_typed hn (.v (.flt a b)) (fun _ h => by cases h)⟩
  | dt d => exact .inr ⟨rfl, other_typed hn (.v (.dt d)) (fun _ h => by cases h)⟩
  | none =>
    refine .inr ⟨rfl, textOctets (py! "None"), rfl, ?_⟩
    exact ⟨fun _ => not_wide_numbered hn (fun _ h => by cases h), fun _ => (octets_text _).2 (by decide)⟩
  | bool b =>
    refine .inr ⟨rfl, [(if b then 1 else 0) + 128], by cases b <;> rfl, ?_⟩
    refine ⟨fun _ => not_wide_numbered hn (fun _ h => by cases h), fun _ => ?_⟩
    intro x hx
    rw [List.mem_singleton] at hx
    subst hx
    cases b <;> decide
  | int i =>
    by_cases hp : isPyInt i = true
    · have hp' : -2 ^ 63 ≤ i ∧ i < 2 ^ 63 := by simpa [isPyInt] using hp
      by_cases hr : 0 ≤ i ∧ i ≤ 127
      · refine .inr ⟨by simp only [kindRefusal]; rw [if_pos (.inl hr)], [i + 128], ?_, ?_⟩
        · unfold encodeConstrainedEncoding encodeShortInteger
          simp only [hp, if_true]
          rw [if_neg (by omega)]
        · refine ⟨fun _ => not_wide_numbered hn (fun _ h => by cases h), fun _ x hx => ?_⟩
          rw [List.mem_singleton] at hx
          omega
      · refine .inl ⟨.encodeError, by simp only [kindRefusal]; rw [if_neg (by rintro (h | h); exacts [hr h, h hp'])], ?_⟩
        unfold encodeConstrainedEncoding encodeShortInteger
        simp only [hp, if_true]
        rw [if_pos (by omega)]
    · have hp' : ¬ (-2 ^ 63 ≤ i ∧ i < 2 ^ 63) := by simpa [isPyInt] using hp
      obtain ⟨c, t, hc, h1⟩ := intStr_head i
      refine .inr ⟨by simp only [kindRefusal]; rw [if_pos (.inr hp')], textOctets (intStr i), ?_, ?_⟩
      · unfold encodeConstrainedEncoding
        simp only [hp, hc, encodeExtensionMedia]
        rw [if_neg h1]
        rfl
      · exact ⟨fun _ => not_wide_numbered hn (fun _ h => by cases h), fun _ => (octets_text _).2 (intStr_lt i)⟩
  | str s =>
    rcases s with _ | ⟨c, cs⟩
    · exact .inl ⟨_, rfl, rfl⟩
    · by_cases h : c < 32 ∨ c = 127
      · refine .inl ⟨.encodeError, ?_, ?_⟩
        · simp only [kindRefusal, startRefusal]; rw [if_pos h]
        · simp only [encodeConstrainedEncoding, encodeExtensionMedia]; rw [if_pos h]
      · refine .inr ⟨?_, textOctets (c :: cs), ?_, ?_⟩
        · simp only [kindRefusal, startRefusal]; rw [if_neg h]
        · simp only [encodeConstrainedEncoding, encodeExtensionMedia]; rw [if_neg h]
        · exact ⟨fun _ => not_wide_numbered hn (fun _ h => by cases h), fun _ => (octets_text _).2 (hb _ rfl)⟩
  | uni s =>
    rcases s with _ | ⟨c, cs⟩
    · exact .inl ⟨_, rfl, rfl⟩
    · by_cases h : c < 32 ∨ c = 127
      · by_cases ha : ∃ x ∈ c :: cs, 127 < x
        · refine .inl ⟨.unicodeError, ?_, ?_⟩
          · simp only [kindRefusal, startRefusal]; rw [if_pos h, if_pos ha]
          · have : (c :: cs).any (127 < ·) = true := by simpa using ha
            simp only [encodeConstrainedEncoding, encodeExtensionMedia]
            rw [if_pos h]
            simp only [this, if_true]
        · refine .inl ⟨.encodeError, ?_, ?_⟩
          · simp only [kindRefusal, startRefusal]; rw [if_pos h, if_neg ha]
          · have : (c :: cs).any (127 < ·) = false := by
              rw [← Bool.not_eq_true]; simpa using ha
            simp only [encodeConstrainedEncoding, encodeExtensionMedia]
            rw [if_pos h]
            simp only [this]
            rfl
      · refine .inr ⟨?_, textOctets (c :: cs), ?_, ?_⟩
        · simp only [kindRefusal, startRefusal]; rw [if_neg h]
        · simp only [encodeConstrainedEncoding, encodeExtensionMedia]; rw [if_neg h]
        · rw [octets_text, wide_numbered hn]

theorem padding_typed {n : Str} (hn : n ∈ numbered) (v : Val) :
    (∃ e, paddingRefusal v = some e ∧ encodeShortIntegerV v = .error e) ∨
      (paddingRefusal v = none ∧ ∃ l, encodeShortIntegerV v = .ok l ∧ (Octets l ↔ ¬ Wide n v)) := by
  cases v with
  | bool b =>
    refine .inr ⟨rfl, [(if b then 1 else 0) + 128], by cases b <;> rfl, ?_⟩
    refine ⟨fun _ => not_wide_numbered hn (fun _ h => by cases h), fun _ => ?_⟩
    intro x hx
    rw [List.mem_singleton] at hx
    subst hx
    cases b <;> decide
  | int i =>
    by_cases hr : 0 ≤ i ∧ i ≤ 127
    · refine .inr ⟨by simp only [paddingRefusal]; rw [if_pos hr], [i + 128], ?_, ?_⟩
      · simp only [encodeShortIntegerV, intOf, encodeShortInteger]
        rw [if_neg (by omega)]
      · refine ⟨fun _ => not_wide_numbered hn (fun _ h => by cases h), fun _ x hx => ?_⟩
        rw [List.mem_singleton] at hx
        omega
    · refine .inl ⟨.encodeError, by simp only [paddingRefusal]; rw [if_neg hr], ?_⟩
      simp only [encodeShortIntegerV, intOf, encodeShortInteger]
      rw [if_pos (by omega)]
  | flt a b =>
    left
    simp only [paddingRefusal, encodeShortIntegerV, intOf]
    by_cases h : a < 0 ∨ a > 127 * b
    · rw [if_pos h, if_pos h]; exact ⟨_, rfl, rfl⟩
    · rw [if_neg h, if_neg h]; exact ⟨_, rfl, rfl⟩
  | _ => exact .inl ⟨_, rfl, rfl⟩

theorem version_typed {n : Str} (hn : n ∈ numbered) (v : Val) (hb : ∀ s, v = .str s → ∀ c ∈ s, c < 256) :
    (∃ e, (match v with | .str _ => none | _ => some PyErr.typeError) = some e ∧ encodeVersionValue v = .error e) ∨
      ((match v with | .str _ => none | _ => some PyErr.typeError) = none ∧
        ∃ l, encodeVersionValue v = .ok l ∧ (Octets l ↔ ¬ Wide n v)) := by
  cases v with
  | str s =>
    simp only [encodeVersionValue]
    cases h : versionTry s with
    | ok l =>
      exact .inr ⟨trivial, l, rfl, fun _ => not_wide_numbered hn (fun _ h => by cases h), fun _ => versionTry_octets h⟩
    | error e =>
      exact .inr ⟨trivial, _, rfl, fun _ => not_wide_numbered hn (fun _ h => by cases h), fun _ => (octets_text _).2 (hb s rfl)⟩
  | _ => exact .inl ⟨_, rfl, rfl⟩

theorem find_q : findParam params12 (py! "Q") = some (0, .qValue) := by decide +kernel
theorem find_charset : findParam params12 (py! "Charset") = some (1, .wellKnownCharset) := by decide +kernel
theorem find_differences : findParam params12 (py! "Differences") = some (7, .fieldName) := by decide +kernel

theorem separators_iff (n : Str) : (separators.any fun c => n.contains c) = n.any isSeparator := by
  rw [Bool.eq_iff_iff, List.any_eq_true, List.any_eq_true]
  have h1 : ∀ c ∈ separators, isSeparator c = true := by decide
  constructor
  · rintro ⟨c, hc, h⟩
    exact ⟨c, List.contains_iff_mem.1 h, h1 c hc⟩
  · rintro ⟨c, hc, h⟩
    refine ⟨c, ?_, List.contains_iff_mem.2 hc⟩
    simp only [isSeparator, Bool.or_eq_true, decide_eq_true_eq, List.contains_iff_mem] at h
    simp only [separators]
    rcases h with (rfl | rfl) | h
    · decide
    · decide
    · clear hc; revert h; revert c; decide

/-- the value of a parameter without number -/
theorem other_value (v : Val) (hb : ∀ s, v = .str s → ∀ c ∈ s, c < 256) :
    (∃ e, otherRefusal v = some e ∧ (match encodeIntegerValue v with
      | .ok l => Except.ok l
      | .error .encodeError => encodeTextString v
      | .error e => .error e) = (.error e : Py (List Int))) ∨
    (otherRefusal v = none ∧ ∃ l, (match encodeIntegerValue v with
      | .ok l => Except.ok l
      | .error .encodeError => encodeTextString v
      | .error e => .error e) = (.ok l : Py (List Int)) ∧ (Octets l ↔ ¬ ∃ s, v = .uni s ∧ ∃ c ∈ s, 256 ≤ c)) := by
  cases v with
  | int i =>
    by_cases hp : -2 ^ 63 ≤ i ∧ i < 2 ^ 63
    · have hp' : isPyInt i = true := by simpa [isPyInt] using hp
      have : ∃ l, encodeIntegerValue (.int i) = .ok l := by
        simp only [encodeIntegerValue, intOf, hp', Bool.not_true, Bool.false_eq_true, if_false]
        by_cases h : i < 0 ∨ i > 127
        · have hl := raised_size (.v (.int i))
          simp only [sizeRefusal, if_pos hp, encodeMmsValue, plain, encodeLongIntegerV, intOf, bind, Except.bind] at hl
          simp only [encodeShortInteger, if_pos h]
          cases hx : encodeLongInteger i with
          | ok l => exact ⟨l, rfl⟩
          | error e => rw [hx] at hl; cases hl
        · simp only [encodeShortInteger, if_neg h]
          exact ⟨_, rfl⟩
      obtain ⟨l, hl⟩ := this
      refine .inr ⟨by simp only [otherRefusal]; rw [if_pos hp], l, by rw [hl], ?_⟩
      exact ⟨fun _ => (by rintro ⟨s, h, _⟩; cases h), fun _ => encodeIntegerValue_octets hl⟩
    · have hp' : isPyInt i = false := by
        rw [← Bool.not_eq_true]; simpa [isPyInt] using hp
      refine .inl ⟨.typeError, by simp only [otherRefusal]; rw [if_neg hp], ?_⟩
      simp only [encodeIntegerValue, intOf, hp', Bool.not_false, if_true]
      rfl
  | bool b =>
    refine .inr ⟨rfl, [(if b then 1 else 0) + 128], by cases b <;> rfl, fun _ => (by rintro ⟨s, h, _⟩; cases h), fun _ => ?_⟩
    intro x hx
    rw [List.mem_singleton] at hx
    subst hx
    cases b <;> decide
  | str s =>
    refine .inr ⟨rfl, textOctets s, rfl, fun _ => (by rintro ⟨s, h, _⟩; cases h), fun _ => (octets_text _).2 (hb s rfl)⟩
  | uni s =>
    refine .inr ⟨rfl, textOctets s, rfl, ?_⟩
    rw [octets_text]
    constructor
    · rintro h ⟨s', h1, c, hc, hlt⟩
      cases h1
      have := h c hc
      omega
    · intro h c hc
      by_contra hlt
      exact h ⟨s, rfl, c, hc, by omega⟩
  | _ => exact .inl ⟨_, rfl, rfl⟩

theorem paramOutcome (n : Str) (v : Val) (hb : ∀ s, v = .str s → ∀ c ∈ s, c < 256) : Outcome n v := by
  by_cases hn : n ∈ numbered
  · have hn0 := hn
    simp only [numbered, closedParams, textParams, List.mem_append, List.mem_cons, List.not_mem_nil, or_false] at hn
    rcases hn with ((rfl | rfl | rfl) | (rfl | rfl | rfl | rfl)) | (rfl | rfl | rfl)
    · exact outcome_typed find_q (by decide) rfl (.inl ⟨_, rfl, rfl⟩)
    · exact outcome_typed find_charset (by decide) rfl (.inl ⟨_, rfl, rfl⟩)
    · exact outcome_typed find_differences (by decide) rfl (.inl ⟨_, rfl, rfl⟩)
    · exact outcome_typed find_name (by decide) rfl (text_typed hn0 v hb)
    · exact outcome_typed find_filename (by decide) rfl (text_typed hn0 v hb)
    · exact outcome_typed find_start (by decide) rfl (text_typed hn0 v hb)
    · exact outcome_typed find_startInfo (by decide) rfl (text_typed hn0 v hb)
    · exact outcome_typed find_level (by decide) rfl (version_typed hn0 v hb)
    · exact outcome_typed find_type (by decide) rfl (media_typed hn0 v hb)
    · exact outcome_typed find_padding (by decide) rfl (padding_typed hn0 v)
  · have hf : findParam params12 n = none := by
      cases h : findParam params12 n with
      | none => rfl
      | some e =>
        obtain ⟨k, ty⟩ := e
        have hm := findParam_some h
        have : ∀ e ∈ params12, e.2.1 ∈ numbered := by decide +kernel
        exact absurd (this _ hm) hn
    have hr : paramRefusal n v = if n.any isSeparator then some .encodeError else otherRefusal v := by
      simp only [numbered, closedParams, textParams, List.mem_append, List.mem_cons, List.not_mem_nil, or_false, not_or] at hn
      unfold paramRefusal closedParams textParams
      simp only [List.mem_cons, List.not_mem_nil, or_false]
      rw [if_neg (by simp only [not_or]; exact hn.1.1), if_neg (by simp only [not_or]; exact hn.1.2), if_neg hn.2.1, if_neg hn.2.2.2,
        if_neg hn.2.2.1]
    have he : encodeParameter n v (py! "1.2") = (encodeTokenText n).bind fun a => (match encodeIntegerValue v with
        | .ok l => Except.ok l
        | .error .encodeError => encodeTextString v
        | .error e => .error e).bind fun b => .ok (a ++ b) := by
      unfold encodeParameter
      rw [params12_eq]
      simp only [bind, Except.bind, hf]
      cases encodeTokenText n with
      | error e => rfl
      | ok a =>
        cases encodeIntegerValue v with
        | ok l => rfl
        | error e =>
          cases e <;> rfl
    unfold encodeTokenText at he
    rw [separators_iff] at he
    by_cases hs : n.any isSeparator = true
    · rw [if_pos hs] at he hr
      exact .inl ⟨_, hr, he⟩
    · rw [if_neg hs] at he hr
      rcases other_value v hb with ⟨e, h1, h2⟩ | ⟨h1, l, h2, h3⟩
      · exact .inl ⟨e, by rw [hr, h1], by rw [he, h2]; rfl⟩
      · refine .inr ⟨by rw [hr, h1], _, by rw [he, h2]; rfl, ?_⟩
        rw [octets_append, octets_text, h3]
        unfold Wide
        rw [not_or]
        refine and_congr ?_ Iff.rfl
        constructor
        · rintro h ⟨_, c, hc, hlt⟩
          have := h c hc
          omega
        · intro h c hc
          by_contra hlt
          exact h ⟨hn, c, hc, by omega⟩

/-- the parameters in order -/
theorem outcomes (ps : Dict Val) (h : ∀ p ∈ ps, Outcome p.1 p.2) :
    (∃ e, (ps.findSome? fun p => paramRefusal p.1 p.2) = some e ∧ encodeParameters ps = .error e) ∨
    ((ps.findSome? fun p => paramRefusal p.1 p.2) = none ∧
      ∃ l, encodeParameters ps = .ok l ∧ (Octets l.flatten ↔ ¬ ∃ p ∈ ps, Wide p.1 p.2)) := by
  induction ps with
  | nil => exact .inr ⟨rfl, [], rfl, fun _ => (by rintro ⟨p, hp, _⟩; cases hp), fun _ x hx => by cases hx⟩
  | cons p ps ih =>
    obtain ⟨n, v⟩ := p
    rcases h (n, v) (List.mem_cons_self ..) with ⟨e, h1, h2⟩ | ⟨h1, l, h2, h3⟩
    · left
      refine ⟨e, by simp only [List.findSome?_cons, h1], ?_⟩
      simp only [encodeParameters, h2, bind, Except.bind]
    · rcases ih (fun p hp => h p (List.mem_cons_of_mem _ hp)) with ⟨e, g1, g2⟩ | ⟨g1, ls, g2, g3⟩
      · left
        refine ⟨e, by simp only [List.findSome?_cons, h1]; exact g1, ?_⟩
        simp only [encodeParameters, h2, g2, bind, Except.bind]
      · right
        refine ⟨by simp only [List.findSome?_cons, h1]; exact g1, l :: ls, ?_, ?_⟩
        · simp only [encodeParameters, h2, g2, bind, Except.bind]
        · rw [List.flatten_cons, octets_append, h3, g3]
          simp only [List.mem_cons, exists_eq_or_imp, not_or]

theorem flatten_ints_append (l : List Int) (r : List Item) : flattenList (ints l ++ r) = ints l ++ flattenList r := by
  induction l with
  | nil => rfl
  | cons x l ih =>
    simp only [ints, List.map_cons, List.cons_append, flattenList] at ih ⊢
    rw [ih]

theorem mediaType_octets (media : Str) (hm : ∀ c ∈ media, c < 256) :
    ∃ l, encodeMediaType media = .ok [.list l] ∧ Octets l := by
  unfold encodeMediaType
  cases hi : indexOf wellKnownContentTypes media with
  | some i =>
    have h1 := indexOf_lt hi
    have h2 := wellKnownContentTypes_length
    refine ⟨[(i : Int) + 128], ?_, octets_short (by omega)⟩
    simp only [encodeShortInteger]
    rw [if_neg (by omega)]
    rfl
  | none => exact ⟨_, rfl, (octets_text _).2 hm⟩

/-- the octets of a content type, or the exception -/
def ctypeOctets (media : Str) (params : Dict Val) : Py (List Nat) :=
  encodeContentTypeValue media params >>= fun items => toOctets (flattenList items)

theorem general_refusal (media : Str) (params : Dict Val) (hm : ∀ c ∈ media, c < 256)
    (ho : ∀ p ∈ params, Outcome p.1 p.2) (hne : ¬ (media = [] ∧ params = [])) :
    raised (encodeContentGeneralForm media params >>= fun items => toOctets (flattenList items)) = ctypeRefusal media params := by
  obtain ⟨m, hm1, hm2⟩ := mediaType_octets media hm
  unfold ctypeRefusal
  rw [if_neg hne]
  rcases outcomes params ho with ⟨e, h1, h2⟩ | ⟨h1, l, h2, h3⟩
  · rw [h1]
    simp only [encodeContentGeneralForm, hm1, h2, bind, Except.bind]
    rfl
  · rw [h1]
    simp only [encodeContentGeneralForm, hm1, h2, bind, Except.bind]
    rw [List.append_assoc, flatten_ints_append, raised_octets (encodeValueLength_octets _)]
    simp only [List.cons_append, List.nil_append, flattenList, flatten_lists]
    rw [raised_octets hm2]
    by_cases hw : ∃ p ∈ params, Wide p.1 p.2
    · rw [if_pos hw]
      exact raised_bad (fun h => h3.1 h hw)
    · rw [if_neg hw]
      exact raised_ints (h3.2 hw)

/-- C97: whether a content type can be sent, and the exception if not. -/
theorem C97_exact (media : Str) (params : Dict Val) (hm : ∀ c ∈ media, c < 256)
    (hb : ∀ p ∈ params, ∀ s, p.2 = .str s → ∀ c ∈ s, c < 256) :
    raised (ctypeOctets media params) = ctypeRefusal media params := by
  have ho : ∀ p ∈ params, Outcome p.1 p.2 := fun p hp => paramOutcome p.1 p.2 (hb p hp)
  unfold ctypeOctets encodeContentTypeValue
  by_cases hp : params = []
  · subst hp
    rw [if_neg (by simp)]
    cases hi : indexOf wellKnownContentTypes media with
    | some i =>
      obtain ⟨h1, h2, h3⟩ := raised_known hi
      rw [media_known hi h1]
      have hne : media ≠ [] := by
        rintro rfl
        have : indexOf wellKnownContentTypes [] = none := by decide +kernel
        rw [this] at hi
        cases hi
      unfold ctypeRefusal
      rw [if_neg (fun h => hne h.1)]
      simp only [List.findSome?_nil, List.not_mem_nil, false_and, exists_false, if_false, bind, Except.bind]
      rw [flatten_ints]
      exact raised_ints h2
    | none =>
      rw [media_unknown hi]
      rcases media with _ | ⟨c, cs⟩
      · unfold ctypeRefusal
        rw [if_pos ⟨rfl, rfl⟩]
        rfl
      · by_cases h : c < 32 ∨ c = 127
        · have := general_refusal (c :: cs) [] hm (fun p hp => by cases hp) (fun h => by cases h.1)
          simp only [encodeExtensionMedia, if_pos h]
          exact this
        · unfold ctypeRefusal
          rw [if_neg (fun h => by cases h.1)]
          simp only [encodeExtensionMedia, if_neg h, List.findSome?_nil, List.not_mem_nil, false_and, exists_false, if_false,
            bind, Except.bind]
          rw [flatten_ints]
          exact raised_ints ((octets_text _).2 hm)
  · rw [if_pos (by simpa using hp)]
    exact general_refusal media params hm ho (fun h => hp h.2)

/-- the exception of an operation on a message, if it raises one -/
def failure {σ α : Type} : Res σ α → Option PyErr
  | .ok _ _ => none
  | .err e _ => some e

theorem ctHeader_octets {d : Dict HVal} {media : Str} {params : Dict Val} (h : d.get CT = some (.ct media params)) :
    encodeCtHeader d = (ctypeOctets media params).bind fun b => .ok (0x84 :: b) := by
  unfold encodeCtHeader ctypeOctets
  have hx : d.index (py! "Content-Type") = .ok (.ct media params) := Dict.index_some h
  have hn : encodeMmsFieldName (py! "Content-Type") = .ok (toInts [0x84]) := rfl
  simp only [hx, hn, encodeCtPair, bind, Except.bind, toOctets_ints (l := [0x84]) (by simp)]
  cases encodeContentTypeValue media params with
  | error e => rfl
  | ok items =>
    simp only []
    cases toOctets (flattenList items) <;> rfl

theorem emh_err {ord : Dict HVal → Dict HVal} {rnd : Nat} {m : Msg} {P : Dict HVal}
    (hP : prepareHeaders rnd m.headers = P) {vt vi vv : HVal} {a b c r : List Nat} {e : PyErr}
    (h1 : P.get MT = some vt) (h2 : P.get TI = some vi) (h3 : P.get MV = some vv)
    (ha : headerOctets MT vt = .ok a) (hb : headerOctets TI vi = .ok b) (hc : headerOctets MV vv = .ok c)
    (hr : encodeRest (ord (restHeaders P)) = .ok r) (ht : encodeCtHeader (restHeaders P) = .error e) :
    encodeMessageHeader ord rnd m = .err e { m with headers := restHeaders P } := by
  have e2 : (P.del MT).get TI = some vi := by rw [Dict.get_del_ne (by decide)]; exact h2
  have e3 : ((P.del MT).del TI).get MV = some vv := by
    rw [Dict.get_del_ne (by decide), Dict.get_del_ne (by decide)]; exact h3
  unfold encodeMessageHeader encodeAndDelete
  subst hP
  have i1 := Dict.index_some h1
  have i2 := Dict.index_some e2
  have i3 := Dict.index_some e3
  unfold MT TI MV at *
  simp only [bind, M.bind, M.modify, M.get, M.lift, pure, M.pure, i1, ha, i2, hb, i3, hc]
  unfold restHeaders at hr ht ⊢
  simp only [MT, TI, MV] at hr ht ⊢
  simp only [hr, ht]

/-- a content type that is refused is refused in every message, after the other headers -/
theorem message_ct_error (env : Env) (ord : Dict HVal → Dict HVal) (ho : ∀ d, (ord d).Perm d) (rnd : Nat) (m m' : Msg)
    (hk : m.headers.Ok) (o : List Nat) (h : encode env ord rnd m = .ok o m') (v : HVal) (e : PyErr)
    (hc : ∀ d : Dict HVal, d.get CT = some v → encodeCtHeader d = .error e) :
    failure (encode env ord rnd { m with headers := m.headers.set CT v }) = some e := by
  obtain ⟨hd, b, h1, h2, rfl⟩ := encode_inv h
  obtain ⟨vt, vi, vv, a, i, cc, r, t, g1, g2, g3, ha, hi, hcc, hr, ht, rfl, rfl⟩ := emh_inv h1
  have hk2 : (m.headers.set CT v).Ok := hk.set _ _
  have hget : ∀ n, n ≠ CT → (m.headers.set CT v).get n = m.headers.get n := fun n hn => by
    rw [dict_get_set, if_neg (fun e => hn e.symm)]
  have hP : ∀ n, n ≠ CT → (prepareHeaders rnd (m.headers.set CT v)).get n = (prepareHeaders rnd m.headers).get n := by
    intro n hn
    by_cases hx : n = XT ∨ n = XI ∨ n = XV
    · rw [prepare_gone hk2 rnd hx, prepare_gone hk rnd hx]
    · simp only [not_or] at hx
      rw [prepare_get rnd _ n hx, prepare_get rnd _ n hx, hget n hn, hget XI (by decide), hget TI (by decide),
        hget XV (by decide), hget MV (by decide), sentType_congr hget]
  have hPc : (prepareHeaders rnd (m.headers.set CT v)).get CT = some v := by
    rw [prepare_get _ _ _ (by decide), if_neg (by decide), if_neg (by decide), if_neg (by decide), dict_get_set, if_pos rfl]
  have hperm : (List.filter (fun e => e.1 ≠ CT) (ord (restHeaders (prepareHeaders rnd (m.headers.set CT v))))).Perm
      (List.filter (fun e => e.1 ≠ CT) (ord (restHeaders (prepareHeaders rnd m.headers)))) := by
    refine (((ho _).filter _).trans (dict_perm (filter_ok (rest_ok (prepare_ok hk2 rnd)) _)
      (filter_ok (rest_ok (prepare_ok hk rnd)) _) fun n => ?_)).trans ((ho _).filter _).symm
    rw [filter_get, filter_get]
    split
    · rfl
    · rename_i hn
      rw [rest_get (prepare_ok hk2 rnd), rest_get (prepare_ok hk rnd), hP n hn]
  obtain ⟨hs, e1, e2⟩ := encodeRest_each.1 hr
  obtain ⟨hs2, f1, f2⟩ := List.perm_comp_forall₂ hperm e1
  have hr2 := encodeRest_each.2 ⟨hs2, f1, rfl⟩
  have ht2 : encodeCtHeader (restHeaders (prepareHeaders rnd (m.headers.set CT v))) = .error e := by
    exact hc _ (by rw [rest_get' (by decide), hPc])
  have hh := emh_err (ord := ord) (m := { m with headers := m.headers.set CT v }) (rnd := rnd) rfl
    (by rw [hP _ (by decide)]; exact g1) (by rw [hP _ (by decide)]; exact g2) (by rw [hP _ (by decide)]; exact g3) ha hi hcc hr2 ht2
  unfold encode
  rw [M.bind_apply, hh]
  rfl

/-- C97 for messages: if a message can be sent, then with another content type it can be sent unless the content type is
refused, and then the exception is that of the content type. -/
theorem C97_message (env : Env) (ord : Dict HVal → Dict HVal) (ho : ∀ d, (ord d).Perm d) (rnd : Nat) (m m' : Msg)
    (hk : m.headers.Ok) (o : List Nat) (h : encode env ord rnd m = .ok o m') (media : Str) (params : Dict Val)
    (hm : ∀ c ∈ media, c < 256)
    (hb : ∀ p ∈ params, ∀ s, p.2 = .str s → ∀ c ∈ s, c < 256) :
    failure (encode env ord rnd { m with headers := m.headers.set CT (.ct media params) }) = ctypeRefusal media params := by
  rw [← C97_exact media params hm hb]
  cases hc : ctypeOctets media params with
  | ok c =>
    obtain ⟨items, h1, h2⟩ := bind_ok_invE hc
    obtain ⟨o2, m2, h3, -⟩ := C43_message env ord ho rnd m m' hk o h media params c ⟨items, h1, h2⟩
    rw [h3]
    rfl
  | error e =>
    exact message_ct_error env ord ho rnd m m' hk o h _ e fun d hd => by
      rw [ctHeader_octets hd, hc]
      rfl

theorem ctHeader_refused {d : Dict HVal} {v : HVal} {e : PyErr} (h : d.get CT = some v) (hv : encodeCtPair v = .error e) :
    encodeCtHeader d = .error e := by
  unfold encodeCtHeader
  rw [show d.index (py! "Content-Type") = .ok v from Dict.index_some h]
  show (encodeCtPair v >>= _) = _
  rw [hv]
  rfl

open Classical in
/-- C97 for values that are no pairs, such as the name of the content type alone: ValueError for texts, but TypeError for
texts of two characters and for everything else -/
theorem C97_shape (env : Env) (ord : Dict HVal → Dict HVal) (ho : ∀ d, (ord d).Perm d) (rnd : Nat) (m m' : Msg)
    (hk : m.headers.Ok) (o : List Nat) (h : encode env ord rnd m = .ok o m') (x : Val) :
    failure (encode env ord rnd { m with headers := m.headers.set CT (.v x) }) =
      some (if ∃ s : Str, (x = .str s ∨ x = .uni s) ∧ s.length ≠ 2 then .valueError else .typeError) := by
  refine message_ct_error env ord ho rnd m m' hk o h _ _ fun d hd => ctHeader_refused hd ?_
  split
  · rename_i hx
    obtain ⟨s, rfl | rfl, hl⟩ := hx
    · exact if_neg hl
    · exact if_neg hl
  · rename_i hx
    cases x with
    | str s => exact if_pos (by by_contra hl; exact hx ⟨s, .inl rfl, hl⟩)
    | uni s => exact if_pos (by by_contra hl; exact hx ⟨s, .inr rfl, hl⟩)
    | _ => rfl

/-- C97 for pairs of a name and something other than a dictionary or an empty text: TypeError -/
theorem C97_pair (env : Env) (ord : Dict HVal → Dict HVal) (ho : ∀ d, (ord d).Perm d) (rnd : Nat) (m m' : Msg)
    (hk : m.headers.Ok) (o : List Nat) (h : encode env ord rnd m = .ok o m') (n : Str) (x : Val)
    (hx : x ≠ .str [] ∧ x ≠ .uni []) :
    failure (encode env ord rnd { m with headers := m.headers.set CT (.tup n x) }) = some .typeError := by
  refine message_ct_error env ord ho rnd m m' hk o h _ _ fun d hd => ctHeader_refused hd ?_
  cases x with
  | str s => cases s with
    | nil => exact absurd rfl hx.1
    | cons a s => rfl
  | uni s => cases s with
    | nil => exact absurd rfl hx.2
    | cons a s => rfl
  | _ => rfl

/-- EncodeError is the exception of the encoder: nothing else would be raised -/
def EncodeErrorOnly : Prop := ∀ (media : Str) (params : Dict Val) (e : PyErr), raised (ctypeOctets media params) = some e → e = .encodeError

theorem C97_other_exceptions : ¬ EncodeErrorOnly := by
  intro h
  have := h (py! "text/plain") [(py! "Charset", .str (py! "utf-8"))] .attributeError (by decide +kernel)
  cases this

/-- media types without parameters can be sent unless empty -/
theorem C97_plain (media : Str) (hm : ∀ c ∈ media, c < 256) : (∃ o, ctypeOctets media [] = .ok o) ↔ media ≠ [] := by
  have h := C97_exact media [] hm (fun p hp => by cases hp)
  have hr : ctypeRefusal media [] = if media = [] then some .indexError else none := by
    unfold ctypeRefusal
    simp
  rw [hr] at h
  cases hc : ctypeOctets media [] with
  | ok o =>
    rw [hc] at h
    refine ⟨fun _ hne => ?_, fun _ => ⟨o, rfl⟩⟩
    rw [if_pos hne] at h
    cases h
  | error e =>
    rw [hc] at h
    refine ⟨fun ⟨o, h⟩ => (by cases h), fun hne => ?_⟩
    rw [if_neg hne] at h
    cases h

/-! examples: cases meeting the hypotheses -/

example : (∃ o m', encode sampleEnv id 1 Msg.new = .ok o m') ∧ Msg.new.headers.Ok := by
  refine ⟨?_, by unfold Dict.Ok; decide⟩
  have h : (match encode sampleEnv id 1 Msg.new with | .ok _ _ => true | .err _ _ => false) = true := by decide +kernel
  split at h
  · exact ⟨_, _, by assumption⟩
  · cases h

example : ∀ p ∈ ([(py! "Name", .str (py! "a.jpg")), (py! "Padding", .int 200)] : Dict Val),
    ∀ s, p.2 = .str s → ∀ c ∈ s, c < 256 := by
  intro p hp
  simp only [List.mem_cons, List.not_mem_nil, or_false] at hp
  rcases hp with rfl | rfl
  · exact fun s h => (by cases h; decide)
  · exact fun s h => (by cases h)

example : raised (ctypeOctets (py! "image/jpeg") [(py! "Name", .str (py! "a.jpg")), (py! "Padding", .int 200)]) = some .encodeError := by
  decide +kernel

example : raised (ctypeOctets (py! "image/jpeg") [(py! "Name", .uni [0x20ac]), (py! "Padding", .int 2)]) = some .overflowError := by
  decide +kernel

example : raised (ctypeOctets (py! "image/jpeg") [(py! "Type", .str []), (py! "Charset", .int 2)]) = some .indexError := by
  decide +kernel

example : raised (ctypeOctets (py! "image/jpeg") [(py! "colour", .bool true), (py! "Level", .str (py! "1.3"))]) = none := by
  decide +kernel

end Verif.Props

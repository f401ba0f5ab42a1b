import Verif.Props.Submit
import Verif.Proofs.Fewest
import Verif.Proofs.Bin8
import Verif.Spec.SubmitRefusal
/-!
# C89: the short messages that cannot be sent
-/
set_option autoImplicit false

namespace Verif.Props
open Verif Verif.Submit
open Verif.Spec Verif.Spec.Sms Verif.Spec.Time Verif.Spec.Submit Verif.Spec.SubmitRefusal

theorem packParts_err_first {c : Coding} {uni : Bool} {ref total : Nat} {e : PyErr} : ∀ (msgs : List Str) (k : Nat),
    (∀ i m, i ≤ k + msgs.length → m ∈ msgs → (∃ b, packPart c uni ref total i m = .ok b) ∨
      packPart c uni ref total i m = .error e) →
    (∃ m ∈ msgs, ∀ i ≤ k + msgs.length, packPart c uni ref total i m = .error e) →
    packParts c uni ref total k msgs = .error e
  | [], _, _, h => by simp at h
  | m :: ms, k, h1, h2 => by
    simp only [packParts, bind, Except.bind]
    rcases h1 (k + 1) m (by simp) (by simp) with ⟨b, hb⟩ | hb
    · rw [hb]
      have h2' : ∃ m ∈ ms, ∀ i ≤ k + 1 + ms.length, packPart c uni ref total i m = .error e := by
        obtain ⟨m', hm, h⟩ := h2
        rcases List.mem_cons.1 hm with rfl | hm
        · rw [h (k + 1) (by simp)] at hb; cases hb
        · exact ⟨m', hm, fun i hi => h i (by simp; omega)⟩
      rw [packParts_err_first ms (k + 1) (fun i m hi hm => h1 i m (by simp; omega) (by simp [hm])) h2']
    · rw [hb]

theorem concatUni_bytes {u m : Str} : concatUni u ⟨false, m⟩ = if ∃ c ∈ m, 128 ≤ c then .error .unicodeError else .ok (u ++ m) := by
  simp only [concatUni, Bool.not_false, Bool.true_and, List.any_eq_true, decide_eq_true_eq]

theorem spells_two {t g : List Nat} (h : Gsm.Spells t g) : g.length ≤ 2 * t.length := by
  obtain ⟨p, hp, rfl⟩ := h
  induction hp with
  | nil => simp
  | cons hc _ ih =>
    rw [List.flatten_cons, List.length_append, List.length_cons]
    rcases hc with ⟨i, _, _, rfl⟩ | ⟨g, _, rfl⟩
    · simp only [List.length_singleton]; omega
    · simp only [List.length_cons, List.length_nil]; omega

/-- the pieces of a text of at most 254 * 66 characters -/
theorem chunks_few {size n : Nat} (hs : 2 ≤ size) {rest : Str} {parts : List Str} (h : Chunks size rest parts)
    (hl : rest.length ≤ n * (size - 1)) : parts.length ≤ n := by
  by_cases h0 : parts = []
  · rw [h0]; exact Nat.zero_le _
  · have := (chunks_count_le hs h).2 h0
    by_contra hc
    have : n * (size - 1) ≤ (parts.length - 1) * (size - 1) := Nat.mul_le_mul_right _ (by omega)
    omega

/-- the greedy division is the shortest -/
theorem splits_iff {size n : Nat} (hs : 2 ≤ size) {u : Str} {parts : List Str} (h : Chunks size u parts) :
    Splits size n u ↔ parts.length ≤ n := by
  constructor
  · rintro ⟨ps, h1, h2, h3⟩
    exact Nat.le_trans (chunks_least hs ps [] u parts h (by rw [h1]; rfl) h3) h2
  · exact fun hl => ⟨parts, chunks_flatten h, hl, fun p hp => ⟨(chunks_bound hs h p hp).2, chunks_noFullEsc hs h p hp⟩⟩

/-- pieces hold no more than their size -/
theorem splits_length {size n : Nat} {u : Str} (h : Splits size n u) : u.length ≤ n * size := by
  obtain ⟨ps, rfl, h2, h3⟩ := h
  refine Nat.le_trans ?_ (Nat.mul_le_mul_right size h2)
  clear h2
  induction ps with
  | nil => simp
  | cons p ps ih =>
    have h4 := ih fun q hq => h3 q (List.mem_cons_of_mem _ hq)
    have h5 := (h3 p List.mem_cons_self).1
    rw [List.flatten_cons, List.length_append, List.length_cons, Nat.succ_mul]
    omega

/-- two full pieces without their last symbols are always enough for a single message -/
theorem splits_short {size n : Nat} (hs : 2 ≤ size) {u : Str} (hn : 2 ≤ n) (hl : u.length ≤ 2 * (size - 1)) : Splits size n u := by
  obtain ⟨parts, _, hp⟩ := splitLoop_ok u size hs
  exact (splits_iff hs hp).2 (by have := chunks_few (n := 2) hs hp (by omega); omega)

theorem bodyM_gsm_exact {t : PyStr} (s : State) :
    ((∃ l s', bodyM 0 t s = .ok l s') ∧ ∀ e, ¬ TextRefused 0 t e) ∨
    ∃ e s', bodyM 0 t s = .err e s' ∧ ∀ e', TextRefused 0 t e' ↔ e' = e := by
  by_cases hg : GsmText t
  · obtain ⟨g, he⟩ := gsmText_encode hg
    have hsp := (encode_iff.1 he).1
    obtain ⟨ts, ⟨_, h1⟩, h2, h3⟩ := bodyM_gsm s he
    have hsplit : Splits 153 255 g ↔ ts.length ≤ 255 := by
      rcases h1 with ⟨hl, rfl⟩ | ⟨_, parts, hp, hf⟩
      · exact ⟨fun _ => by simp, fun _ => splits_short (by omega) (by omega) (by omega)⟩
      · rw [splits_iff (by omega) hp, hf.length_eq]
    by_cases hl : ts.length ≤ 255
    · left
      obtain ⟨b, hb, _⟩ := h2 hl
      refine ⟨⟨_, _, hb⟩, fun e h => ?_⟩
      cases h with
      | gsm => contradiction
      | gsmLong _ g' _ hg' hn => exact hn (spells_unique hsp hg' ▸ hsplit.2 hl)
    · right
      refine ⟨.valueError, _, h3 (by omega), fun e' => ⟨fun h => ?_, fun h => h ▸ .gsmLong t g hg hsp (fun h => hl (hsplit.1 h))⟩⟩
      cases h with
      | gsm => contradiction
      | gsmLong => rfl
  · right
    have hi : Gsm.isGsmText t = false := by
      cases h : Gsm.isGsmText t with
      | false => rfl
      | true => exact absurd ((gsmText_iff t).1 h) hg
    have he : Gsm.encode t = .error .unicodeError := by
      unfold Gsm.isGsmText at hi
      cases h : Gsm.encode t with
      | ok g => rw [h] at hi; cases hi
      | error e => rw [Gsm.encodeLoop_error t.uni h]
    refine ⟨.unicodeError, s, ?_, fun e' => ⟨fun h => ?_, fun h => h ▸ .gsm t hg⟩⟩
    · unfold bodyM
      rw [if_pos rfl, he, M.bind_err (M.lift_error _ _)]
    · cases h with
      | gsm => rfl
      | gsmLong => contradiction

theorem packUcs2_bad {t : PyStr} (h : ∃ c ∈ t.s, 65536 ≤ c) : packUcs2 t none = .error .valueError := by
  simp only [packUcs2, bind, Except.bind, ucs2Bytes_err h]

/-- beyond 255 parts the first part is refused -/
theorem packPart_bytes_long {ref total i : Nat} {m : Str} (h1 : ref < 256) (h2 : 256 ≤ total) (hi : i < 65536) :
    packPart .ucs2 false ref total i m =
      if total ≤ 4351 ∧ ∃ c ∈ m, 128 ≤ c then .error .unicodeError else .error .valueError := by
  by_cases hm : ∃ c ∈ m, 128 ≤ c
  · by_cases ht : total ≤ 4351
    · rw [if_pos ⟨ht, hm⟩]
      have hu : udh16 ref total i = .ok [0x500, 0x300 + ref, (total <<< 8) ||| i] := by
        unfold udh16
        rw [or_shift8 h1]
        simp only [pyUnichr, bind, Except.bind]
        rw [if_pos (by decide), if_pos (by omega), if_pos ((or_bound hi).2 ht)]
        simp
      simp only [packPart, hu, packUcs2, bind, Except.bind, concatUni_bytes, if_pos hm]
    · rw [if_neg (fun h => ht h.1)]
      have hu : udh16 ref total i = .error .valueError := by
        unfold udh16
        rw [or_shift8 h1]
        simp only [pyUnichr, bind, Except.bind]
        rw [if_pos (by decide), if_pos (by omega), if_neg (fun h => ht ((or_bound hi).1 h))]
      simp only [packPart, hu, bind, Except.bind]
  · rw [if_neg (fun h => hm h.2)]
    simp only [not_exists, not_and, not_le] at hm
    exact packPart_ucs2_err h1 h2 (.inr hm)

theorem bodyM_ucs2_split {t : PyStr} (s : State) (hl : 70 < t.s.length) : bodyM 8 t s = splitSmsMessage .ucs2 t s := by
  unfold bodyM
  rw [if_neg (by decide), if_neg (by decide), if_pos rfl, if_neg (by exact Nat.not_le.2 hl)]

/-- the first part has the same characters from 128 on as the first 67 characters -/
theorem first_part_high (u : Str) : (∃ c ∈ u.take (partLen 67 u), 128 ≤ c) ↔ ∃ c ∈ u.take 67, 128 ≤ c := by
  unfold partLen
  split
  · rename_i h
    have h1 : u.take 67 = u.take 66 ∨ ∃ x, u.take 67 = u.take 66 ++ [x] := by
      by_cases hl : 66 < u.length
      · exact .inr ⟨u[66], by rw [List.take_add_one]; simp [hl]⟩
      · exact .inl (by rw [List.take_of_length_le (by omega), List.take_of_length_le (by omega)])
    rcases h1 with h1 | ⟨x, h1⟩
    · rw [h1]
    · rw [h1, List.getLast?_append, List.getLast?_singleton] at h
      have hx : x = 27 := by simpa using h
      rw [h1, hx]
      constructor
      · rintro ⟨c, hc, hc'⟩
        exact ⟨c, List.mem_append_left _ hc, hc'⟩
      · rintro ⟨c, hc, hc'⟩
        rcases List.mem_append.1 hc with hc | hc
        · exact ⟨c, hc, hc'⟩
        · rw [List.mem_singleton.1 hc] at hc'
          omega
  · exact Iff.rfl

theorem bodyM_ucs2_exact {t : PyStr} (s : State) (hb : t.uni = false → ∀ c ∈ t.s, c < 256) :
    ((∃ l s', bodyM 8 t s = .ok l s') ∧ ∀ e, ¬ TextRefused 8 t e) ∨
    ∃ e s', bodyM 8 t s = .err e s' ∧ ∀ e', TextRefused 8 t e' ↔ e' = e := by
  obtain ⟨parts, hp1, hp2⟩ := splitLoop_ok t.s 67 (by omega)
  have hsp : ∀ n, Splits 67 n t.s ↔ parts.length ≤ n := fun n => splits_iff (by omega) hp2
  have hlong : 255 < parts.length → 70 < t.s.length := by
    intro h
    by_contra hl
    have := (hsp 255).1 (splits_short (by omega) (by omega) (by omega))
    omega
  have uniFalse : t.uni = true → t.uni ≠ false := fun h => by rw [h]; decide
  by_cases h1 : t.uni = true ∧ ∃ c ∈ t.s, 65536 ≤ c
  · right
    obtain ⟨s', hs⟩ := bodyM_ucs2_big s h1.1 h1.2
    refine ⟨_, s', hs, fun e' => ⟨fun h => ?_, fun h => h ▸ .ucs2Char t h1.1 h1.2⟩⟩
    cases h with
    | ucs2Char => rfl
    | ucs2Long => rfl
    | ucs2Bytes _ hu => exact absurd hu (uniFalse h1.1)
    | ucs2BytesLong _ hu => exact absurd hu (uniFalse h1.1)
    | ucs2BytesTooLong _ hu => rfl
  · by_cases h2 : t.uni = false ∧ 70 < t.s.length ∧ ∃ c ∈ t.s, 128 ≤ c
    · right
      obtain ⟨hu, hlong', c, hc, hc'⟩ := h2
      have nuni : t.uni ≠ true := by rw [hu]; decide
      by_cases hfew : parts.length ≤ 255
      · refine ⟨.unicodeError, afterSplit s, ?_, fun e' => ⟨fun h => ?_, fun h => h ▸
          .ucs2Bytes t hu hlong' ((hsp 255).2 hfew) ⟨c, hc, hc'⟩⟩⟩
        · rw [bodyM_ucs2_split s hlong', splitSmsMessage_eq .ucs2 t _ hp1, hu]
          have hpart : ∀ i m, i ≤ 0 + parts.length → m ∈ parts →
              packPart .ucs2 false (crOf s) parts.length i m = if ∃ c ∈ m, 128 ≤ c then .error .unicodeError
                else .ok (encodeStr ((2 * m.length + 6) :: (concatUdh (crOf s) parts.length i ++ ucs2Octets m))) := by
            intro i m hi hm
            have hb := chunks_bound (by omega) hp2 m hm
            split
            · rename_i hx
              simp only [packPart, packUcs2, udh16_ok (crOf_lt s) (show parts.length < 256 by omega) (show i < 256 by omega),
                bind, Except.bind, concatUni_bytes, if_pos hx]
            · rename_i hx
              simp only [not_exists, not_and, not_le] at hx
              exact packPart_ucs2 (crOf_lt s) (by omega) (by omega) (fun x h => by have := hx x h; omega) (.inr hx) hb.2
          rw [packParts_err_first (e := .unicodeError) parts 0 (fun i m hi hm => by
            rw [hpart i m hi hm]
            split
            · exact .inr rfl
            · exact .inl ⟨_, rfl⟩) (by
            rw [← chunks_flatten hp2, List.mem_flatten] at hc
            obtain ⟨p, hp, hcp⟩ := hc
            exact ⟨p, hp, fun i hi => by rw [hpart i p hi hp, if_pos ⟨c, hcp, hc'⟩]⟩), M.lift_error]
        · cases h with
          | ucs2Char _ h => exact absurd h nuni
          | ucs2Long _ h => exact absurd h nuni
          | ucs2Bytes => rfl
          | ucs2BytesLong => rfl
          | ucs2BytesTooLong _ _ hl => exact absurd ((hsp 255).2 hfew) hl
      · have hns : ¬ Splits 67 255 t.s := fun h => hfew ((hsp 255).1 h)
        have hbody : ∀ e, (if parts.length ≤ 4351 ∧ ∃ c ∈ t.s.take 67, 128 ≤ c then (.error .unicodeError : Py Str)
            else .error .valueError) = .error e → bodyM 8 t s = .err e (afterSplit s) := by
          intro e he
          rw [bodyM_ucs2_split s hlong', splitSmsMessage_eq .ucs2 t _ hp1, hu]
          obtain ⟨ts, hts⟩ : ∃ ts, t.s = ts := ⟨_, rfl⟩
          rw [hts] at hp2 he hlong'
          cases hp2 with
          | nil => simp at hlong'
          | cons _ ps hne hch =>
            have := packPart_bytes_long (i := 0 + 1) (m := ts.take (partLen 67 ts)) (crOf_lt s)
              (show 256 ≤ (List.take (partLen 67 ts) ts :: ps).length by omega) (by omega)
            simp only [first_part_high] at this
            rw [he] at this
            rw [packParts_err this, M.lift_error]
        by_cases hcase : parts.length ≤ 4351 ∧ ∃ c ∈ t.s.take 67, 128 ≤ c
        · refine ⟨_, _, hbody .unicodeError (if_pos hcase), fun e' => ⟨fun h => ?_, fun h => h ▸
            .ucs2BytesLong t hu hns ((hsp _).2 hcase.1) hcase.2⟩⟩
          cases h with
          | ucs2Char _ h => exact absurd h nuni
          | ucs2Long _ h => exact absurd h nuni
          | ucs2Bytes => rfl
          | ucs2BytesLong => rfl
          | ucs2BytesTooLong _ _ _ h =>
            exfalso
            rcases h with h | h
            · exact h ((hsp _).2 hcase.1)
            · obtain ⟨c, hc, hc'⟩ := hcase.2
              have := h c hc
              omega
        · refine ⟨_, _, hbody .valueError (if_neg hcase), fun e' => ⟨fun h => ?_, fun h => h ▸
            .ucs2BytesTooLong t hu hns ?_⟩⟩
          · cases h with
            | ucs2Char _ h => exact absurd h nuni
            | ucs2Long _ h => exact absurd h nuni
            | ucs2Bytes _ _ _ h => exact absurd h hns
            | ucs2BytesLong _ _ _ h h' => exact absurd ⟨(hsp _).1 h, h'⟩ hcase
            | ucs2BytesTooLong => rfl
          · by_cases h43 : parts.length ≤ 4351
            · right
              intro c hc
              by_contra hlt
              exact hcase ⟨h43, c, hc, by omega⟩
            · exact .inl fun h => h43 ((hsp _).1 h)
    · have hc : ∀ c ∈ t.s, c < 65536 := by
        intro c hc
        by_contra h
        cases hu : t.uni with
        | true => exact h1 ⟨hu, c, hc, by omega⟩
        | false => have := hb hu c hc; omega
      have hu : t.uni = true ∨ (∀ c ∈ t.s, c < 128) ∨ t.s.length ≤ 70 := by
        cases hu : t.uni with
        | true => exact .inl rfl
        | false =>
          by_cases hl' : t.s.length ≤ 70
          · exact .inr (.inr hl')
          · refine .inr (.inl fun c hc => ?_)
            by_contra h
            exact h2 ⟨hu, by omega, c, hc, by omega⟩
      obtain ⟨ts, h3, h4, h5⟩ := bodyM_ucs2 s hc hu
      have hcount : Splits 67 255 t.s ↔ ts.length ≤ 255 := by
        rcases h3 with ⟨hl, rfl⟩ | ⟨_, hp⟩
        · exact ⟨fun _ => by simp, fun _ => splits_short (by omega) (by omega) (by omega)⟩
        · exact splits_iff (by omega) hp
      by_cases hts : ts.length ≤ 255
      · left
        have hyes := hcount.2 hts
        obtain ⟨b, hb, _⟩ := h4 hts
        refine ⟨⟨_, _, hb⟩, fun e h => ?_⟩
        cases h with
        | ucs2Char _ a b => exact h1 ⟨a, b⟩
        | ucs2Long _ _ h => exact h hyes
        | ucs2Bytes _ a b _ c => exact h2 ⟨a, b, c⟩
        | ucs2BytesLong _ _ h => exact h hyes
        | ucs2BytesTooLong _ _ h => exact h hyes
      · right
        have hno : ¬ Splits 67 255 t.s := fun h => hts (hcount.1 h)
        refine ⟨.valueError, _, h5 (by omega), fun e' => ⟨fun h => ?_, fun h => ?_⟩⟩
        · cases h with
          | ucs2Char _ a b => rfl
          | ucs2Long _ _ h => rfl
          | ucs2Bytes _ a b _ c => exact absurd ⟨a, b, c⟩ h2
          | ucs2BytesLong _ a _ _ h =>
            obtain ⟨c, hc, hc'⟩ := h
            exact absurd ⟨a, hlong (by have := mt (hsp 255).2 hno; omega), c, List.mem_of_mem_take hc, hc'⟩ h2
          | ucs2BytesTooLong => rfl
        · subst h
          cases hu' : t.uni with
          | true => exact .ucs2Long t hu' hno
          | false =>
            refine .ucs2BytesTooLong t hu' hno (.inr fun c hc => ?_)
            by_contra hlt
            exact h2 ⟨hu', hlong (by have := mt (hsp 255).2 hno; omega), c, List.mem_of_mem_take hc, by omega⟩

theorem bodyM_bin_exact {t : PyStr} (s : State) :
    ((∃ l s', bodyM 4 t s = .ok l s') ∧ ∀ e, ¬ TextRefused 4 t e) ∨
    ∃ e s', bodyM 4 t s = .err e s' ∧ ∀ e', TextRefused 4 t e' ↔ e' = e := by
  by_cases hs : t.s.length ≤ 140
  · have hyes : Splits 134 4351 t.s := splits_short (by omega) (by omega) (by omega)
    have hp : pack8 t none = if t.uni = true ∧ 128 ≤ t.s.length then .error .unicodeError
        else .ok (encodeStr (t.s.length :: t.s)) := by
      simp only [pack8, bind, Except.bind, pyChr]
      rw [if_pos (by omega)]
      simp only [concatStr, List.any_cons, List.any_nil, Bool.or_false, Bool.and_eq_true, decide_eq_true_eq]
      by_cases h : t.uni = true ∧ 128 ≤ t.s.length
      · rw [if_pos h, if_pos h]
      · rw [if_neg h, if_neg h]; rfl
    have hbody : bodyM 4 t s = (do
        let m ← M.lift (pack8 t none)
        pure [m] : M State (List Str)) s := by
      unfold bodyM
      rw [if_neg (by decide), if_pos rfl, if_pos (by exact hs)]
    rw [hbody, hp]
    by_cases h : t.uni = true ∧ 128 ≤ t.s.length
    · right
      rw [if_pos h]
      refine ⟨.unicodeError, s, M.bind_err (M.lift_error _ _), fun e' => ⟨fun h => ?_, fun h' => ?_⟩⟩
      · cases h with
        | binText => rfl
        | binBytes => rfl
        | binLong _ h => exact absurd hyes h
      · exact h' ▸ .binText t h.1 h.2 hyes
    · left
      rw [if_neg h]
      refine ⟨⟨_, _, M.bind_ok (M.lift_ok _ _)⟩, fun e h' => ?_⟩
      cases h' with
      | binText _ a b => exact h ⟨a, b⟩
      | binBytes => omega
      | binLong _ h => exact h hyes
  · obtain ⟨parts, hp1, hp2⟩ := splitLoop_ok t.s 134 (by omega)
    have hsp : ∀ n, Splits 134 n t.s ↔ parts.length ≤ n := fun n => splits_iff (by omega) hp2
    have hbody : bodyM 4 t s = M.lift (packParts .bin8 t.uni (crOf s) parts.length 0 parts) (afterSplit s) := by
      unfold bodyM
      rw [if_neg (by decide), if_pos rfl, if_neg (by exact hs), splitSmsMessage_eq .bin8 t _ hp1]
    by_cases hfew : parts.length ≤ 4351
    swap
    · right
      have hno : ¬ Splits 134 4351 t.s := fun h => hfew ((hsp _).1 h)
      refine ⟨.valueError, afterSplit s, ?_, fun e' => ⟨fun h => ?_, fun h => h ▸ .binLong t hno⟩⟩
      · rw [hbody]
        cases parts with
        | nil => simp at hfew
        | cons m ms =>
          have hu : udh16 (crOf s) (m :: ms).length (0 + 1) = .error .valueError := by
            have := crOf_lt s
            unfold udh16
            rw [or_shift8 (crOf_lt s)]
            simp only [pyUnichr, bind, Except.bind]
            rw [if_pos (by decide), if_pos (by omega), if_neg (fun h => hfew ((or_bound (by omega)).1 h))]
          have hpp : packPart .bin8 t.uni (crOf s) (m :: ms).length (0 + 1) m = .error .valueError := by
            simp only [packPart, hu, bind, Except.bind]
          rw [packParts_err hpp, M.lift_error]
      · cases h with
        | binText _ _ _ h => exact absurd h hno
        | binBytes _ _ _ h => exact absurd h hno
        | binLong => rfl
    have hyes := (hsp _).2 hfew
    have hor : ∀ i ≤ parts.length, (parts.length <<< 8) ||| i < 1114112 := fun i hi => (or_bound (by omega)).2 hfew
    by_cases h : t.uni = true ∨ ∃ c ∈ t.s, 128 ≤ c
    · right
      refine ⟨.unicodeError, afterSplit s, ?_, fun e' => ⟨fun h => ?_, fun h' => ?_⟩⟩
      · rw [hbody]
        cases hu : t.uni with
        | true =>
          obtain ⟨ts, hts⟩ : ∃ ts, t.s = ts := ⟨_, rfl⟩
          rw [hts] at hp2
          cases hp2 with
          | nil => rw [hts] at hs; simp at hs
          | cons _ ps hne hch =>
            rw [← hts] at hor ⊢
            have hlen : 128 ≤ (List.take (partLen 134 t.s) t.s).length + 3 ∧ (List.take (partLen 134 t.s) t.s).length + 3 < 256 := by
              rw [List.length_take]
              unfold partLen
              split <;> omega
            have hpp : packPart .bin8 true (crOf s) (List.take (partLen 134 t.s) t.s :: ps).length 1 (List.take (partLen 134 t.s) t.s) =
                .error .unicodeError := by
              have ho := hor 1 (by simp)
              simp only [packPart, udh16, bind, Except.bind, pyUnichr]
              rw [if_pos (by decide), or_shift8 (crOf_lt s)]
              have := crOf_lt s
              simp only [if_pos (show 3 * 256 + crOf s < 1114112 by omega), if_pos ho]
              simp only [pack8, concatUni, bind, Except.bind, Bool.not_true, Bool.false_and, Bool.false_eq_true, if_false,
                pyChr, List.length_append, List.length_cons, List.length_nil]
              rw [if_pos (by omega)]
              simp only [concatStr, List.any_cons, List.any_nil, Bool.or_false, Bool.true_and, decide_eq_true_eq]
              rw [if_pos (by omega)]
            rw [packParts_err hpp, M.lift_error]
        | false =>
          obtain ⟨c, hc, hc'⟩ : ∃ c ∈ t.s, 128 ≤ c := by
            rcases h with h | h
            · rw [hu] at h; cases h
            · exact h
          have hpart : ∀ i m, i ≤ 0 + parts.length → m ∈ parts →
              packPart .bin8 false (crOf s) parts.length i m = if ∃ c ∈ m, 128 ≤ c then .error .unicodeError
                else .ok (encodeStr ((m.length + 3) :: m)) := by
            intro i m hi hm
            have hb := chunks_bound (by omega) hp2 m hm
            split
            · rename_i hx
              have hu16 : udh16 (crOf s) parts.length i = .ok [0x500, 0x300 + crOf s, (parts.length <<< 8) ||| i] := by
                have := crOf_lt s
                unfold udh16
                rw [or_shift8 (crOf_lt s)]
                simp only [pyUnichr, bind, Except.bind]
                rw [if_pos (by decide), if_pos (by omega), if_pos (hor i (by omega))]
                simp
              simp only [packPart, pack8, hu16, bind, Except.bind, concatUni_bytes, if_pos hx]
            · rename_i hx
              simp only [not_exists, not_and, not_le] at hx
              exact packPart_bin (crOf_lt s) (hor i (by omega)) hx hb.2
          rw [packParts_err_first (e := .unicodeError) parts 0 (fun i m hi hm => by
            rw [hpart i m hi hm]
            split
            · exact .inr rfl
            · exact .inl ⟨_, rfl⟩) (by
            rw [← chunks_flatten hp2, List.mem_flatten] at hc
            obtain ⟨p, hp, hcp⟩ := hc
            exact ⟨p, hp, fun i hi => by rw [hpart i p hi hp, if_pos ⟨c, hcp, hc'⟩]⟩), M.lift_error]
      · cases h with
        | binText => rfl
        | binBytes => rfl
        | binLong _ h => exact absurd hyes h
      · subst h'
        cases hu : t.uni with
        | true => exact .binText t hu (by omega) hyes
        | false =>
          rcases h with h | h
          · rw [hu] at h; cases h
          · exact .binBytes t hu (by omega) hyes h
    · left
      simp only [not_or, not_exists, not_and, not_le, Bool.not_eq_true] at h
      obtain ⟨parts', hp', h3⟩ := bodyM_bin_multi s h.1 h.2 (by omega)
      refine ⟨⟨_, _, h3 fun i hi => ?_⟩, fun e h' => ?_⟩
      · have : parts'.length ≤ 4351 := (splits_iff (by omega) hp').1 hyes
        exact (or_bound (by omega)).2 this
      · cases h' with
        | binText _ a => rw [h.1] at a; cases a
        | binBytes _ _ _ _ hx =>
          obtain ⟨c, hc, hc'⟩ := hx
          have := h.2 c hc
          omega
        | binLong _ h => exact h hyes

theorem validity_exact {v : Validity} (hd : ∀ d, v = .absolute d → IsDatetime d) :
    (¬ ValidityRefused v ∧ ∃ l, vpPdu v = .ok l) ∨ (ValidityRefused v ∧ vpPdu v = .error .valueError) := by
  cases v with
  | none => exact .inl ⟨id, _, rfl⟩
  | relative t =>
    by_cases h : t.us < 5 * 60000000 ∨ 63 * 7 * 86400000000 < t.us
    · refine .inr ⟨h, ?_⟩
      simp only [vpPdu, relativeValidity]
      by_cases h1 : t.us < 5 * 60000000
      · rw [if_pos h1]; rfl
      · rw [if_neg h1, if_pos (by omega)]; rfl
    · obtain ⟨l, hl, _⟩ := validityOk_vp (v := .relative t) (by simp only [ValidityOk]; omega)
      exact .inl ⟨h, _, hl⟩
  | absolute d =>
    by_cases h : d.year < 1900
    · refine .inr ⟨h, ?_⟩
      simp only [vpPdu, absoluteValidity, if_pos h]
      rfl
    · obtain ⟨⟨_, _, hm, _, hdd, hh, hmi, hs⟩, ho⟩ := hd d rfl
      have hd' : d.day < 100 := by
        have : monthLength d.year d.month ≤ 31 := by
          unfold monthLength; split
          · split <;> omega
          · split <;> omega
        simp only at hdd; omega
      simp only at hm hh hmi hs
      obtain ⟨o, o1, o2, o3, _⟩ := absoluteValidity_all d (by omega) (by omega) hd' (by omega) (by omega) (by omega) ho
      have hchr : ∀ l : List Nat, (∀ x ∈ l, x < 256) → ∃ r, chrHexAll (l.map (fun x : Nat => (x : Int))) = .ok r := by
        intro l hl
        induction l with
        | nil => exact ⟨_, rfl⟩
        | cons x l ih =>
          obtain ⟨r, hr⟩ := ih (fun y hy => hl y (by simp [hy]))
          have hx := hl x (by simp)
          refine ⟨encodeStr [x] ++ r, ?_⟩
          simp only [List.map_cons, chrHexAll, hr, Int.toNat_natCast, pyChr, hx, if_true, bind, Except.bind]
          rw [if_neg (by omega)]
      obtain ⟨r, hr⟩ := hchr o o2
      refine .inl ⟨h, r, ?_⟩
      simp only [vpPdu, o3, bind, Except.bind]
      exact hr

theorem coded_eff {s : State} : Coded s (effFmt s) := by
  unfold Coded effFmt
  cases h : s.fmt with
  | some f => exact .inl rfl
  | none =>
    refine .inr ⟨rfl, ?_⟩
    by_cases hg : GsmText s.text
    · exact .inl ⟨hg, if_pos ((gsmText_iff _).2 hg)⟩
    · exact .inr ⟨hg, if_neg (fun h => hg ((gsmText_iff _).1 h))⟩

theorem coded_unique {s : State} {f : Nat} (h : Coded s f) : f = effFmt s := by
  have h' := coded_eff (s := s)
  unfold Coded at h h'
  rcases h with h | ⟨h, h1⟩ <;> rcases h' with h' | ⟨h', h2⟩
  · rw [h] at h'; exact Option.some.inj h'
  · rw [h] at h'; cases h'
  · rw [h] at h'; cases h'
  · rcases h1 with ⟨a, b⟩ | ⟨a, b⟩ <;> rcases h2 with ⟨c, d⟩ | ⟨c, d⟩
    · rw [b, d]
    · contradiction
    · contradiction
    · rw [b, d]

/-- the prefix of `to_pdu`, up to the number -/
theorem toPdu_prefix {s : State} (hs : Object s) : ∃ sm, toPdu s =
    ((M.lift (getPhonePdu s.number) : M State Str) >>= fun phone =>
      (M.lift (getTppidPdu s.pid) : M State Str) >>= fun pid =>
      getMsgPdu >>= fun msgs => match msgs with
      | [m] => pure [mkPdu (encodeStr (smscBytes sm) ++ encodeStr [submitOctet s.validity s.requestStatus false] ++
          encodeStr [mrOf s] ++ phone ++ pid ++ m) ((encodeStr (smscBytes sm)).length / 2) 1 1]
      | ms => do
        let submit ← M.lift (getSmsSubmitPdu s.validity s.requestStatus true)
        pure (mkPdus (encodeStr (smscBytes sm) ++ submit ++ encodeStr [mrOf s] ++ phone ++ pid)
          ((encodeStr (smscBytes sm)).length / 2) ms.length 0 ms)) (afterRef s) := by
  obtain ⟨sm, a, pid, h, _⟩ := ready_addressed (s := { s with number := some (py! "123"), validity := .none, pid := 0 })
    ⟨⟨_, rfl, ⟨false, false, py! "123", rfl, by decide, by decide, by decide⟩⟩, hs.csca, hs.klass, ⟨by simp, by simp⟩, trivial⟩
  have hsm : getSmscPdu s.csca = .ok (encodeStr (smscBytes sm)) := h.smsc
  refine ⟨sm, ?_⟩
  unfold toPdu
  rw [M.bind_ok (M.get_apply s), hsm, M.bind_ok (M.lift_ok _ _), getSmsSubmitPdu_ok, M.bind_ok (M.lift_ok _ _),
    M.bind_ok (getTpmessrefPdu_eq s)]
  rfl

/-- either everything goes well and nothing is refused, or there is one exception -/
theorem toPdu_cases (s : State) (hs : Object s) :
    ((∃ l s', toPdu s = .ok l s') ∧ (∀ e, ¬ SettingsRefused s e) ∧ ∀ e, ¬ TextRefused (effFmt s) s.text e) ∨
    (∃ e s', toPdu s = .err e s' ∧ ∀ e', SettingsRefused s e' ↔ e' = e) ∨
    (∃ e s', toPdu s = .err e s' ∧ (∀ e', ¬ SettingsRefused s e') ∧ ∀ e', TextRefused (effFmt s) s.text e' ↔ e' = e) := by
  obtain ⟨sm, hp⟩ := toPdu_prefix hs
  cases hn : s.number with
  | none =>
    refine .inr (.inl ⟨.attributeError, afterRef s, ?_, fun e' => ⟨fun h => ?_, fun h => h ▸ .noNumber hn⟩⟩)
    · rw [hp, hn]
      exact M.bind_err (M.lift_error _ _)
    · cases h with
      | noNumber => rfl
      | emptyNumber h => rw [hn] at h; cases h
      | value x h => rw [hn] at h; cases h
  | some x =>
    by_cases hx : x = []
    · refine .inr (.inl ⟨.indexError, afterRef s, ?_, fun e' => ⟨fun h => ?_, fun h => h ▸ .emptyNumber (hx ▸ hn)⟩⟩)
      · rw [hp, hn, hx]
        exact M.bind_err (M.lift_error _ _)
      · cases h with
        | noNumber h => rw [hn] at h; cases h
        | emptyNumber h => rfl
        | value y h hy => rw [hn] at h; cases h; contradiction
    · have hv : ValidNumber x := by
        have := hs.number
        rw [hn] at this
        exact this.resolve_left hx
      obtain ⟨_, a, _, hadd, _⟩ := ready_addressed (s := { s with validity := .none, pid := 0 })
        ⟨⟨x, hn, hv⟩, hs.csca, hs.klass, ⟨by simp, by simp⟩, trivial⟩
      have hph : getPhonePdu s.number = .ok (encodeStr (addrBytes a)) := hadd.phone
      rw [hph, M.bind_ok (M.lift_ok _ _)] at hp
      have hval : ∀ {s'}, toPdu s = .err .valueError s' →
          (¬ (0 ≤ s.pid ∧ s.pid < 256) ∨ ValidityRefused s.validity ∨ ∃ f, s.fmt = some f ∧ f ≠ 0 ∧ f ≠ 4 ∧ f ≠ 8) →
          (∃ e s', toPdu s = .err e s' ∧ ∀ e', SettingsRefused s e' ↔ e' = e) := by
        intro s' h1 h2
        refine ⟨.valueError, s', h1, fun e' => ⟨fun h => ?_, fun h => h ▸ .value x hn hx h2⟩⟩
        cases h with
        | noNumber h => rw [hn] at h; cases h
        | emptyNumber h => rw [hn] at h; cases h; contradiction
        | value => rfl
      by_cases hpid : 0 ≤ s.pid ∧ s.pid < 256
      · have hpd : getTppidPdu s.pid = .ok (encodeStr [s.pid.toNat]) := by
          simp only [getTppidPdu, pyChr, bind, Except.bind]
          rw [if_neg (by omega), if_pos (by omega)]
        rw [hpd, M.bind_ok (M.lift_ok _ _)] at hp
        obtain ⟨e1, e2, e3, e4, _⟩ := afterRef_fields s
        have hm := getMsgPdu_eq (afterRef s)
        rw [effFmt_afterRef, e1, e2, e3] at hm
        by_cases hf : effFmt s = 0 ∨ effFmt s = 4 ∨ effFmt s = 8
        · have hc : pyChr (dcsOf (effFmt s) s.klass) = .ok (dcsOf (effFmt s) s.klass) := by
            simp only [pyChr, dcsOf_lt s.klass hf, if_true]
          rw [hc, M.bind_ok (M.lift_ok _ _)] at hm
          rcases validity_exact hs.validity with ⟨hv1, vp, hv2⟩ | ⟨hv1, hv2⟩
          · rw [hv2, M.bind_ok (M.lift_ok _ _)] at hm
            have hnone : ∀ e, ¬ SettingsRefused s e := by
              intro e h
              cases h with
              | noNumber h => rw [hn] at h; cases h
              | emptyNumber h => rw [hn] at h; cases h; contradiction
              | value y _ _ h =>
                rcases h with h | h | ⟨f, h, h0⟩
                · exact h hpid
                · exact hv1 h
                · have : effFmt s = f := by simp [effFmt, h]
                  omega
            have hbody : ((∃ l s', bodyM (effFmt s) s.text (withDcs (afterRef s)) = .ok l s') ∧
                ∀ e, ¬ TextRefused (effFmt s) s.text e) ∨
                ∃ e s', bodyM (effFmt s) s.text (withDcs (afterRef s)) = .err e s' ∧
                  ∀ e', TextRefused (effFmt s) s.text e' ↔ e' = e := by
              rcases hf with h | h | h <;> rw [h]
              · exact bodyM_gsm_exact _
              · exact bodyM_bin_exact _
              · exact bodyM_ucs2_exact _ hs.text
            rcases hbody with ⟨⟨l, s', hb⟩, ht⟩ | ⟨e, s', hb, ht⟩
            · refine .inl ⟨?_, hnone, ht⟩
              rw [M.bind_ok hb] at hm
              rw [hp, M.bind_ok hm]
              generalize List.map _ _ = ms
              rcases ms with _ | ⟨m, _ | ⟨m2, r⟩⟩
              · simp only [getSmsSubmitPdu_ok, M.bind_ok (M.lift_ok _ _)]
                exact ⟨_, _, rfl⟩
              · exact ⟨_, _, rfl⟩
              · simp only [getSmsSubmitPdu_ok, M.bind_ok (M.lift_ok _ _)]
                exact ⟨_, _, rfl⟩
            · refine .inr (.inr ⟨e, s', ?_, hnone, ht⟩)
              rw [M.bind_err hb] at hm
              rw [hp, M.bind_err hm]
          · rw [hv2, M.bind_err (M.lift_error _ _)] at hm
            exact .inr (.inl (hval (hp.trans (M.bind_err hm)) (.inr (.inl hv1))))
        · have hfm : ∃ f, s.fmt = some f ∧ f ≠ 0 ∧ f ≠ 4 ∧ f ≠ 8 := by
            cases h : s.fmt with
            | none =>
              simp only [effFmt, h] at hf
              split at hf <;> simp at hf
            | some f =>
              simp only [effFmt, h] at hf
              exact ⟨f, rfl, by omega, by omega, by omega⟩
          have hm' : ∃ s', getMsgPdu (afterRef s) = .err .valueError s' := by
            rw [hm]
            by_cases hd : dcsOf (effFmt s) s.klass < 256
            · have hc : pyChr (dcsOf (effFmt s) s.klass) = .ok (dcsOf (effFmt s) s.klass) := by
                simp only [pyChr, hd, if_true]
              rw [hc, M.bind_ok (M.lift_ok _ _)]
              rcases validity_exact hs.validity with ⟨_, vp, hv2⟩ | ⟨_, hv2⟩
              · rw [hv2, M.bind_ok (M.lift_ok _ _)]
                refine ⟨_, M.bind_err (e := .valueError) (s' := withDcs (afterRef s)) ?_⟩
                simp only [bodyM]
                rw [if_neg (by omega), if_neg (by omega), if_neg (by omega)]
                rfl
              · rw [hv2]
                exact ⟨_, M.bind_err (M.lift_error _ _)⟩
            · have hc : pyChr (dcsOf (effFmt s) s.klass) = .error .valueError := by
                simp only [pyChr, hd, if_false]
              rw [hc]
              exact ⟨_, M.bind_err (M.lift_error _ _)⟩
          obtain ⟨s', hm'⟩ := hm'
          exact .inr (.inl (hval (hp.trans (M.bind_err hm')) (.inr (.inr hfm))))
      · have hpd : getTppidPdu s.pid = .error .valueError := by
          simp only [getTppidPdu, pyChr, bind, Except.bind]
          by_cases h0 : s.pid < 0
          · rw [if_pos h0]
          · rw [if_neg h0, if_neg (by omega)]
        rw [hpd] at hp
        exact .inr (.inl (hval (hp.trans (M.bind_err (M.lift_error _ _))) (.inl hpid)))

/-- C89: which messages `to_pdu` refuses, and with which exception: those with settings that cannot be sent, and else
those whose text the coding cannot carry or that take too many parts. -/
theorem C89_exact (s : State) (hs : Object s) (e : PyErr) :
    (∃ s', toPdu s = .err e s') ↔
      SettingsRefused s e ∨ ((∀ e', ¬ SettingsRefused s e') ∧ ∃ f, Coded s f ∧ TextRefused f s.text e) := by
  rcases toPdu_cases s hs with ⟨⟨l, s1, h1⟩, h2, h3⟩ | ⟨e1, s1, h1, h2⟩ | ⟨e1, s1, h1, h2, h3⟩
  · constructor
    · rintro ⟨s', h⟩
      rw [h1] at h; cases h
    · rintro (h | ⟨_, f, hf, h⟩)
      · exact absurd h (h2 e)
      · rw [coded_unique hf] at h
        exact absurd h (h3 e)
  · constructor
    · rintro ⟨s', h⟩
      rw [h1] at h
      cases h
      exact .inl ((h2 _).2 rfl)
    · rintro (h | ⟨h, _⟩)
      · exact ⟨s1, ((h2 e).1 h) ▸ h1⟩
      · exact absurd ((h2 e1).2 rfl) (h e1)
  · constructor
    · rintro ⟨s', h⟩
      rw [h1] at h
      cases h
      exact .inr ⟨h2, _, coded_eff, (h3 _).2 rfl⟩
    · rintro (h | ⟨_, f, hf, h⟩)
      · exact absurd h (h2 e)
      · rw [coded_unique hf] at h
        exact ⟨s1, ((h3 e).1 h) ▸ h1⟩

/-- C89: a message is sent exactly if nothing of it is refused -/
theorem C89_sent (s : State) (hs : Object s) :
    (∃ l s', toPdu s = .ok l s') ↔
      (∀ e, ¬ SettingsRefused s e) ∧ ∀ f e, Coded s f → ¬ TextRefused f s.text e := by
  rcases toPdu_cases s hs with ⟨⟨l, s1, h1⟩, h2, h3⟩ | ⟨e1, s1, h1, h2⟩ | ⟨e1, s1, h1, h2, h3⟩
  · exact ⟨fun _ => ⟨h2, fun f e hf h => h3 e (coded_unique hf ▸ h)⟩, fun _ => ⟨l, s1, h1⟩⟩
  · refine ⟨?_, fun h => absurd ((h2 e1).2 rfl) (h.1 e1)⟩
    rintro ⟨l, s', h⟩
    rw [h1] at h; cases h
  · refine ⟨?_, fun h => absurd ((h3 e1).2 rfl) (h.2 _ e1 coded_eff)⟩
    rintro ⟨l, s', h⟩
    rw [h1] at h; cases h

/-- a message that is complete but for what is said in the examples -/
def draft (number : Option Str) (pid : Int) (v : Validity) (fmt : Option Nat) (text : PyStr) : State :=
  ⟨number, none, none, v, true, none, none, [], pid, text, fmt, none, none⟩

theorem draft_object {number : Option Str} {pid : Int} {v : Validity} {fmt : Option Nat} {text : PyStr}
    (h1 : CscaOk number) (h2 : ∀ d, v = .absolute d → IsDatetime d) (h3 : text.uni = false → ∀ c ∈ text.s, c < 256) :
    Object (draft number pid v fmt text) := ⟨h1, trivial, by simp [draft], h2, h3⟩

theorem valid_555 : CscaOk (some (py! "+34555")) := .inr ⟨true, false, py! "34555", rfl, by decide, by decide, by decide⟩

/-- no number: AttributeError -/
example : ∃ s', toPdu (draft none 0 .none none ⟨true, py! "hi"⟩) = .err .attributeError s' :=
  (C89_exact _ (draft_object (number := none) trivial (by simp) (by simp)) _).2 (.inl (.noNumber rfl))

/-- the empty number: IndexError -/
example : ∃ s', toPdu (draft (some []) 0 .none none ⟨true, py! "hi"⟩) = .err .indexError s' :=
  (C89_exact _ (draft_object (number := some []) (Or.inl rfl) (by simp) (by simp)) _).2 (.inl (.emptyNumber rfl))

/-- an unknown coding: ValueError -/
example : ∃ s', toPdu (draft (some (py! "+34555")) 0 .none (some 300) ⟨true, py! "hi"⟩) = .err .valueError s' :=
  (C89_exact _ (draft_object valid_555 (by simp) (by simp)) _).2
    (.inl (.value _ rfl (by decide) (.inr (.inr ⟨300, rfl, by decide, by decide, by decide⟩))))

/-- a date of 1899: ValueError -/
example : ∃ s', toPdu (draft (some (py! "+34555")) 0 (.absolute ⟨1899, 12, 31, 0, 0, 0, none⟩) none ⟨true, py! "hi"⟩) =
    .err .valueError s' :=
  (C89_exact _ (draft_object valid_555 (by
      intro d h; cases h
      exact ⟨⟨by decide, by decide, by decide, by decide, by decide, by decide, by decide, by decide⟩, by simp⟩)
    (by simp)) _).2 (.inl (.value _ rfl (by decide) (.inr (.inl (show (1899 : Nat) < 1900 by decide)))))

/-- a face outside the plane 0: ValueError -/
example : ∃ s', toPdu (draft (some (py! "+34555")) 0 .none (some 8) ⟨true, [0x1f600]⟩) = .err .valueError s' :=
  (C89_exact _ (draft_object valid_555 (by simp) (by simp)) _).2 (.inr ⟨by
    intro e h
    cases h with
    | noNumber h => cases h
    | emptyNumber h => cases h
    | value x _ _ h =>
      rcases h with h | h | ⟨f, h, h0⟩
      · exact h (by decide)
      · exact h
      · cases h; omega, 8, .inl rfl, .ucs2Char _ rfl ⟨0x1f600, List.mem_singleton.2 rfl, by decide⟩⟩)

/-- a text of 20000 letters is too long for any coding: ValueError -/
example : ∃ s', toPdu (draft (some (py! "+34555")) 0 .none (some 8) ⟨true, List.replicate 20000 97⟩) = .err .valueError s' :=
  (C89_exact _ (draft_object valid_555 (by simp) (fun h => by cases h)) _).2 (.inr ⟨by
    intro e h
    cases h with
    | noNumber h => cases h
    | emptyNumber h => cases h
    | value x _ _ h =>
      rcases h with h | h | ⟨f, h, h0⟩
      · exact h (by decide)
      · exact h
      · cases h; omega, 8, .inl rfl, .ucs2Long _ rfl (fun h => by
        have h2 : (List.replicate 20000 97).length ≤ 255 * 67 := splits_length h
        rw [List.length_replicate] at h2
        omega)⟩)

/-- and a message that is sent -/
example : ∃ l s', toPdu (draft (some (py! "+34555")) 0 .none (some 8) ⟨true, py! "hi"⟩) = .ok l s' :=
  (C89_sent _ (draft_object valid_555 (by simp) (by simp))).2 ⟨by
    intro e h
    cases h with
    | noNumber h => cases h
    | emptyNumber h => cases h
    | value x _ _ h =>
      rcases h with h | h | ⟨f, h, h0⟩
      · exact h (by decide)
      · exact h
      · cases h; omega, by
    intro f e hf h
    rcases hf with hf | ⟨hf, _⟩
    · cases hf
      cases h with
      | ucs2Char _ _ h => exact absurd h (by decide)
      | ucs2Long _ _ h => exact h (splits_short (by decide) (by decide) (by decide))
      | ucs2Bytes _ h => cases h
      | ucs2BytesLong _ h => cases h
      | ucs2BytesTooLong _ h => cases h
    · cases hf⟩

end Verif.Props

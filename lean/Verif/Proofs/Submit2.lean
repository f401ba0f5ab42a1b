import Verif.Proofs.Submit
/-!
# User data of each part
-/
set_option autoImplicit false

namespace Verif.Submit
open Verif Verif.Spec Verif.Spec.Sms Verif.Spec.Gsm

/-- header octets of part `i` (0-based) of `n` -/
def hdr (cr n i : Nat) : List Nat := if n = 1 then [] else concatUdh cr n (i + 1)

/-- the bodies carry the texts -/
def Delivers (c : Alphabet) (cr : Nat) (ts : List Str) (bodies : List (List Nat)) : Prop :=
  bodies.length = ts.length ∧ ∀ i (h : i < ts.length) (h' : i < bodies.length), ∃ udl ud, bodies[i] = udl :: ud ∧
    udl < 256 ∧ (∀ x ∈ ud, x < 256) ∧ ud.length ≤ 140 ∧ Carries c (hdr cr ts.length i) ts[i] udl ud

theorem delivers_lt {c : Alphabet} {cr : Nat} {ts : List Str} {bodies : List (List Nat)} (h : Delivers c cr ts bodies) :
    ∀ b ∈ bodies, ∀ x ∈ b, x < 256 := by
  intro b hb x hx
  obtain ⟨i, hi, rfl⟩ := List.mem_iff_getElem.1 hb
  obtain ⟨udl, ud, h1, h2, h3, _, _⟩ := h.2 i (h.1 ▸ hi) hi
  rw [h1] at hx
  rcases List.mem_cons.1 hx with rfl | hx
  · exact h2
  · exact h3 x hx

theorem packed_nil {s o : List Nat} (h : PackedSeptets s o) : PackedWithHeader [] s o := by
  obtain ⟨h1, h2, h3⟩ := h
  refine ⟨?_, h2, ?_⟩
  · simpa using h1
  · simpa [leVal] using h3

theorem encode_iff {t : PyStr} {g : Str} :
    Gsm.encode t = .ok g ↔ Spells t.s g ∧ (t.uni = true ∨ ∀ c ∈ t.s, c < 128) := by
  unfold Gsm.encode
  cases hu : t.uni
  · simp only [Bool.false_eq_true, false_or]
    constructor
    · intro h
      by_cases ha : ∀ c ∈ t.s, c < 128
      · rw [Gsm.encodeLoop_str ha] at h
        exact ⟨Gsm.encodeLoop_iff.1 h, ha⟩
      · simp only [not_forall, not_lt] at ha
        obtain ⟨c, hc, hl⟩ := ha
        rw [Gsm.encodeLoop_str_err ⟨c, hc, hl⟩] at h
        cases h
    · rintro ⟨h, ha⟩
      rw [Gsm.encodeLoop_str ha]
      exact Gsm.encodeLoop_iff.2 h
  · simp only [true_or, and_true]
    exact Gsm.encodeLoop_iff

theorem spells_length {t g : List Nat} (h : Spells t g) : t.length ≤ g.length := by
  obtain ⟨p, hp, rfl⟩ := h
  induction hp with
  | nil => simp
  | cons hc _ ih =>
    have := List.length_pos_iff.2 (Gsm.code_ne_nil hc)
    simp only [List.flatten_cons, List.length_append, List.length_cons]
    omega

theorem forall₂_get {α β : Type} {R : α → β → Prop} {l : List α} {m : List β} (h : List.Forall₂ R l m) :
    ∀ i (h1 : i < l.length) (h2 : i < m.length), R l[i] m[i] := by
  induction h with
  | nil => simp
  | cons h _ ih =>
    intro i h1 h2
    cases i with
    | zero => simpa using h
    | succ i => simpa using ih i (by simpa using h1) (by simpa using h2)

/-- how a GSM text is cut -/
def GsmCut (t g : List Nat) (ts : List Str) : Prop :=
  ts.flatten = t ∧ ((g.length ≤ 160 ∧ ts = [t]) ∨
    (160 < g.length ∧ ∃ parts, Chunks 153 g parts ∧ List.Forall₂ Spells ts parts))

/-- object after user data was built -/
def afterBody (s : State) (multi : Bool) : State := if multi then afterSplit s else s

theorem packParts_err {c : Coding} {uni : Bool} {ref total k : Nat} {m : Str} {ms : List Str} {e : PyErr}
    (h : packPart c uni ref total (k + 1) m = .error e) :
    packParts c uni ref total k (m :: ms) = .error e := by
  simp [packParts, h, bind, Except.bind]

theorem packPart_gsm_err {uni : Bool} {ref total i : Nat} {g : Str} (h1 : ref < 256) (h2 : 256 ≤ total) :
    packPart .gsm7 uni ref total i g = .error .valueError := by
  simp only [packPart, udh7, pyChr, bind, Except.bind, h1, if_true]
  rw [if_neg (by omega)]

theorem bodyM_gsm {t : PyStr} {g : Str} (s : State) (h : Gsm.encode t = .ok g) :
    ∃ ts, GsmCut t.s g ts ∧
      (ts.length ≤ 255 → ∃ bodies, bodyM 0 t s =
          .ok (bodies.map encodeStr) (afterBody { s with textGsm := some g } (decide (160 < g.length))) ∧
        Delivers .gsm (crOf s) ts bodies) ∧
      (255 < ts.length → bodyM 0 t s =
          .err .valueError (afterBody { s with textGsm := some g } (decide (160 < g.length)))) := by
  obtain ⟨hsp, _⟩ := encode_iff.1 h
  have hlt := Gsm.spells_lt hsp
  have hbody : bodyM 0 t s = (if g.length ≤ SEVENBIT_SIZE then do
        let m ← M.lift (pack7 g none)
        pure [m]
      else splitSmsMessage .gsm7 ⟨false, g⟩ : M State (List Str)) { s with textGsm := some g } := by
    unfold bodyM
    rw [if_pos rfl, h, M.bind_ok (M.lift_ok _ _), M.bind_ok (M.modify_apply _ _)]
  by_cases hl : g.length ≤ 160
  · refine ⟨[t.s], ⟨by simp, .inl ⟨hl, rfl⟩⟩, ?_, by simp⟩
    intro _
    obtain ⟨o, ho, hp⟩ := pack7_none hlt (by omega)
    refine ⟨[g.length :: o], ?_, rfl, ?_⟩
    · rw [hbody, if_pos (by exact hl), hp, M.bind_ok (M.lift_ok _ _), M.pure_apply]
      have : ¬ 160 < g.length := by omega
      simp [afterBody, this]
    · intro i hi _
      have : i = 0 := by simpa using hi
      subst this
      refine ⟨g.length, o, rfl, by omega, ho.2.1, ?_, g, hsp, packed_nil ho, ?_⟩
      · rw [ho.1]; omega
      · simp [hdr]
  · obtain ⟨parts, hp1, hp2⟩ := splitLoop_ok g 153 (by omega)
    obtain ⟨ts, ht1, ht2⟩ := chunks_spells hp2 (by omega) t.s hsp
    have hlen : ts.length = parts.length := ht1.length_eq
    have h2 := chunks_two (by omega) hp2 (by omega)
    have hdec : decide (160 < g.length) = true := by simp; omega
    have hbody2 : bodyM 0 t s = M.lift (packParts .gsm7 false (crOf s) parts.length 0 parts)
        (afterSplit { s with textGsm := some g }) := by
      rw [hbody, if_neg (by exact hl), splitSmsMessage_eq .gsm7 ⟨false, g⟩ _ hp1]
      rfl
    refine ⟨ts, ⟨ht2, .inr ⟨by omega, parts, hp2, ht1⟩⟩, ?_, ?_⟩
    · intro hle
      obtain ⟨bodies, hb1, hb2, hb3⟩ := packParts_ok (c := .gsm7) (uni := false) (ref := crOf s)
        (total := parts.length)
        (P := fun i m b => ∃ ud, b = (m.length + 7) :: ud ∧
          PackedWithHeader (concatUdh (crOf s) parts.length i) m ud) parts 0 (by
          intro i hi
          have hm := chunks_bound (by omega) hp2 parts[i] (List.getElem_mem _)
          have hm' : ∀ x ∈ parts[i], x < 128 := fun x hx => by
            apply hlt
            rw [← chunks_flatten hp2]
            exact List.mem_flatten_of_mem (List.getElem_mem hi) hx
          obtain ⟨ud, hu1, hu2⟩ := packPart_gsm (uni := false) (crOf_lt s) (show parts.length < 256 by omega)
            (show 0 + i + 1 < 256 by omega) hm' hm.2
          exact ⟨_, hu1, ud, rfl, hu2⟩)
      refine ⟨bodies, ?_, hb2.trans hlen.symm, ?_⟩
      · rw [hbody2, hb1, M.lift_ok, hdec]; rfl
      · intro i hi hi'
        obtain ⟨ud, hu1, hu2⟩ := hb3 i (by omega) hi'
        have hm := chunks_bound (by omega) hp2 (parts[i]'(by omega)) (List.getElem_mem _)
        rw [Nat.zero_add] at hu2
        refine ⟨_, ud, hu1, by omega, hu2.2.1, ?_, parts[i]'(by omega), forall₂_get ht1 i hi (by omega), ?_, ?_⟩
        · rw [hu2.1]
          simp only [concatUdh, List.length_cons, List.length_nil]
          omega
        · rw [hdr, if_neg (by omega), hlen]; exact hu2
        · rw [hdr, if_neg (by omega)]
          simp only [concatUdh, List.length_cons, List.length_nil]
          omega
    · intro hgt
      cases hpp : parts with
      | nil => simp [hpp] at h2
      | cons m ms =>
        rw [hbody2, hpp, packParts_err (packPart_gsm_err (crOf_lt s) (by rw [← hpp]; omega)), M.lift_error, hdec]; rfl

/-- how a UCS2 text is cut -/
def UcsCut (t : List Nat) (ts : List Str) : Prop :=
  (t.length ≤ 70 ∧ ts = [t]) ∨ (70 < t.length ∧ Chunks 67 t ts)

theorem ucsCut_flatten {t : List Nat} {ts : List Str} (h : UcsCut t ts) : ts.flatten = t := by
  rcases h with ⟨_, rfl⟩ | ⟨_, h⟩
  · simp
  · exact chunks_flatten h

theorem udh16_err {ref total i : Nat} (h1 : ref < 256) (h2 : 256 ≤ total) :
    udh16 ref total i = .error .valueError ∨
      ∃ c, 65536 ≤ c ∧ udh16 ref total i = .ok [0x500, 0x300 + ref, c] := by
  unfold udh16
  rw [or_shift8 h1]
  simp only [pyUnichr, bind, Except.bind]
  rw [if_pos (by decide), if_pos (by omega)]
  by_cases h : total <<< 8 ||| i < 1114112
  · right
    refine ⟨total <<< 8 ||| i, ?_, by simp [h]⟩
    have := Nat.left_le_or (n := total <<< 8) (m := i)
    rw [Nat.shiftLeft_eq] at this ⊢
    omega
  · left; simp [h]

theorem packPart_ucs2_err {uni : Bool} {ref total i : Nat} {t : Str} (h1 : ref < 256) (h2 : 256 ≤ total)
    (hu : uni = true ∨ ∀ x ∈ t, x < 128) : packPart .ucs2 uni ref total i t = .error .valueError := by
  rcases udh16_err (i := i) h1 h2 with h | ⟨c, hc, h⟩
  · simp only [packPart, h, bind, Except.bind]
  · have hcat : concatUni [0x500, 0x300 + ref, c] ⟨uni, t⟩ = .ok ([0x500, 0x300 + ref, c] ++ t) := by
      unfold concatUni
      rw [if_neg]
      rcases hu with rfl | hu
      · simp
      · simp only [Bool.and_eq_true, List.any_eq_true, decide_eq_true_eq, not_and, not_exists]
        intro _ x hx; have := hu x hx; omega
    simp only [packPart, h, packUcs2, hcat, bind, Except.bind]
    rw [ucs2Bytes_err ⟨c, by simp, hc⟩]

theorem bodyM_ucs2 {t : PyStr} (s : State) (h : ∀ c ∈ t.s, c < 65536)
    (hu : t.uni = true ∨ (∀ c ∈ t.s, c < 128) ∨ t.s.length ≤ 70) :
    ∃ ts, UcsCut t.s ts ∧
      (ts.length ≤ 255 → ∃ bodies, bodyM 8 t s =
          .ok (bodies.map encodeStr) (afterBody s (decide (70 < t.s.length))) ∧
        Delivers .ucs2 (crOf s) ts bodies) ∧
      (255 < ts.length → bodyM 8 t s = .err .valueError (afterBody s (decide (70 < t.s.length)))) := by
  have hbody : bodyM 8 t s = (if t.s.length ≤ UCS2_SIZE then do
        let m ← M.lift (packUcs2 t none)
        pure [m]
      else splitSmsMessage .ucs2 t : M State (List Str)) s := by
    unfold bodyM
    rw [if_neg (by decide), if_neg (by decide), if_pos rfl]
  by_cases hl : t.s.length ≤ 70
  · refine ⟨[t.s], .inl ⟨hl, rfl⟩, ?_, by simp⟩
    intro _
    refine ⟨[(2 * t.s.length) :: ucs2Octets t.s], ?_, rfl, ?_⟩
    · rw [hbody, if_pos (by exact hl), packUcs2_ok h (by omega), M.bind_ok (M.lift_ok _ _), M.pure_apply]
      have : ¬ 70 < t.s.length := by omega
      simp [afterBody, this]
    · intro i hi _
      have : i = 0 := by simpa using hi
      subst this
      refine ⟨_, _, rfl, by omega, ucs2Octets_lt h, ?_, h, ?_, ?_⟩
      · rw [ucs2Octets_length]; omega
      · simp [hdr]
      · rw [ucs2Octets_length]
  · replace hu : t.uni = true ∨ ∀ c ∈ t.s, c < 128 := by
      rcases hu with hu | hu | hu
      · exact .inl hu
      · exact .inr hu
      · exact absurd hu hl
    obtain ⟨parts, hp1, hp2⟩ := splitLoop_ok t.s 67 (by omega)
    have h2 := chunks_two (by omega) hp2 (by omega)
    have hdec : decide (70 < t.s.length) = true := by simp; omega
    have hbody2 : bodyM 8 t s = M.lift (packParts .ucs2 t.uni (crOf s) parts.length 0 parts) (afterSplit s) := by
      rw [hbody, if_neg (by exact hl), splitSmsMessage_eq .ucs2 t _ hp1]
    have hmem : ∀ p ∈ parts, (∀ x ∈ p, x < 65536) ∧ (t.uni = true ∨ ∀ x ∈ p, x < 128) := by
      intro p hp
      have : ∀ x ∈ p, x ∈ t.s := by
        intro x hx
        rw [← chunks_flatten hp2]
        exact List.mem_flatten_of_mem hp hx
      exact ⟨fun x hx => h x (this x hx), hu.imp id (fun hu x hx => hu x (this x hx))⟩
    refine ⟨parts, .inr ⟨by omega, hp2⟩, ?_, ?_⟩
    · intro hle
      obtain ⟨bodies, hb1, hb2, hb3⟩ := packParts_ok (c := .ucs2) (uni := t.uni) (ref := crOf s)
        (total := parts.length)
        (P := fun i m b => b = (2 * m.length + 6) :: (concatUdh (crOf s) parts.length i ++ ucs2Octets m)) parts 0 (by
          intro i hi
          have hm := chunks_bound (by omega) hp2 parts[i] (List.getElem_mem _)
          obtain ⟨hx1, hx2⟩ := hmem parts[i] (List.getElem_mem _)
          exact ⟨_, packPart_ucs2 (crOf_lt s) (show parts.length < 256 by omega)
            (show 0 + i + 1 < 256 by omega) hx1 hx2 hm.2, rfl⟩)
      refine ⟨bodies, ?_, hb2, ?_⟩
      · rw [hbody2, hb1, M.lift_ok, hdec]; rfl
      · intro i hi hi'
        have hu1 := hb3 i (by omega) hi'
        have hm := chunks_bound (by omega) hp2 (parts[i]'(by omega)) (List.getElem_mem _)
        obtain ⟨hx1, hx2⟩ := hmem parts[i] (List.getElem_mem _)
        have hlen : (concatUdh (crOf s) parts.length (0 + i + 1) ++ ucs2Octets parts[i]).length =
            2 * parts[i].length + 6 := by
          rw [List.length_append, ucs2Octets_length]
          simp only [concatUdh, List.length_cons, List.length_nil]; omega
        have hcr := crOf_lt s
        refine ⟨_, _, hu1, by omega, ?_, by rw [hlen]; omega, hx1, ?_, ?_⟩
        · intro x hx
          rcases List.mem_append.1 hx with hx | hx
          · simp only [concatUdh, List.mem_cons, List.not_mem_nil, or_false] at hx
            rcases hx with rfl | rfl | rfl | rfl | rfl | rfl <;> omega
          · exact ucs2Octets_lt hx1 x hx
        · rw [hdr, if_neg (by omega), Nat.zero_add]
        · rw [hlen]
    · intro hgt
      cases hpp : parts with
      | nil => simp [hpp] at h2
      | cons m ms =>
        rw [hbody2, hpp, packParts_err (packPart_ucs2_err (crOf_lt s) (by rw [← hpp]; omega)
          (hmem m (by simp [hpp])).2), M.lift_error, hdec]; rfl

/-! ## 8-bit data -/

theorem bodyM_bin_single {t : PyStr} (s : State) (h : ∀ c ∈ t.s, c < 256) (hl : t.s.length ≤ 140)
    (hu : t.uni = false ∨ t.s.length < 128) :
    ∃ bodies, bodyM 4 t s = .ok (bodies.map encodeStr) s ∧ Delivers .bin (crOf s) [t.s] bodies := by
  refine ⟨[t.s.length :: t.s], ?_, rfl, ?_⟩
  · unfold bodyM
    rw [if_neg (by decide), if_pos rfl, if_pos (by exact hl)]
    have : pack8 t none = .ok (encodeStr (t.s.length :: t.s)) := by
      simp only [pack8, bind, Except.bind, pyChr]
      rw [if_pos (by omega)]
      simp only [concatStr]
      rw [if_neg]
      · rfl
      · simp only [Bool.and_eq_true, List.any_cons, List.any_nil, Bool.or_false, decide_eq_true_eq, not_and, not_le]
        intro ht
        rcases hu with hu | hu
        · rw [hu] at ht; cases ht
        · exact hu
    rw [this, M.bind_ok (M.lift_ok _ _), M.pure_apply]
    rfl
  · intro i hi _
    have : i = 0 := by simpa using hi
    subst this
    exact ⟨_, _, rfl, by omega, h, hl, by simp [hdr], rfl⟩

end Verif.Submit

import Verif.Model.Narrow
import Verif.Spec.Utf16
import Verif.Proofs.Submit4
/-!
# Narrow builds
-/
set_option autoImplicit false

namespace Verif.Narrow
open Verif Verif.Submit

/-- `n` does what `m` does, which yields at most 255 items, or fails where `m` yields more -/
def Like {σ α : Type} (m n : M σ (List α)) (s : σ) : Prop :=
  (n s = m s ∧ ∀ l s', m s = .ok l s' → l.length ≤ 255) ∨
  ((∃ s', n s = .err .valueError s') ∧ ∀ l s', m s = .ok l s' → 256 ≤ l.length)

theorem udh16_same {ref total i : Nat} (h1 : ref < 256) (h2 : total < 256) (h3 : i < 256) :
    udh16 ref total i = Submit.udh16 ref total i := by
  have hb : (0x03 <<< 8) ||| ref < 0x10000 := by
    rw [show (0x03 <<< 8 : Nat) = 2 ^ 8 * 3 by decide, ← Nat.two_pow_add_eq_or_of_lt (by omega)]
    omega
  have hc : (total <<< 8) ||| i < 0x10000 := by
    rw [Nat.shiftLeft_eq, Nat.mul_comm, ← Nat.two_pow_add_eq_or_of_lt (by omega)]
    omega
  simp only [udh16, Submit.udh16, pyUnichr, Verif.pyUnichr, if_pos hb, if_pos hc, if_pos (show _ < 0x110000 from Nat.lt_trans hb (by decide)),
    if_pos (show _ < 0x110000 from Nat.lt_trans hc (by decide))]
  rfl

theorem udh16_fails {ref total i : Nat} (h1 : ref < 256) (h2 : 256 ≤ total) : udh16 ref total i = .error .valueError := by
  have hb : (0x03 <<< 8) ||| ref < 0x10000 := by
    rw [show (0x03 <<< 8 : Nat) = 2 ^ 8 * 3 by decide, ← Nat.two_pow_add_eq_or_of_lt (by omega)]
    omega
  have hc : ¬ (total <<< 8) ||| i < 0x10000 := by
    have h3 : total <<< 8 ≤ (total <<< 8) ||| i := Nat.left_le_or
    have h4 : total <<< 8 = total * 2 ^ 8 := Nat.shiftLeft_eq _ _
    omega
  simp only [udh16, pyUnichr, if_pos hb, if_neg hc]
  rfl

theorem packPart_same {c : Coding} {uni : Bool} {ref total i : Nat} {m : Str} (h1 : ref < 256) (h2 : total < 256)
    (h3 : i < 256) : packPart c uni ref total i m = Submit.packPart c uni ref total i m := by
  cases c <;> simp only [packPart, Submit.packPart, udh16_same h1 h2 h3]

theorem packParts_same {c : Coding} {uni : Bool} {ref total : Nat} (h1 : ref < 256) (h2 : total < 256) : ∀ (ms : List Str) (i : Nat),
    i + ms.length ≤ total → packParts c uni ref total i ms = Submit.packParts c uni ref total i ms
  | [], _, _ => rfl
  | m :: ms, i, h => by
    rw [List.length_cons] at h
    simp only [packParts, Submit.packParts]
    rw [packPart_same h1 h2 (by omega), packParts_same h1 h2 ms (i + 1) (by omega)]

theorem packParts_length {c : Coding} {uni : Bool} {ref total : Nat} : ∀ (ms : List Str) (i : Nat) (l : List Str),
    Submit.packParts c uni ref total i ms = .ok l → l.length = ms.length
  | [], _, l, h => by cases h; rfl
  | m :: ms, i, l, h => by
    simp only [Submit.packParts] at h
    cases h1 : Submit.packPart c uni ref total (i + 1) m with
    | error e => rw [h1] at h; cases h
    | ok x =>
      cases h2 : Submit.packParts c uni ref total (i + 1) ms with
      | error e => rw [h1, h2] at h; cases h
      | ok xs =>
        rw [h1, h2] at h
        cases h
        simp [packParts_length ms _ xs h2]

theorem packParts_like {c : Coding} {uni : Bool} {ref : Nat} (h1 : ref < 256) (ms : List Str) (s : State) :
    Like (M.lift (Submit.packParts c uni ref ms.length 0 ms)) (M.lift (packParts c uni ref ms.length 0 ms)) s := by
  have hlen : ∀ l s', M.lift (Submit.packParts c uni ref ms.length 0 ms) s = .ok l s' → l.length = ms.length := by
    intro l s' h
    cases hp : Submit.packParts c uni ref ms.length 0 ms with
    | ok l' =>
      rw [hp, M.lift_ok] at h
      cases h
      exact packParts_length _ _ _ hp
    | error e => rw [hp, M.lift_error] at h; cases h
  by_cases h2 : ms.length < 256
  · left
    rw [packParts_same h1 h2 ms 0 (by omega)]
    exact ⟨rfl, fun l s' h => by rw [hlen l s' h]; omega⟩
  · right
    refine ⟨⟨s, ?_⟩, fun l s' h => by rw [hlen l s' h]; omega⟩
    cases ms with
    | nil => simp at h2
    | cons m ms =>
      have : packPart c uni ref (m :: ms).length (0 + 1) m = .error .valueError := by
        cases c with
        | gsm7 => exact packPart_gsm_err (uni := uni) h1 (by omega)
        | bin8 => simp only [packPart, udh16_fails h1 (by omega : 256 ≤ (m :: ms).length)]; rfl
        | ucs2 => simp only [packPart, udh16_fails h1 (by omega : 256 ≤ (m :: ms).length)]; rfl
      simp only [packParts, this]
      rfl

theorem splitSmsMessage_eq (c : Coding) (text : PyStr) (s : State) {parts : List Str}
    (h : splitLoop text.s text.s.length c.mpSize (text.s.length + 1) 0 c.mpSize = .ok parts) :
    splitSmsMessage c text s = M.lift (packParts c text.uni (crOf s) parts.length 0 parts) (afterSplit s) := by
  unfold splitSmsMessage
  simp only [h]
  rw [M.bind_ok (M.lift_ok _ _), M.bind_ok (M.get_apply s)]
  cases hr : s.randId with
  | none =>
    simp only []
    rw [M.bind_ok (getRandId_eq s), M.bind_ok (M.pure_apply _ _)]
    simp [crOf, afterSplit, hr]
  | some r =>
    simp only []
    rw [M.bind_ok (M.pure_apply _ _)]
    simp [crOf, afterSplit, hr]

theorem split_like (c : Coding) (t : PyStr) (s : State) : Like (Submit.splitSmsMessage c t) (splitSmsMessage c t) s := by
  obtain ⟨parts, hp, _⟩ := splitLoop_ok t.s c.mpSize (by cases c <;> decide)
  unfold Like
  rw [splitSmsMessage_eq c t s hp, Submit.splitSmsMessage_eq c t s hp]
  exact packParts_like (crOf_lt s) parts (afterSplit s)

theorem like_bind {σ α β : Type} (m : M σ α) {f g : α → M σ (List β)} {s : σ} (h : ∀ a s', m s = .ok a s' → Like (f a) (g a) s') :
    Like (do let a ← m; f a) (do let a ← m; g a) s := by
  unfold Like
  simp only [M.bind_apply]
  cases hm : m s with
  | ok a s' => exact h a s' hm
  | err e s' => exact .inl ⟨rfl, fun l s'' h => (by cases h)⟩

theorem like_one {σ α : Type} (m : M σ α) (s : σ) : Like (do let a ← m; pure [a]) (do let a ← m; pure [a]) s :=
  like_bind m fun a s' _ => .inl ⟨rfl, fun l s'' h => by
    rw [M.pure_apply] at h
    cases h
    simp⟩

theorem body_like (fmt : Nat) (t : PyStr) (s : State) : Like (Submit.bodyM fmt t) (bodyM fmt t) s := by
  unfold Submit.bodyM bodyM
  split
  · refine like_bind _ fun g s1 _ => like_bind _ fun _ s2 _ => ?_
    split
    · exact like_one _ _
    · exact split_like _ _ _
  · split
    · split
      · exact like_one _ _
      · exact split_like _ _ _
    · split
      · split
        · exact like_one _ _
        · exact split_like _ _ _
      · exact .inl ⟨rfl, fun l s' h => (by cases h)⟩

theorem like_map {σ α β : Type} {m n : M σ (List α)} {f : α → β} {s : σ} (h : Like m n s) :
    Like (do let l ← m; pure (l.map f)) (do let l ← n; pure (l.map f)) s := by
  unfold Like at h ⊢
  simp only [M.bind_apply]
  rcases h with ⟨h1, h2⟩ | ⟨⟨s', h1⟩, h2⟩
  · left
    rw [h1]
    refine ⟨rfl, fun l s' h => ?_⟩
    cases hm : m s with
    | ok a s'' =>
      rw [hm] at h
      cases h
      simpa using h2 _ _ hm
    | err e s'' => rw [hm] at h; cases h
  · right
    rw [h1]
    refine ⟨⟨s', rfl⟩, fun l s' h => ?_⟩
    cases hm : m s with
    | ok a s'' =>
      rw [hm] at h
      cases h
      simpa using h2 _ _ hm
    | err e s'' => rw [hm] at h; cases h

theorem getMsgPdu_like (s : State) : Like Submit.getMsgPdu getMsgPdu s := by
  unfold Submit.getMsgPdu getMsgPdu
  exact like_bind _ fun _ _ _ => like_bind _ fun _ _ _ => like_bind _ fun _ _ _ => like_bind _ fun _ _ _ =>
    like_map (body_like _ _ _)

theorem mkPdus_length (pre : Str) (k cnt : Nat) : ∀ (ms : List Str) (i : Nat), (mkPdus pre k cnt i ms).length = ms.length
  | [], _ => rfl
  | m :: ms, i => by simp [mkPdus, mkPdus_length pre k cnt ms]

theorem like_keep {σ α β : Type} {m n : M σ (List α)} {f : List α → M σ (List β)} {s : σ} (h : Like m n s)
    (hf : ∀ l s' r s'', f l s' = .ok r s'' → r.length = l.length) :
    Like (do let l ← m; f l) (do let l ← n; f l) s := by
  unfold Like at h ⊢
  simp only [M.bind_apply]
  rcases h with ⟨h1, h2⟩ | ⟨⟨s', h1⟩, h2⟩
  · left
    rw [h1]
    refine ⟨rfl, fun l s' h => ?_⟩
    cases hm : m s with
    | ok a s'' =>
      rw [hm] at h
      rw [hf _ _ _ _ h]
      exact h2 _ _ hm
    | err e s'' => rw [hm] at h; cases h
  · right
    rw [h1]
    refine ⟨⟨s', rfl⟩, fun l s' h => ?_⟩
    cases hm : m s with
    | ok a s'' =>
      rw [hm] at h
      rw [hf _ _ _ _ h]
      exact h2 _ _ hm
    | err e s'' => rw [hm] at h; cases h

theorem toPdu_like (s : State) : Like Submit.toPdu toPdu s := by
  unfold Submit.toPdu toPdu
  refine like_bind _ fun _ _ _ => like_bind _ fun _ _ _ => like_bind _ fun _ _ _ => like_bind _ fun _ _ _ =>
    like_bind _ fun _ _ _ => like_bind _ fun _ _ _ => like_keep (getMsgPdu_like _) fun l s' r s'' h => ?_
  split at h
  · rw [M.pure_apply] at h
    cases h
    rfl
  · simp only [M.bind_apply] at h
    split at h
    · rw [M.pure_apply] at h
      cases h
      exact mkPdus_length _ _ _ _ _
    · cases h

end Verif.Narrow

namespace Verif.Spec.Utf16

theorem spells_unique {a us : List Nat} (h : Spells a us) : ∀ {b : List Nat}, Spells b us → b = a := by
  induction h with
  | nil => intro b hb; cases hb; rfl
  | one c cs us hc _ ih =>
    intro b hb
    cases hb with
    | one _ _ _ _ h => rw [ih h]
    | two x _ _ hx h => omega
  | two x cs us hx _ ih =>
    intro b hb
    generalize hu : (0xD800 + x / 1024) :: (0xDC00 + x % 1024) :: us = us' at hb
    cases hb with
    | nil => cases hu
    | one c cs' us' hc h => injection hu with h1 h2; omega
    | two y cs' us' hy h =>
      injection hu with h1 h2
      injection h2 with h2 h3
      subst h3
      rw [ih h, show x = y by omega]

theorem spells_total : ∀ chars : List Nat, (∀ c ∈ chars, Char c) → ∃ us, Spells chars us
  | [], _ => ⟨[], .nil⟩
  | c :: cs, h => by
    obtain ⟨us, hu⟩ := spells_total cs fun c hc => h c (List.mem_cons_of_mem _ hc)
    have hc := h c List.mem_cons_self
    unfold Char at hc
    by_cases h2 : c < 0x10000
    · exact ⟨_, .one c cs us (by omega) hu⟩
    · have := Spells.two (c - 0x10000) cs us (by omega) hu
      rw [show 0x10000 + (c - 0x10000) = c by omega] at this
      exact ⟨_, this⟩

theorem spells_lt {chars us : List Nat} (h : Spells chars us) : ∀ u ∈ us, u < 65536 := by
  induction h with
  | nil => intro u hu; cases hu
  | one c cs us hc _ ih =>
    intro u hu
    rcases List.mem_cons.1 hu with rfl | hu
    · omega
    · exact ih u hu
  | two x cs us hx _ ih =>
    intro u hu
    rcases List.mem_cons.1 hu with rfl | hu
    · omega
    · rcases List.mem_cons.1 hu with rfl | hu
      · omega
      · exact ih u hu

theorem whole_one {c : Nat} {us : List Nat} (hc : c < 0xD800 ∨ 0xE000 ≤ c ∧ c < 0x10000) : Whole (c :: us) ↔ Whole us := by
  constructor
  · rintro ⟨cs, h⟩
    cases h with
    | one _ cs _ _ h => exact ⟨cs, h⟩
    | two x cs _ hx h => omega
  · rintro ⟨cs, h⟩
    exact ⟨_, .one c cs us hc h⟩

theorem whole_two {x : Nat} {us : List Nat} (hx : x < 0x100000) :
    Whole ((0xD800 + x / 1024) :: (0xDC00 + x % 1024) :: us) ↔ Whole us := by
  constructor
  · rintro ⟨cs, h⟩
    generalize hu : (0xD800 + x / 1024) :: (0xDC00 + x % 1024) :: us = us' at h
    cases h with
    | nil => cases hu
    | one c cs us' hc h => injection hu with h1 h2; omega
    | two y cs us' hy h =>
      injection hu with h1 h2
      injection h2 with h2 h3
      subst h3
      exact ⟨cs, h⟩
  · rintro ⟨cs, h⟩
    exact ⟨_, .two x cs us hx h⟩

theorem not_whole_high {u : Nat} (h : High u) : ¬ Whole [u] := by
  rintro ⟨cs, hc⟩
  unfold High at h
  cases hc with
  | one _ _ _ h1 h2 => omega

theorem not_whole_low {u : Nat} {us : List Nat} (h : 0xDC00 ≤ u ∧ u < 0xE000) : ¬ Whole (u :: us) := by
  rintro ⟨cs, hc⟩
  generalize hu : u :: us = us' at hc
  cases hc with
  | nil => cases hu
  | one c cs us' hc h => injection hu with h1 h2; omega
  | two y cs us' hy h => injection hu with h1 h2; omega

/-- where a text may be cut -/
theorem whole_cut {chars us : List Nat} (h : Spells chars us) : ∀ k : Nat, k ≤ us.length →
    (Whole (us.take k) ↔ (0 < k → ∀ u, us[k - 1]? = some u → ¬ High u)) ∧ (Whole (us.drop k) ↔ Whole (us.take k)) := by
  induction h with
  | nil =>
    intro k hk
    have : k = 0 := by simpa using hk
    subst this
    exact ⟨⟨fun _ h => absurd h (by omega), fun _ => ⟨[], .nil⟩⟩, Iff.rfl⟩
  | one c cs us hc hs ih =>
    intro k hk
    cases k with
    | zero =>
      exact ⟨⟨fun _ h => absurd h (by omega), fun _ => ⟨[], .nil⟩⟩, ⟨fun _ => ⟨[], .nil⟩, fun _ => ⟨_, .one c cs us hc hs⟩⟩⟩
    | succ k =>
      obtain ⟨i1, i2⟩ := ih k (by simpa using hk)
      rw [List.take_succ_cons, List.drop_succ_cons, whole_one hc]
      refine ⟨i1.trans ?_, i2⟩
      cases k with
      | zero =>
        refine ⟨fun _ _ u hu => ?_, fun _ h => absurd h (by omega)⟩
        have : c = u := by simpa using hu
        subst this
        unfold High
        omega
      | succ k => simp
  | two x cs us hx hs ih =>
    intro k hk
    match k with
    | 0 =>
      exact ⟨⟨fun _ h => absurd h (by omega), fun _ => ⟨[], .nil⟩⟩, ⟨fun _ => ⟨[], .nil⟩, fun _ => ⟨_, .two x cs us hx hs⟩⟩⟩
    | 1 =>
      have hh : High (0xD800 + x / 1024) := by unfold High; omega
      have h1 : ¬ Whole (List.take 1 ((0xD800 + x / 1024) :: (0xDC00 + x % 1024) :: us)) := not_whole_high hh
      have h2 : ¬ Whole (List.drop 1 ((0xD800 + x / 1024) :: (0xDC00 + x % 1024) :: us)) := not_whole_low (by omega)
      exact ⟨⟨fun h => absurd h h1, fun h => absurd hh (h (by omega) _ rfl)⟩, ⟨fun h => absurd h h2, fun h => absurd h h1⟩⟩
    | k + 2 =>
      obtain ⟨i1, i2⟩ := ih k (by simpa using hk)
      rw [List.take_succ_cons, List.take_succ_cons, List.drop_succ_cons, List.drop_succ_cons, whole_two hx]
      refine ⟨i1.trans ?_, i2⟩
      cases k with
      | zero =>
        refine ⟨fun _ _ u hu => ?_, fun _ h => absurd h (by omega)⟩
        have : 0xDC00 + x % 1024 = u := by simpa using hu
        subst this
        unfold High
        omega
      | succ k => simp

theorem whole_append {a b : List Nat} (ha : Whole a) (hb : Whole b) : Whole (a ++ b) := by
  obtain ⟨cs, h⟩ := ha
  induction h with
  | nil => exact hb
  | one c cs us hc _ ih => exact (whole_one hc).2 ih
  | two x cs us hx _ ih => exact (whole_two hx).2 ih

end Verif.Spec.Utf16

namespace Verif.Submit

/-- without ESC all parts but the last are full -/
theorem chunks_full {size : Nat} {rest : Str} {parts : List Str} (h : Chunks size rest parts) (h27 : 27 ∉ rest) :
    ∀ i (hi : i < parts.length), parts[i] = (rest.drop (size * i)).take size ∧ size * i < rest.length := by
  induction h with
  | nil => intro i hi; simp at hi
  | cons rest parts hne hc ih =>
    have hp : partLen size rest = size := by
      unfold partLen
      rw [if_neg]
      intro h
      exact h27 (List.mem_of_mem_take (List.mem_of_getLast? h))
    rw [hp] at ih hc
    intro i hi
    cases i with
    | zero =>
      simp only [List.getElem_cons_zero, hp, Nat.mul_zero, List.drop_zero, true_and]
      exact List.length_pos_of_ne_nil hne
    | succ i =>
      obtain ⟨h1, h2⟩ := ih (fun h => h27 (List.mem_of_mem_drop h)) i (by simpa using hi)
      rw [List.drop_drop] at h1
      rw [List.length_drop] at h2
      rw [List.getElem_cons_succ, h1, Nat.mul_succ, Nat.add_comm size]
      exact ⟨rfl, by omega⟩

end Verif.Submit

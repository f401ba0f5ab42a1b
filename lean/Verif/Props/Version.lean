import Verif.Props.Assigned
import Verif.Proofs.Numeral
/-!
# C41 continued: what is sent for every version text, and exactly which texts come back
-/
set_option autoImplicit false

namespace Verif.Props
open Verif Verif.Mms Verif.Spec.Wsp Verif.Spec.Numeral

/-- C41: what is sent for a version text, whatever the text: nothing with two dots or more; one octet for what reads as a
major version from 1 to 7, alone or with a minor version from 0 to 14; else the text itself, closed by NUL. -/
theorem C41_exact (s : Str) :
    (2 ≤ s.count 46 → encodeVersionValue (.str s) = .ok []) ∧
    (∀ a b, Short s a b → encodeVersionValue (.str s) = .ok [((128 + 16 * a + b : Nat) : Int)]) ∧
    (s.count 46 ≤ 1 → (∀ a b, ¬ Short s a b) → encodeVersionValue (.str s) = .ok (toInts (s ++ [0]))) := by
  refine ⟨C41_dots s, ?_, ?_⟩
  · intro a b h
    simp only [encodeVersionValue, versionTry_short h]
  · intro hd h
    obtain ⟨e, he⟩ := versionTry_long hd h
    simp only [encodeVersionValue, he, textOctets_eq]

theorem short_bounds {s : Str} {a b : Nat} (h : Short s a b) : 1 ≤ a ∧ a ≤ 7 ∧ b ≤ 15 := by
  cases h with
  | alone _ _ h1 h7 => exact ⟨h1, h7, by omega⟩
  | dotted _ _ _ _ _ _ _ h1 h7 h14 => exact ⟨h1, h7, by omega⟩

theorem versionStr_plain {a b : Nat} (h1 : 1 ≤ a) (h7 : a ≤ 7) (h14 : b ≤ 14) :
    versionStr a b = [48 + a, 46] ++ (if b < 10 then [48 + b] else [49, 38 + b]) := by
  have hall : ∀ a : Fin 8, ∀ b : Fin 15, 1 ≤ a.val →
      versionStr a.val b.val = [48 + a.val, 46] ++ (if b.val < 10 then [48 + b.val] else [49, 38 + b.val]) := by decide +kernel
  exact hall ⟨a, by omega⟩ ⟨b, by omega⟩ h1

theorem toInts_inj {a b : List Nat} (h : toInts a = toInts b) : a = b := by
  induction a generalizing b with
  | nil => cases b with
    | nil => rfl
    | cons y b => simp [toInts] at h
  | cons x a ih =>
    cases b with
    | nil => simp [toInts] at h
    | cons y b =>
      simp only [toInts, List.map_cons, List.cons.injEq] at h
      have h1 : x = y := by omega
      rw [h1, ih h.2]

theorem first_nul {s : Str} (h : 0 ∈ s) : ∃ p q, s = p ++ 0 :: q ∧ 0 ∉ p := by
  induction s with
  | nil => simp at h
  | cons c s ih =>
    by_cases hc : c = 0
    · exact ⟨[], s, by rw [hc]; rfl, by simp⟩
    · rcases List.mem_cons.1 h with h | h
      · exact absurd h.symm hc
      · obtain ⟨p, q, rfl, hp⟩ := ih h
        exact ⟨c :: p, q, rfl, by simp [hp, Ne.symm hc]⟩

/-- a text is read back to its end only without NUL -/
theorem text_whole {s : Str} (hs : ∀ c, s.head? = some c → c < 128)
    (h : ∀ rest, decodeVersionValue ⟨s ++ [0] ++ rest, 0⟩ = .ok s ⟨rest, 0⟩) : 0 ∉ s ∧ s.head? ≠ some 127 := by
  have hstep : ∀ rest, decodeVersionValue ⟨s ++ [0] ++ rest, 0⟩ = decodeTextString ⟨s ++ [0] ++ rest, 0⟩ := by
    intro rest
    have hne : decodeShortInteger ⟨s ++ [0] ++ rest, 0⟩ = .err .decodeError ⟨s ++ [0] ++ rest, 0⟩ := by
      cases s with
      | nil => exact decodeShortInteger_err (by decide) _
      | cons c s => exact decodeShortInteger_err (hs c rfl) _
    unfold decodeVersionValue
    rw [orDE_err (M.bind_err hne)]
  have h' := (hstep []).symm.trans (h [])
  have h0 : 0 ∉ s := by
    intro hm
    obtain ⟨p, q, rfl, hp⟩ := first_nul hm
    have hcat : p ++ 0 :: q ++ [0] ++ ([] : List Nat) = p ++ 0 :: (q ++ [0]) := by simp
    rw [hcat] at h'
    cases p with
    | nil =>
      have := decodeTextString_plain [] (by simp) (by simp) (q ++ [0]) 0
      simp only [List.nil_append] at this h'
      rw [this] at h'
      injection h' with h1 h2
      simp at h1
    | cons c p =>
      by_cases hc : c = 127
      · subst hc
        have := (C40_text_127 p (fun hm => hp (by simp [hm]))).2 (q ++ [0]) 0
        simp only [List.cons_append, List.append_assoc, List.nil_append] at this h'
        rw [this] at h'
        injection h' with h1 h2
        have := congrArg List.length h1
        simp at this
        omega
      · have := decodeTextString_plain (c :: p) hp (by simpa using hc) (q ++ [0]) 0
        simp only [List.cons_append] at this h'
        rw [this] at h'
        injection h' with h1 h2
        have := congrArg List.length h1
        simp at this
  refine ⟨h0, ?_⟩
  intro h7
  cases s with
  | nil => simp at h7
  | cons c p =>
    simp only [List.head?_cons, Option.some.injEq] at h7
    subst h7
    have := (C40_text_127 p (fun hm => h0 (by simp [hm]))).2 [] 0
    rw [show (127 :: p ++ [0] ++ ([] : List Nat)) = 127 :: p ++ [0] ++ [] from rfl] at h'
    rw [this] at h'
    injection h' with h1 h2
    have := congrArg List.length h1
    simp at this

/-- C41: a version text comes back exactly in two cases: it is `a.b` with `a` from 1 to 7 and `b` from 0 to 14 and nothing
else, or it is sent as text, without NUL and beginning with a character below 127 (or empty). -/
theorem C41_round_trip_iff (s : Str) (ho : ∀ c ∈ s, c < 256) :
    (∃ l : List Nat, encodeVersionValue (.str s) = .ok (toInts l) ∧
      ∀ rest, decodeVersionValue ⟨l ++ rest, 0⟩ = .ok s ⟨rest, 0⟩) ↔
    Plain s ∨ (s.count 46 ≤ 1 ∧ (∀ a b, ¬ Short s a b) ∧ 0 ∉ s ∧ ∀ c, s.head? = some c → c < 127) := by
  obtain ⟨h2, hshort, htext⟩ := C41_exact s
  constructor
  · rintro ⟨l, he, hd⟩
    by_cases hc : s.count 46 ≤ 1
    · by_cases hs : ∃ a b, Short s a b
      · obtain ⟨a, b, hs⟩ := hs
        left
        rw [hshort a b hs] at he
        injection he with he
        have hl : l = [128 + 16 * a + b] := toInts_inj (he.symm.trans rfl)
        obtain ⟨h1, h7, h15⟩ := short_bounds hs
        have := hd []
        rw [hl, List.append_nil, decodeVersionValue_octet (by omega) (by omega)] at this
        rw [show (128 + 16 * a + b - 128) / 16 = a by omega, show (128 + 16 * a + b) % 16 = b by omega] at this
        injection this with this
        cases hs with
        | alone _ hn _ _ => exact absurd (by rw [← this]; simp [versionStr]) (numeral_no_dot hn)
        | dotted _ _ _ _ _ _ _ _ _ h14 => exact ⟨a, b, h1, h7, h14, by rw [← this, versionStr_plain h1 h7 h14]⟩
      · right
        have hs : ∀ a b, ¬ Short s a b := fun a b h => hs ⟨a, b, h⟩
        rw [htext hc hs] at he
        injection he with he
        have hl := toInts_inj he
        subst hl
        have h128 : ∀ c, s.head? = some c → c < 128 := by
          intro c hh
          cases s with
          | nil => simp at hh
          | cons x s =>
            simp only [List.head?_cons, Option.some.injEq] at hh
            subst hh
            by_contra hx
            have := hd []
            simp only [List.cons_append] at this
            rw [decodeVersionValue_octet (by omega) (ho x (by simp))] at this
            injection this with _ this
            simp at this
        obtain ⟨h0, h7⟩ := text_whole h128 hd
        refine ⟨hc, hs, h0, ?_⟩
        intro c hh
        have := h128 c hh
        have : c ≠ 127 := fun e => h7 (e ▸ hh)
        omega
    · rw [h2 (by omega)] at he
      injection he with he
      have hl : l = [] := toInts_inj (he.symm.trans rfl)
      have := hd []
      rw [hl] at this
      revert this
      have : ∀ r it, decodeVersionValue ⟨[] ++ [], 0⟩ ≠ .ok r it := by
        intro r it h
        have : decodeVersionValue ⟨[], 0⟩ = .err .stopIteration ⟨[], 0⟩ := by decide +kernel
        rw [List.append_nil, this] at h
        cases h
      exact fun h => absurd h (this _ _)
  · rintro (⟨a, b, h1, h7, h14, rfl⟩ | ⟨hc, hs, h0, h7⟩)
    · rw [← versionStr_plain h1 h7 h14]
      obtain ⟨o, h, -, -, hd⟩ := C41_canonical_partial a b h1 h7 h14
      exact ⟨[o], h, fun rest => hd rest⟩
    · obtain ⟨e, he⟩ := versionTry_long hc hs
      exact version_text he h0 h7

-- white space, a sign and leading zeros make the short form, but are lost
example : Short (py! " + 01.\t2 ") 1 2 :=
  .dotted (py! " + 01") (py! "\t2 ") 1 2 rfl
    ⟨py! " ", py! "+", py! " ", py! "01", [], rfl, by unfold Blank; decide, by unfold Blank; decide, by unfold Blank; decide, by unfold Digits; decide, by decide⟩
    ⟨py! "\t", [], [], py! "2", py! " ", rfl, by unfold Blank; decide, by unfold Blank; decide, by unfold Blank; decide, by unfold Digits; decide, by decide⟩ (by omega) (by omega) (by omega)
example : Plain (py! "1.3") := ⟨1, 3, by omega, by omega, by omega, by decide⟩
-- sent as text and read back
example : (py! "1.15" : Str).count 46 ≤ 1 ∧ versionTry (py! "1.15") = .error .valueError := by decide +kernel

end Verif.Props

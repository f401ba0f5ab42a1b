import Verif.Props.Accepted
import Verif.Props.Deliver
/-!
# Which strings are received short messages
-/
set_option autoImplicit false

namespace Verif.Props
open Verif Verif.Spec Verif.Spec.Sms Verif.Spec.Accepted
open Verif.Deliver (smsDeliver State)

theorem hexVal_digit (c n : Nat) : hexVal c = some n ↔ Digit c n := by
  unfold hexVal Digit
  split
  · rw [Option.some.injEq]; omega
  · split
    · rw [Option.some.injEq]; omega
    · split
      · rw [Option.some.injEq]; omega
      · constructor
        · intro h; cases h
        · intro h; omega

theorem hexVal_not {c : Nat} (h : hexVal c = none) (n : Nat) : ¬ Digit c n := fun hd => by
  rw [(hexVal_digit c n).2 hd] at h; cases h

theorem isSpace_blank (c : Nat) : isSpace c = true ↔ Blank c := by
  unfold isSpace Blank
  simp

theorem blank_not {c n : Nat} (h : Blank c) : ¬ Digit c n := by unfold Blank at h; unfold Digit; omega

theorem pyInt16_pair (a b : Nat) (n : Nat) : pyInt16 [a, b] = .ok (n : Int) ↔ Pair a b n := by
  constructor
  · intro h
    unfold pyInt16 at h
    cases ha : hexVal a with
    | some x =>
      cases hb : hexVal b with
      | some y =>
        simp only [ha, hb, Except.ok.injEq] at h
        have : n = 16 * x + y := by omega
        subst this
        exact .digits a b x y ((hexVal_digit a x).1 ha) ((hexVal_digit b y).1 hb)
      | none =>
        simp only [ha, hb] at h
        split at h
        · rename_i hs
          have : n = x := by cases h; rfl
          subst this
          exact .after a b _ ((hexVal_digit a _).1 ha) ((isSpace_blank b).1 hs)
        · cases h
    | none =>
      cases hb : hexVal b with
      | some y =>
        have hy := (hexVal_digit b y).1 hb
        simp only [ha, hb] at h
        split at h
        · rename_i hs
          have : n = y := by cases h; rfl
          subst this
          rw [Bool.or_eq_true] at hs
          rcases hs with hs | hs
          · exact .before a b _ ((isSpace_blank a).1 hs) hy
          · have : a = 43 := by simpa using hs
            subst this
            exact .plus b _ hy
        · split at h
          · rename_i hs
            have : a = 45 := by simpa using hs
            subst this
            simp only [Except.ok.injEq] at h
            have h0 : n = 0 ∧ y = 0 := by omega
            obtain ⟨rfl, rfl⟩ := h0
            have : b = 48 := by unfold Digit at hy; omega
            subst this
            exact .minus
          · cases h
      | none => simp only [ha, hb] at h; cases h
  · intro h
    unfold pyInt16
    cases h with
    | digits _ _ x y hx hy => simp only [(hexVal_digit _ _).2 hx, (hexVal_digit _ _).2 hy]
    | before _ _ _ hx hy =>
      have : hexVal a = none := by
        cases ha : hexVal a with
        | none => rfl
        | some x => exact absurd ((hexVal_digit a x).1 ha) (blank_not hx)
      simp only [this, (hexVal_digit _ _).2 hy, (isSpace_blank a).2 hx, Bool.true_or, if_true]
    | after _ _ _ hx hy =>
      have : hexVal b = none := by
        cases ha : hexVal b with
        | none => rfl
        | some x => exact absurd ((hexVal_digit b x).1 ha) (blank_not hy)
      simp only [this, (hexVal_digit _ _).2 hx, (isSpace_blank b).2 hy, if_true]
    | plus _ _ hy => simp only [show hexVal 43 = none from rfl, (hexVal_digit _ _).2 hy]; rfl
    | minus => rfl

theorem toArray_spells : ∀ (s : Str) (o : List Nat), s.length % 2 = 0 → (toArray s = .ok o ↔ Spells s o)
  | [], o, _ => by
    constructor
    · intro h; cases h; exact .nil
    · intro h; cases h; rfl
  | [_], _, h => by simp at h
  | a :: b :: r, o, h => by
    have hr : r.length % 2 = 0 := by simp only [List.length_cons] at h; omega
    have ih := toArray_spells r
    constructor
    · intro h
      unfold toArray at h
      obtain ⟨xs, h1, h⟩ := Deliver.ebind_ok h
      unfold parseHexPairs at h1
      obtain ⟨x, hx, h1⟩ := Deliver.ebind_ok h1
      obtain ⟨ys, hy, h1⟩ := Deliver.ebind_ok h1
      cases h1
      rw [List.any_cons] at h
      split at h
      · cases h
      · rename_i hn
        rw [Bool.or_eq_true, not_or] at hn
        cases h
        obtain ⟨n, rfl⟩ : ∃ n : Nat, x = n := ⟨x.toNat, by have := hn.1; simp at this; omega⟩
        refine .cons a b n r (ys.map Int.toNat) ((pyInt16_pair a b n).1 hx) ((ih _ hr).1 ?_)
        unfold toArray
        rw [hy]
        change (if _ then _ else _) = _
        rw [if_neg hn.2]
    · intro h
      cases h with
      | cons _ _ n _ o hp hs =>
        have h2 := (ih o hr).2 hs
        unfold toArray at h2 ⊢
        obtain ⟨ys, hy, h2⟩ := Deliver.ebind_ok h2
        unfold parseHexPairs
        rw [(pyInt16_pair a b n).2 hp, hy]
        split at h2
        · cases h2
        · rename_i hn
          cases h2
          change (if _ then _ else _) = _
          rw [List.any_cons, if_neg]
          · rfl
          · rw [Bool.or_eq_true, not_or]
            exact ⟨by simp, hn⟩

theorem spells_even {s o : List Nat} (h : Spells s o) : s.length = 2 * o.length := by
  induction h with
  | nil => rfl
  | cons a b n s o hp hs ih => simp only [List.length_cons, ih]; omega

/-- C83: what a string shows is what the octets it spells show.  Without `strict` a last single character is ignored. -/
theorem C83_octets (p : Str) (o : List Nat) (strict : Bool)
    (h : Spells (if strict = false ∧ p.length % 2 = 1 then p.dropLast else p) o) :
    (∀ x ∈ o, x < 256) ∧ noPdu (smsDeliver p strict) = noPdu (smsDeliver (hexUpper o) strict) := by
  have he : (if strict = false ∧ p.length % 2 = 1 then p.dropLast else p) = Deliver.trim strict p := by
    unfold Deliver.trim
    cases strict <;> simp
  rw [he] at h
  have hl : (Deliver.trim strict p).length % 2 = 0 := by rw [spells_even h]; omega
  have ha := (toArray_spells _ o hl).2 h
  have hb := Deliver.toArray_lt ha
  refine ⟨hb, ?_⟩
  rw [Deliver.smsDeliver_eq, Deliver.smsDeliver_eq, Deliver.setP_hex hb, Deliver.setP]
  change noPdu (if (Deliver.trim strict p).length % 2 ≠ 0 then _ else _) = _
  rw [if_neg (by omega)]
  change noPdu ((toArray (Deliver.trim strict p)).bind _) = _
  rw [ha]
  change noPdu ((Deliver.pduP o).bind _) = _
  cases hp : Deliver.pduP o with
  | error e => rfl
  | ok f =>
    simp only [Except.bind]
    change noPdu (.ok (f { State.fresh strict with pdu := some (Deliver.trim strict p) })) = _
    rw [Deliver.pduP_pdu hp (State.fresh strict) (some (Deliver.trim strict p)),
      Deliver.pduP_pdu hp (State.fresh strict) (some (hexUpper o))]
    rfl

/-- a string with a space, a sign and both cases, and one that spells nothing -/
example : Spells (py! "+7 9bC-04\n") [7, 9, 0xbc, 0, 4] :=
  .cons _ _ _ _ _ (.plus _ _ (by unfold Digit; decide)) (.cons _ _ _ _ _ (.before _ _ _ (by unfold Blank; decide) (by unfold Digit; decide))
    (.cons _ _ _ _ _ (.digits _ _ 11 12 (by unfold Digit; decide) (by unfold Digit; decide)) (.cons _ _ _ _ _ .minus
      (.cons _ _ _ _ _ (.after _ _ _ (by unfold Digit; decide) (by unfold Blank; decide)) .nil))))

/-- C83: any string is decoded if and only if it spells octets, two characters each, that have this form. -/
theorem C83_strings (p : Str) (strict : Bool) :
    (∃ d, smsDeliver p strict = .ok d) ↔
      ∃ o, Spells (if strict = false ∧ p.length % 2 = 1 then p.dropLast else p) o ∧ Frame o := by
  have key : ∀ o, Spells (if strict = false ∧ p.length % 2 = 1 then p.dropLast else p) o →
      ((∃ d, smsDeliver p strict = .ok d) ↔ Frame o) := by
    intro o h
    obtain ⟨hb, hn⟩ := C83_octets p o strict h
    rw [← C83_accepted o hb strict]
    unfold noPdu at hn
    cases h1 : smsDeliver p strict <;> cases h2 : smsDeliver (hexUpper o) strict <;> simp_all [Except.map]
  constructor
  · intro hd
    have he : (if strict = false ∧ p.length % 2 = 1 then p.dropLast else p) = Deliver.trim strict p := by
      unfold Deliver.trim
      cases strict <;> simp
    have : ∃ o, Spells (Deliver.trim strict p) o := by
      obtain ⟨d, hd⟩ := hd
      rw [Deliver.smsDeliver_eq, Deliver.setP] at hd
      change (if (Deliver.trim strict p).length % 2 ≠ 0 then _ else _) = _ at hd
      split at hd
      · cases hd
      · obtain ⟨o, ho, _⟩ := Deliver.ebind_ok hd
        exact ⟨o, (toArray_spells _ o (by omega)).1 ho⟩
    obtain ⟨o, ho⟩ := this
    rw [← he] at ho
    exact ⟨o, ho, (key o ho).1 hd⟩
  · rintro ⟨o, ho, hF⟩
    exact (key o ho).2 hF

/-- a message written with a space for the first 0 -/
example : ∃ d, smsDeliver (32 :: (hexUpper sampleDeliver.octets).tail) = .ok d := ⟨_, rfl⟩
example : ∀ o, ¬ Spells (py! "0x") o := fun o h => by
  cases h with
  | cons _ _ n _ _ hp _ => rw [← pyInt16_pair] at hp; cases hp

end Verif.Props

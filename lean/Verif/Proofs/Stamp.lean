import Verif.Proofs.Calendar
import Verif.Proofs.Deliver
import Verif.Proofs.Hex
/-!
# Lemmas about time stamps of received PDUs
-/
set_option autoImplicit false

namespace Verif.Cal
open Verif Verif.Spec.Time

theorem twoDigits_hexDig : ∀ i ∈ List.range 16, ∀ j ∈ List.range 16,
    twoDigits (hexDig i) (hexDig j) = if i < 10 ∧ j < 10 then some (i * 10 + j) else none := by decide

theorem twoDigits_semi {x : Nat} (h : x < 256) : twoDigits (hexDig (x % 16)) (hexDig (x / 16)) = semi x :=
  twoDigits_hexDig _ (List.mem_range.2 (by omega)) _ (List.mem_range.2 (by omega))

/-- a `datetime` without zone -/
def ofCivil (c : Civil) : DateTime :=
  { year := c.year, month := c.month, day := c.day, hour := c.hour, minute := c.minute, second := c.second }

theorem civil_ofCivil (c : Civil) : civil (ofCivil c) = c := rfl

theorem ofCivil_civil {d : DateTime} (h : d.off = none) : ofCivil (civil d) = d := by
  cases d; simp only [ofCivil, civil] at *; rw [h]

theorem ofCivil_inj {c d : Civil} (h : ofCivil c = ofCivil d) : c = d := by
  rw [← civil_ofCivil c, h, civil_ofCivil]

theorem swap_octet {x : Nat} (h : x < 256) (r : List Nat) :
    swapPairs (encodeStr (x :: r)) = hexDig (x % 16) :: hexDig (x / 16) :: swapPairs (encodeStr r) := by
  rw [encodeStr_cons, hex02, if_pos h]; rfl

theorem swap_short : ∀ {o : List Nat}, (∀ x ∈ o, x < 256) → (swapPairs (encodeStr o)).length = 2 * o.length
  | [], _ => rfl
  | x :: o, h => by
    rw [swap_octet (h x (by simp)), List.length_cons, List.length_cons,
      swap_short (fun y hy => h y (by simp [hy])), List.length_cons]
    omega

/-- `strptime` reads the six octets of a time stamp -/
theorem strptime_octets {o : List Nat} (h : ∀ x ∈ o, x < 256) :
    (∀ c, readCivil o = some c → strptime ((swapPairs (encodeStr o)).take 12) = .ok (ofCivil c)) ∧
    (readCivil o = none → ∃ e, strptime ((swapPairs (encodeStr o)).take 12) = .error e ∧
      (e = .valueError ∨ (e = .typeError ∧ o.length < 6))) := by
  by_cases hl : o.length < 6
  · have hc : readCivil o = none := by
      unfold readCivil
      split
      · simp only [List.length_cons] at hl; omega
      · rfl
    refine ⟨fun c hc' => absurd (hc.symm.trans hc') (by simp), fun _ => ⟨.typeError, ?_, .inr ⟨rfl, hl⟩⟩⟩
    have hlen := swap_short h
    unfold strptime
    split
    · rename_i heq
      have := congrArg List.length heq
      rw [List.length_take] at this
      simp only [List.length_cons, List.length_nil] at this
      omega
    · rfl
  · obtain ⟨a, b, c, d, e, f, r, rfl⟩ : ∃ a b c d e f r, o = a :: b :: c :: d :: e :: f :: r := by
      match o, hl with
      | a :: b :: c :: d :: e :: f :: r, _ => exact ⟨a, b, c, d, e, f, r, rfl⟩
      | [], h | [_], h | [_, _], h | [_, _, _], h | [_, _, _, _], h | [_, _, _, _, _], h => simp at h
    · have ha := h a (by simp)
      have hb := h b (by simp)
      have hc := h c (by simp)
      have hd := h d (by simp)
      have he := h e (by simp)
      have hf := h f (by simp)
      rw [swap_octet ha, swap_octet hb, swap_octet hc, swap_octet hd, swap_octet he, swap_octet hf]
      simp only [List.take_succ_cons, List.take_zero, strptime, twoDigits_semi ha, twoDigits_semi hb, twoDigits_semi hc,
        twoDigits_semi hd, twoDigits_semi he, twoDigits_semi hf, readCivil]
      cases semi a with
      | none => exact ⟨by simp, fun _ => ⟨_, rfl, .inl rfl⟩⟩
      | some yy =>
      cases semi b with
      | none => exact ⟨by simp, fun _ => ⟨_, rfl, .inl rfl⟩⟩
      | some mo =>
      cases semi c with
      | none => exact ⟨by simp, fun _ => ⟨_, rfl, .inl rfl⟩⟩
      | some dd =>
      cases semi d with
      | none => exact ⟨by simp, fun _ => ⟨_, rfl, .inl rfl⟩⟩
      | some hh =>
      cases semi e with
      | none => exact ⟨by simp, fun _ => ⟨_, rfl, .inl rfl⟩⟩
      | some mi =>
      cases semi f with
      | none => exact ⟨by simp, fun _ => ⟨_, rfl, .inl rfl⟩⟩
      | some ss =>
        have hcent : (if yy ≤ 68 then 2000 + yy else 1900 + yy) = century yy := by
          unfold century; split <;> split <;> omega
        simp only [hcent]
        by_cases hv : (⟨century yy, mo, dd, hh, mi, ss⟩ : Civil).Valid
        · have hv' : DateTime.valid (ofCivil ⟨century yy, mo, dd, hh, mi, ss⟩) = true := (valid_iff _).2 hv
          rw [if_pos hv]
          constructor
          · intro c hc
            cases hc
            exact if_pos hv'
          · intro hc; cases hc
        · have hv' : ¬ DateTime.valid (ofCivil ⟨century yy, mo, dd, hh, mi, ss⟩) = true :=
            fun hx => hv ((valid_iff _).1 hx)
          rw [if_neg hv]
          exact ⟨by simp, fun _ => ⟨_, if_neg hv', .inl rfl⟩⟩

theorem readStamp_civil {o : List Nat} {t : Stamp} (h : readStamp o = some t) (hv : t.civil.Valid) :
    ∃ stamp z, o = stamp ++ [z] ∧ stamp.length = 6 ∧ readCivil stamp = some t.civil ∧ zone z = some t.quarters := by
  unfold readStamp at h
  split at h
  · rename_i a b c d e f z
    split at h
    · rename_i h1 h2 h3 h4 h5 h6 h7
      cases h
      refine ⟨[a, b, c, d, e, f], z, rfl, rfl, ?_, h7⟩
      simp only [readCivil, h1, h2, h3, h4, h5, h6]
      exact if_pos hv
    · cases h
  · cases h

theorem zoneMinutes_table : ∀ z ∈ List.range 256, ∀ q, zone z = some q → Deliver.zoneMinutes z = q * 15 := by
  decide +kernel

theorem zoneMinutes_ok {z : Nat} {q : Int} (hz : z < 256) (h : zone z = some q) : Deliver.zoneMinutes z = q * 15 :=
  zoneMinutes_table z (List.mem_range.2 hz) q h

end Verif.Cal

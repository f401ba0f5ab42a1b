import Verif.Proofs.Submit5
/-!
# Ids over a history of calls
-/
set_option autoImplicit false

namespace Verif.Submit
open Verif Verif.Spec Verif.Spec.Sms Verif.Spec.Submit

/-- what a user does with an `SmsSubmit`: assign an attribute or call `to_pdu` -/
inductive Op
  | call
  | number (x : Option Str)
  | csca (x : Option Str)
  | klass (k : KlassArg)
  | validity (v : Validity)
  | requestStatus (b : Bool)
  | ref (r : Option Int)
  | randId (r : Option Int)
  | pid (p : Int)
  | text (t : PyStr)
  | fmt (f : Option Nat)

/-- the object after the operation, whether or not it raised -/
def step (s : State) : Op → State
  | .call => (toPdu s).state
  | .number x => (setNumber x s).state
  | .csca x => (setCsca x s).state
  | .klass k => (setKlass k s).state
  | .validity v => { s with validity := v }
  | .requestStatus b => { s with requestStatus := b }
  | .ref r => { s with ref := r }
  | .randId r => { s with randId := r }
  | .pid p => { s with pid := p }
  | .text t => { s with text := t }
  | .fmt f => { s with fmt := f }

/-- the object after a history -/
def run (s : State) (ops : List Op) : State := ops.foldl step s

theorem step_ids (s : State) (op : Op) (h : op ≠ .call) : (step s op).idList = s.idList := by
  cases op with
  | call => exact absurd rfl h
  | number x =>
    simp only [step, setNumber]
    cases x with
    | none => rfl
    | some x => simp only []; split <;> rfl
  | csca x =>
    simp only [step, setCsca]
    cases x with
    | none => rfl
    | some x => simp only []; split <;> rfl
  | klass k =>
    simp only [step, setKlass]
    cases k with
    | notInt => rfl
    | int k => simp only []; split <;> rfl
  | validity v => rfl
  | requestStatus b => rfl
  | ref r => rfl
  | randId r => rfl
  | pid p => rfl
  | text t => rfl
  | fmt f => rfl

theorem drawn_of_ids {s s' : State} {c : Nat} (h : s'.idList = s.idList) (hd : Drawn s c) : Drawn s' c := by
  unfold Drawn at hd ⊢; rw [h]; exact hd

theorem step_draws (s : State) (op : Op) (c : Nat) (h : Drawn s c) : ∃ j ≤ 2, Drawn (step s op) (c + j) := by
  by_cases hc : op = .call
  · subst hc
    exact draws_toPdu s c h
  · exact ⟨0, by omega, drawn_of_ids (step_ids s op hc) h⟩

theorem init_drawn {n : Option Str} {t : PyStr} {s : State} (h : init n t = .ok s) : Drawn s 0 := by
  have key : s.idList = List.range 255 → Drawn s 0 := fun h => .inr (by rw [h]; simp only [Nat.zero_mod, List.drop_zero])
  apply key
  unfold init at h
  simp only [] at h
  split at h
  · rename_i s0 hs
    simp only [Except.ok.injEq] at h
    subst h
    unfold setNumber at hs
    cases n with
    | none => simp only [M.modify, Res.ok.injEq, true_and] at hs; rw [← hs]
    | some x =>
      simp only [] at hs
      split at hs
      · cases hs
      · simp only [M.modify, Res.ok.injEq, true_and] at hs; rw [← hs]
  · cases h

theorem run_drawn {n : Option Str} {t : PyStr} {s : State} (h : init n t = .ok s) (ops : List Op) :
    ∃ c, c ≤ 2 * ops.length ∧ Drawn (run s ops) c := by
  suffices ∀ s c, Drawn s c → ∃ j, j ≤ 2 * ops.length ∧ Drawn (run s ops) (c + j) by
    obtain ⟨j, h1, h2⟩ := this s 0 (init_drawn h)
    rw [Nat.zero_add] at h2
    exact ⟨j, h1, h2⟩
  clear h
  induction ops with
  | nil => intro s c hd; exact ⟨0, by simp, hd⟩
  | cons op ops ih =>
    intro s c hd
    obtain ⟨j, hj, hd⟩ := step_draws s op c hd
    obtain ⟨k, hk, hd⟩ := ih _ _ hd
    refine ⟨j + k, ?_, by rw [← Nat.add_assoc]; exact hd⟩
    rw [List.length_cons]; omega

theorem drawn_mr {s : State} {c : Nat} (h : Drawn s c) : s.ref = none → mrOf s = c % 255 := by
  intro hr
  unfold mrOf
  rw [hr]
  simp only [(nextId_drawn h).1]
  omega

theorem drawn_afterRef {s : State} {c : Nat} (h : Drawn s c) :
    Drawn (afterRef s) (c + if s.ref = none then 1 else 0) := by
  unfold afterRef
  split
  · rename_i hr
    rw [if_pos hr]
    exact (nextId_drawn h).2 _ rfl
  · rename_i r hr
    rw [hr]
    exact h

theorem drawn_cr {s : State} {c : Nat} (h : Drawn s c) : s.randId = none → crOf s = c % 255 := by
  intro hr
  unfold crOf
  rw [hr]
  simp only [(nextId_drawn h).1]
  omega

theorem drawn_afterSplit {s : State} {c : Nat} (h : Drawn s c) :
    Drawn (afterSplit s) (c + if s.randId = none then 1 else 0) := by
  unfold afterSplit
  split
  · rename_i hr
    rw [if_pos hr]
    exact (nextId_drawn h).2 _ rfl
  · rename_i r hr
    rw [hr]
    exact h

theorem splitSms_ids {c : Coding} {t : PyStr} {s s' : State} {ms : List Str} (h : splitSmsMessage c t s = .ok ms s') :
    s' = afterSplit s := by
  obtain ⟨parts, hp, _⟩ := splitLoop_ok t.s c.mpSize (by cases c <;> decide)
  rw [splitSmsMessage_eq c t s hp] at h
  cases hx : packParts c t.uni (crOf s) parts.length 0 parts with
  | error e => rw [hx] at h; cases h
  | ok x => rw [hx] at h; cases h; rfl

theorem lift_bind_inv {α β : Type} {x : Py α} {f : α → M State β} {st st' : State} {b : β}
    (h : (M.lift x >>= f) st = .ok b st') : ∃ a, x = .ok a ∧ f a st = .ok b st' := by
  cases x with
  | ok a => exact ⟨a, rfl, h⟩
  | error e => cases h

/-- ids used by the user data part of a successful call -/
theorem bodyM_ids {f : Nat} {t : PyStr} {s s' : State} {ms : List Str} (h : bodyM f t s = .ok ms s') :
    s'.idList = if ms.length = 1 then s.idList else (afterSplit s).idList := by
  have hp : ∀ {x : Py Str} {s s' : State},
      (M.lift x >>= fun m => (pure [m] : M State (List Str))) s = .ok ms s' → ms.length = 1 ∧ s' = s := by
    intro x s s' h
    obtain ⟨a, _, h⟩ := lift_bind_inv h
    cases h
    exact ⟨rfl, rfl⟩
  have hs : ∀ {c : Coding} {t : PyStr} {s s' : State}, c.mpSize < t.s.length → splitSmsMessage c t s = .ok ms s' →
      ms.length ≠ 1 ∧ s' = afterSplit s := by
    intro c t s s' hl h
    have h2 : splitP c t (crOf s) = .ok ms := by rw [← splitSms_val, h]; rfl
    have := splitP_length hl h2
    exact ⟨by omega, splitSms_ids h⟩
  unfold bodyM at h
  split at h
  · obtain ⟨g, _, h⟩ := lift_bind_inv h
    rw [M.bind_ok (M.modify_apply _ _)] at h
    split at h
    · obtain ⟨h1, h2⟩ := hp h
      rw [if_pos h1, h2]
    · rename_i hl
      obtain ⟨h1, h2⟩ := hs (by
        simp only [SEVENBIT_SIZE] at hl
        simp only [Coding.mpSize, SEVENBIT_MP_SIZE, SEVENBIT_SIZE]
        omega) h
      rw [if_neg h1, h2]
      unfold afterSplit
      cases s.randId <;> rfl
  · split at h
    · split at h
      · obtain ⟨h1, h2⟩ := hp h
        rw [if_pos h1, h2]
      · rename_i hl
        obtain ⟨h1, h2⟩ := hs (by
          simp only [EIGHTBIT_SIZE] at hl
          simp only [Coding.mpSize, EIGHTBIT_MP_SIZE, EIGHTBIT_SIZE]
          omega) h
        rw [if_neg h1, h2]
    · split at h
      · split at h
        · obtain ⟨h1, h2⟩ := hp h
          rw [if_pos h1, h2]
        · rename_i hl
          obtain ⟨h1, h2⟩ := hs (by
            simp only [UCS2_SIZE] at hl
            simp only [Coding.mpSize, UCS2_MP_SIZE, UCS2_SIZE]
            omega) h
          rw [if_neg h1, h2]
      · cases h

/-- ids used by a successful call -/
theorem toPdu_ids {s s' : State} {ps : List Pdu} (h : toPdu s = .ok ps s') :
    s'.idList = if ps.length = 1 then (afterRef s).idList else (afterSplit (afterRef s)).idList := by
  unfold toPdu at h
  rw [M.bind_ok (M.get_apply s)] at h
  obtain ⟨smsc, _, h⟩ := lift_bind_inv h
  obtain ⟨submit, _, h⟩ := lift_bind_inv h
  rw [M.bind_ok (getTpmessrefPdu_eq s)] at h
  obtain ⟨phone, _, h⟩ := lift_bind_inv h
  obtain ⟨pid, _, h⟩ := lift_bind_inv h
  replace h := (bind_congr (fun msgs st =>
    frame_eq s.validity s.requestStatus smsc submit (encodeStr [mrOf s]) phone pid msgs st) _).symm.trans h
  rw [M.bind_apply] at h
  cases hm : getMsgPdu (afterRef s) with
  | err e s2 => rw [hm] at h; cases h
  | ok msgs s2 =>
    rw [hm] at h
    simp only at h
    cases hf : frameP s.validity s.requestStatus smsc submit (encodeStr [mrOf s]) phone pid msgs with
    | error e => rw [hf] at h; cases h
    | ok x =>
      rw [hf] at h
      cases h
      rw [frameP_length hf]
      rw [getMsgPdu_eq] at hm
      obtain ⟨d, _, hm⟩ := lift_bind_inv hm
      obtain ⟨vp, _, hm⟩ := lift_bind_inv hm
      rw [M.bind_apply] at hm
      cases hb : bodyM (effFmt (afterRef s)) (afterRef s).text (withDcs (afterRef s)) with
      | err e s3 => rw [hb] at hm; cases hm
      | ok bs s3 =>
        rw [hb] at hm
        cases hm
        rw [List.length_map, bodyM_ids hb]
        split
        · rfl
        · unfold afterSplit withDcs
          cases (afterRef s).randId <;> rfl

theorem toPdu_drawn {s s' : State} {ps : List Pdu} {c : Nat} (hd : Drawn s c) (h : toPdu s = .ok ps s') :
    Drawn s' (c + (if s.ref = none then 1 else 0) + (if ps.length ≠ 1 ∧ s.randId = none then 1 else 0)) := by
  have h1 := drawn_afterRef hd
  have h2 := toPdu_ids h
  have h3 := (afterRef_fields s).2.2.2.2.2.2.2.2
  by_cases hl : ps.length = 1
  · rw [if_pos hl] at h2
    have : ¬ (ps.length ≠ 1 ∧ s.randId = none) := fun h => h.1 hl
    simp only [this, if_false, Nat.add_zero]
    exact drawn_of_ids h2 h1
  · rw [if_neg hl] at h2
    have h4 := drawn_afterSplit h1
    rw [h3] at h4
    have : (if s.randId = none then 1 else 0) = (if ps.length ≠ 1 ∧ s.randId = none then 1 else 0) := by simp [hl]
    rw [this] at h4
    exact drawn_of_ids h2 h4

end Verif.Submit

import Verif.Proofs.Submit4
/-!
# What the result of `to_pdu` depends on
-/
set_option autoImplicit false

namespace Verif

/-- result of a call, without the object -/
def Res.val {σ α : Type} : Res σ α → Py α
  | .ok a _ => .ok a
  | .err e _ => .error e

theorem Res.val_ok {σ α : Type} {r : Res σ α} {a : α} (h : r.val = .ok a) : r = .ok a r.state := by
  cases r with
  | ok x s => simp only [Res.val, Except.ok.injEq] at h; subst h; rfl
  | err e s => simp [Res.val] at h

theorem M.val_lift_bind {σ α β : Type} (x : Py α) (f : α → M σ β) (s : σ) :
    ((M.lift x >>= f) s).val = x.bind (fun a => (f a s).val) := by
  cases x <;> rfl

namespace Submit
open Verif Verif.Spec

/-- submit.py:242-266 and 270-324 as a function of the coding, the text and the concatenation reference -/
def splitP (c : Coding) (t : PyStr) (cr : Nat) : Py (List Str) :=
  (splitLoop t.s t.s.length c.mpSize (t.s.length + 1) 0 c.mpSize).bind fun msgs =>
    packParts c t.uni cr msgs.length 0 msgs

/-- user data of each part -/
def bodyP (f : Nat) (t : PyStr) (cr : Nat) : Py (List Str) :=
  if f = 0x00 then
    (Gsm.encode t).bind fun g =>
      if g.length ≤ SEVENBIT_SIZE then (pack7 g none).bind fun m => .ok [m]
      else splitP .gsm7 ⟨false, g⟩ cr
  else if f = 0x04 then
    if t.s.length ≤ EIGHTBIT_SIZE then (pack8 t none).bind fun m => .ok [m] else splitP .bin8 t cr
  else if f = 0x08 then
    if t.s.length ≤ UCS2_SIZE then (packUcs2 t none).bind fun m => .ok [m] else splitP .ucs2 t cr
  else .error .valueError

theorem splitSms_val (c : Coding) (t : PyStr) (s : State) : (splitSmsMessage c t s).val = splitP c t (crOf s) := by
  obtain ⟨parts, hp, _⟩ := splitLoop_ok t.s c.mpSize (by cases c <;> decide)
  rw [splitSmsMessage_eq c t s hp, splitP, hp]
  simp only [Except.bind]
  cases packParts c t.uni (crOf s) parts.length 0 parts <;> rfl

theorem bodyM_val (f : Nat) (t : PyStr) (s : State) : (bodyM f t s).val = bodyP f t (crOf s) := by
  have hp : ∀ (x : Py Str) (s : State), ((M.lift x >>= fun m => (pure [m] : M State (List Str))) s).val =
      x.bind fun m => .ok [m] := by
    intro x s; cases x <;> rfl
  unfold bodyM bodyP
  split
  · rw [M.val_lift_bind]
    congr 1
    funext g
    rw [M.bind_ok (M.modify_apply _ _)]
    split
    · exact hp _ _
    · exact splitSms_val _ _ _
  · split
    · split
      · exact hp _ _
      · exact splitSms_val _ _ _
    · split
      · split
        · exact hp _ _
        · exact splitSms_val _ _ _
      · rfl

/-- the PDUs from the already coded fields -/
def frameP (v : Validity) (srr : Bool) (smsc submit ref phone pid : Str) (msgs : List Str) : Py (List Pdu) :=
  match msgs with
  | [m] => .ok [mkPdu (smsc ++ submit ++ ref ++ phone ++ pid ++ m) (smsc.length / 2) 1 1]
  | ms => (getSmsSubmitPdu v srr true).bind fun submit =>
      .ok (mkPdus (smsc ++ submit ++ ref ++ phone ++ pid) (smsc.length / 2) ms.length 0 ms)

/-- `to_pdu` as a function of the settings and the two references -/
def toPduP (csca : Option Str) (v : Validity) (srr : Bool) (mr : Nat) (number : Option Str) (pid : Int) (f : Nat)
    (klass : Option Nat) (t : PyStr) (cr : Nat) : Py (List Pdu) :=
  (getSmscPdu csca).bind fun smsc => (getSmsSubmitPdu v srr false).bind fun submit =>
  (getPhonePdu number).bind fun phone => (getTppidPdu pid).bind fun pid =>
  (pyChr (dcsOf f klass)).bind fun d => (vpPdu v).bind fun vp => (bodyP f t cr).bind fun msgs =>
    frameP v srr smsc submit (encodeStr [mr]) phone pid (msgs.map (fun m => encodeStr [d] ++ vp ++ m))

theorem getMsgPdu_val (s : State) : (getMsgPdu s).val = (pyChr (dcsOf (effFmt s) s.klass)).bind fun d =>
    (vpPdu s.validity).bind fun vp => (bodyP (effFmt s) s.text (crOf s)).bind fun msgs =>
      .ok (msgs.map (fun m => encodeStr [d] ++ vp ++ m)) := by
  rw [getMsgPdu_eq, M.val_lift_bind]
  congr 1; funext d
  rw [M.val_lift_bind]
  congr 1; funext vp
  rw [show crOf s = crOf (withDcs s) from rfl, ← bodyM_val, M.bind_apply]
  cases bodyM (effFmt s) s.text (withDcs s) <;> rfl

theorem frame_eq (v : Validity) (srr : Bool) (smsc submit ref phone pid : Str) (msgs : List Str) (s : State) :
    ((match msgs with
    | [m] => pure [mkPdu (smsc ++ submit ++ ref ++ phone ++ pid ++ m) (smsc.length / 2) 1 1]
    | ms => do
      let submit ← M.lift (getSmsSubmitPdu v srr true)
      pure (mkPdus (smsc ++ submit ++ ref ++ phone ++ pid) (smsc.length / 2) ms.length 0 ms) : M State (List Pdu)) s)
      = M.lift (frameP v srr smsc submit ref phone pid msgs) s := by
  rw [frameP.eq_def, getSmsSubmitPdu_ok]
  rcases msgs with _ | ⟨m, _ | ⟨m2, r⟩⟩ <;> rfl

theorem bind_congr {α β : Type} {m : M State α} {f g : α → M State β} (h : ∀ a st, f a st = g a st) (st : State) :
    (m >>= f) st = (m >>= g) st := by
  rw [M.bind_apply, M.bind_apply]
  cases m st with
  | ok a s' => exact h a s'
  | err e s' => rfl

theorem toPdu_val (s : State) : (toPdu s).val = toPduP s.csca s.validity s.requestStatus (mrOf s) s.number s.pid
    (effFmt s) s.klass s.text (crOf (afterRef s)) := by
  obtain ⟨e1, e2, e3, e4, e5, e6, e7, e8, e9⟩ := afterRef_fields s
  unfold toPdu toPduP
  rw [M.bind_ok (M.get_apply s), M.val_lift_bind]
  congr 1; funext smsc
  rw [M.val_lift_bind]
  congr 1; funext submit
  rw [M.bind_ok (getTpmessrefPdu_eq s), M.val_lift_bind]
  congr 1; funext phone
  rw [M.val_lift_bind]
  congr 1; funext pid
  have hm := getMsgPdu_val (afterRef s)
  rw [effFmt_afterRef, e3, e2, e1] at hm
  refine (congrArg Res.val (bind_congr (fun msgs st =>
    frame_eq s.validity s.requestStatus smsc submit (encodeStr [mrOf s]) phone pid msgs st) _)).trans ?_
  have hx : ∀ (m : M State (List Str)) (g : List Str → Py (List Pdu)) (st : State),
      ((m >>= fun a => M.lift (g a)) st).val = (m st).val.bind g := by
    intro m g st
    rw [M.bind_apply]
    cases m st with
    | ok a s' => simp only [Res.val, Except.bind]; cases g a <;> rfl
    | err e s' => rfl
  refine (hx _ (frameP s.validity s.requestStatus smsc submit (encodeStr [mrOf s]) phone pid) _).trans ?_
  rw [hm]
  cases pyChr (dcsOf (effFmt s) s.klass) with
  | error e => rfl
  | ok d =>
    simp only [Except.bind]
    cases vpPdu s.validity with
    | error e => rfl
    | ok vp =>
      simp only []
      cases bodyP (effFmt s) s.text (crOf (afterRef s)) <;> rfl

/-- `Keep f m`: `m` leaves `f` of the object as it is -/
def Keep {α β : Type} (f : State → β) (m : M State α) : Prop := ∀ s, f (m s).state = f s

theorem Keep.bind {α β γ : Type} {f : State → γ} {m : M State α} {g : α → M State β} (h1 : Keep f m)
    (h2 : ∀ a, Keep f (g a)) : Keep f (m >>= g) := by
  intro s
  have := h1 s
  rw [M.bind_apply]
  cases hm : m s with
  | ok a s' => rw [hm] at this; exact (h2 a s').trans this
  | err e s' => rw [hm] at this; exact this

theorem keep_lift {α γ : Type} {f : State → γ} (x : Py α) : Keep f (M.lift x : M State α) := by
  intro s; cases x <;> rfl

theorem keep_pure {α γ : Type} {f : State → γ} (x : α) : Keep f (pure x : M State α) := fun _ => rfl

/-- everything but ids and the encoded text -/
def settings (s : State) := (s.number, s.csca, s.klass, s.validity, s.requestStatus, s.randId, s.pid, s.text, s.ref, s.fmt)

theorem keep_split (c : Coding) (t : PyStr) : Keep settings (splitSmsMessage c t) := by
  intro s
  obtain ⟨parts, hp, _⟩ := splitLoop_ok t.s c.mpSize (by cases c <;> decide)
  rw [splitSmsMessage_eq c t s hp]
  have : (M.lift (packParts c t.uni (crOf s) parts.length 0 parts) (afterSplit s)).state = afterSplit s := by
    cases packParts c t.uni (crOf s) parts.length 0 parts <;> rfl
  rw [this]
  unfold afterSplit
  split <;> rfl

theorem keep_body (f : Nat) (t : PyStr) : Keep settings (bodyM f t) := by
  have hp : ∀ x : Py Str, Keep settings (M.lift x >>= fun m => (pure [m] : M State (List Str))) := fun x =>
    (keep_lift x).bind (fun _ => keep_pure _)
  unfold bodyM
  split
  · refine (keep_lift _).bind fun g => Keep.bind (fun _ => rfl) fun _ => ?_
    split
    · exact hp _
    · exact keep_split _ _
  · split
    · split
      · exact hp _
      · exact keep_split _ _
    · split
      · split
        · exact hp _
        · exact keep_split _ _
      · exact fun _ => rfl

/-- the object after a successful call -/
theorem toPdu_after {s s' : State} {ps : List Pdu} (h : toPdu s = .ok ps s') : After s s' := by
  unfold toPdu at h
  rw [M.bind_ok (M.get_apply s)] at h
  have hl : ∀ {α β : Type} {x : Py α} {f : α → M State β} {st st' : State} {b : β},
      (M.lift x >>= f) st = .ok b st' → ∃ a, x = .ok a ∧ f a st = .ok b st' := by
    intro α β x f st st' b h
    cases x with
    | ok a => exact ⟨a, rfl, h⟩
    | error e => cases h
  obtain ⟨smsc, _, h⟩ := hl h
  obtain ⟨submit, _, h⟩ := hl h
  rw [M.bind_ok (getTpmessrefPdu_eq s)] at h
  obtain ⟨phone, _, h⟩ := hl h
  obtain ⟨pid, _, h⟩ := hl h
  replace h := (bind_congr (fun msgs st =>
    frame_eq s.validity s.requestStatus smsc submit (encodeStr [mrOf s]) phone pid msgs st) _).symm.trans h
  have hk : settings s' = settings (withDcs (afterRef s)) := by
    have hk1 : settings (getMsgPdu (afterRef s)).state = settings (withDcs (afterRef s)) := by
      rw [getMsgPdu_eq]
      exact ((keep_lift _).bind fun d => (keep_lift _).bind fun vp => (keep_body _ _).bind fun msgs => keep_pure _) _
    rw [M.bind_apply] at h
    cases hm : getMsgPdu (afterRef s) with
    | err e s2 => rw [hm] at h; cases h
    | ok msgs s2 =>
      rw [hm] at h hk1
      simp only at h
      have : s' = s2 := by
        cases hf : frameP s.validity s.requestStatus smsc submit (encodeStr [mrOf s]) phone pid msgs with
        | ok x => rw [hf] at h; cases h; rfl
        | error e => rw [hf] at h; cases h
      rw [this]; exact hk1
  have ha := after_withDcs s
  simp only [settings, Prod.mk.injEq] at hk
  obtain ⟨k1, k2, k3, k4, k5, k6, k7, k8, k9, k10⟩ := hk
  exact ⟨k1.trans ha.1, k2.trans ha.2, k3.trans ha.3, k4.trans ha.4, k5.trans ha.5, k6.trans ha.6, k7.trans ha.7,
    k8.trans ha.8, k9.trans ha.9, k10.trans ha.10⟩

theorem packParts_length {c : Coding} {u : Bool} {ref total : Nat} : ∀ {msgs : List Str} {k : Nat} {ps : List Str},
    packParts c u ref total k msgs = .ok ps → ps.length = msgs.length
  | [], _, _, h => by simp only [packParts, Except.ok.injEq] at h; rw [← h]
  | m :: ms, k, ps, h => by
    simp only [packParts, bind, Except.bind] at h
    cases h1 : packPart c u ref total (k + 1) m with
    | error e => rw [h1] at h; cases h
    | ok x =>
      rw [h1] at h
      cases h2 : packParts c u ref total (k + 1) ms with
      | error e => rw [h2] at h; cases h
      | ok xs =>
        rw [h2] at h
        simp only [Except.ok.injEq] at h
        rw [← h, List.length_cons, packParts_length h2, List.length_cons]

theorem splitP_length {c : Coding} {t : PyStr} {cr : Nat} {ms : List Str} (ht : c.mpSize < t.s.length)
    (h : splitP c t cr = .ok ms) : 2 ≤ ms.length := by
  obtain ⟨parts, hp, hc⟩ := splitLoop_ok t.s c.mpSize (by cases c <;> decide)
  rw [splitP, hp] at h
  simp only [Except.bind] at h
  rw [packParts_length h]
  exact chunks_two (by cases c <;> decide) hc ht

/-- a message that fits in one PDU does not depend on the concatenation reference -/
theorem bodyP_single {f : Nat} {t : PyStr} {cr cr' : Nat} {m : Str} (h : bodyP f t cr = .ok [m]) :
    bodyP f t cr' = .ok [m] := by
  have hs : ∀ {c : Coding} {t : PyStr}, c.mpSize < t.s.length → splitP c t cr = .ok [m] → splitP c t cr' = .ok [m] := by
    intro c t h1 h2
    have := splitP_length h1 h2
    simp at this
  unfold bodyP at h ⊢
  split
  · rw [if_pos ‹_›] at h
    cases hg : Gsm.encode t with
    | error e => rw [hg] at h; cases h
    | ok g =>
      rw [hg] at h
      simp only [Except.bind] at h ⊢
      split
      · rw [if_pos ‹_›] at h; exact h
      · rename_i hl
        rw [if_neg hl] at h
        refine hs ?_ h
        simp only [SEVENBIT_SIZE] at hl
        simp only [Coding.mpSize, SEVENBIT_MP_SIZE, SEVENBIT_SIZE]
        omega
  · rw [if_neg ‹_›] at h
    split
    · rw [if_pos ‹_›] at h
      split
      · rw [if_pos ‹_›] at h; exact h
      · rename_i hl
        rw [if_neg hl] at h
        refine hs ?_ h
        simp only [EIGHTBIT_SIZE] at hl
        simp only [Coding.mpSize, EIGHTBIT_MP_SIZE, EIGHTBIT_SIZE]
        omega
    · rw [if_neg ‹_›] at h
      split
      · rw [if_pos ‹_›] at h
        split
        · rw [if_pos ‹_›] at h; exact h
        · rename_i hl
          rw [if_neg hl] at h
          refine hs ?_ h
          simp only [UCS2_SIZE] at hl
          simp only [Coding.mpSize, UCS2_MP_SIZE, UCS2_SIZE]
          omega
      · rw [if_neg ‹_›] at h; cases h

theorem frameP_length {v : Validity} {srr : Bool} {smsc submit ref phone pid : Str} {msgs : List Str} {ps : List Pdu}
    (h : frameP v srr smsc submit ref phone pid msgs = .ok ps) : ps.length = msgs.length := by
  rw [frameP.eq_def, getSmsSubmitPdu_ok] at h
  rcases msgs with _ | ⟨m, _ | ⟨m2, r⟩⟩
  · simp only [Except.bind, Except.ok.injEq] at h; rw [← h]; simp [mkPdus]
  · simp only [Except.ok.injEq] at h; rw [← h]; rfl
  · simp only [Except.bind, Except.ok.injEq] at h; rw [← h, mkPdus_length]

/-- one PDU: the concatenation reference is irrelevant -/
theorem toPduP_single {csca : Option Str} {v : Validity} {srr : Bool} {mr : Nat} {number : Option Str} {pid : Int}
    {f : Nat} {klass : Option Nat} {t : PyStr} {cr cr' : Nat} {p : Pdu}
    (h : toPduP csca v srr mr number pid f klass t cr = .ok [p]) :
    toPduP csca v srr mr number pid f klass t cr' = .ok [p] := by
  unfold toPduP at h ⊢
  cases h1 : getSmscPdu csca with
  | error e => rw [h1] at h; cases h
  | ok smsc =>
  cases h2 : getSmsSubmitPdu v srr false with
  | error e => rw [h1, h2] at h; cases h
  | ok submit =>
  cases h3 : getPhonePdu number with
  | error e => rw [h1, h2, h3] at h; cases h
  | ok phone =>
  cases h4 : getTppidPdu pid with
  | error e => rw [h1, h2, h3, h4] at h; cases h
  | ok pid' =>
  cases h5 : pyChr (dcsOf f klass) with
  | error e => rw [h1, h2, h3, h4, h5] at h; cases h
  | ok d =>
  cases h6 : vpPdu v with
  | error e => rw [h1, h2, h3, h4, h5, h6] at h; cases h
  | ok vp =>
  cases h7 : bodyP f t cr with
  | error e => rw [h1, h2, h3, h4, h5, h6, h7] at h; cases h
  | ok msgs =>
    rw [h1, h2, h3, h4, h5, h6, h7] at h
    simp only [Except.bind] at h ⊢
    have hl := frameP_length h
    simp only [List.length_map, List.length_cons, List.length_nil] at hl
    obtain ⟨m, rfl⟩ := List.length_eq_one_iff.1 hl.symm
    rw [bodyP_single h7]
    exact h

end Submit
end Verif

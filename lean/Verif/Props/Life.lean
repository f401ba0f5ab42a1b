import Verif.Props.Assign
import Verif.Props.SubmitRefusal
/-!
# C106: assignments to a message and calls of `to_pdu` in any order
-/
set_option autoImplicit false

namespace Verif.Props
open Verif Verif.Submit
open Verif.Spec Verif.Spec.Sms Verif.Spec.Time Verif.Spec.Submit Verif.Spec.SubmitRefusal

/-- what a user does with a message: `sms.attribute = value` or `sms.to_pdu()` -/
inductive Act
  | assign (a : Assign)
  | call

/-- the object afterwards, whether or not it raised -/
def Act.exec : Act → State → State
  | .assign a, s => (a.exec s).state
  | .call, s => (toPdu s).state

/-- the object after a history -/
def life (s : State) (acts : List Act) : State := acts.foldl (fun s a => a.exec s) s

/-- the assignments of a history -/
def assigns : List Act → List Assign
  | [] => []
  | .assign a :: r => a :: assigns r
  | .call :: r => assigns r

/-- `r` is the message reference of the next PDUs: as assigned, modulo 256, or else the next generated id -/
def MsgRef (s : State) (c : Nat) (r : Nat) : Prop :=
  (s.ref = none → r = c % 255) ∧ ∀ x, s.ref = some x → (r : Int) = x % 256

/-- `r` is the concatenation reference of the next PDUs -/
def ConcRef (s : State) (c : Nat) (r : Nat) : Prop :=
  (s.randId = none → r = (c + if s.ref = none then 1 else 0) % 255) ∧ ∀ x, s.randId = some x → (r : Int) = x % 256

/-- `to_pdu` looks at the text: there is a number and the protocol identifier is an octet -/
def Addressable (s : State) : Prop := (∃ x, s.number = some x ∧ x ≠ []) ∧ 0 ≤ s.pid ∧ s.pid < 256

open Classical in
/-- A history of the object `s` amounts to the assignments `l` alone, and has taken `c` generated ids.  A call stands for the
assignment of the message reference it has used and, if it looks at the text, of the coding it has used; it takes an id for
the message reference and one for the concatenation reference of several PDUs, each if not assigned (up to two if it
raises). -/
inductive Amounts106 (s : State) : List Act → List Assign → Nat → Prop
  | nil : Amounts106 s [] [] 0
  | assign (acts : List Act) (l : List Assign) (c : Nat) (a : Assign) : Amounts106 s acts l c →
      Amounts106 s (acts ++ [.assign a]) (l ++ [a]) c
  | call (acts : List Act) (l : List Assign) (c j r cr f : Nat) : Amounts106 s acts l c →
      MsgRef (assignAll s l) c r → ConcRef (assignAll s l) c cr → Coded (assignAll s l) f → j ≤ 2 →
      (∀ ps s', toPdu (assignAll s (l ++ [.ref (some r), .randId (some cr)])) = .ok ps s' →
        j = count ((assignAll s l).ref = none) + count (ps.length ≠ 1 ∧ (assignAll s l).randId = none)) →
      Amounts106 s (acts ++ [.call])
        (l ++ .ref (some r) :: if Addressable (assignAll s l) then [.fmt (some f)] else []) (c + j)

theorem assignAll_append (s : State) (l l' : List Assign) : assignAll s (l ++ l') = assignAll (assignAll s l) l' := by
  unfold assignAll
  rw [List.foldl_append]

theorem life_snoc (s : State) (acts : List Act) (a : Act) : life s (acts ++ [a]) = a.exec (life s acts) := by
  unfold life
  rw [List.foldl_append]
  rfl

/-- assignments do the same to objects with the same attributes -/
theorem exec_settings (a : Assign) {s s' : State} (h : settings s = settings s') :
    settings (a.exec s).state = settings (a.exec s').state := by
  by_cases ha : a.Ok
  · cases s
    cases s'
    simp only [settings, Prod.mk.injEq] at h
    obtain ⟨rfl, rfl, rfl, rfl, rfl, rfl, rfl, rfl, rfl, rfl⟩ := h
    cases a with
    | number v =>
      rw [show Assign.exec (.number v) _ = _ from (C18_number _ v).1 ha, show Assign.exec (.number v) _ = _ from (C18_number _ v).1 ha]
      rfl
    | csca v =>
      rw [show Assign.exec (.csca v) _ = _ from (C18_csca _ v).1 ha, show Assign.exec (.csca v) _ = _ from (C18_csca _ v).1 ha]
      rfl
    | klass v =>
      obtain ⟨n, hn, rfl⟩ := ha
      have key : ∀ s : State, Assign.exec (.klass (.int n)) s = .ok () { s with klass := some n } := by
        intro s
        obtain ⟨n1, hn1, he⟩ := (C19_class s n).1 ⟨by omega, by omega⟩
        have : n1 = n := by omega
        rw [this] at he
        exact he
      rw [key, key]
      rfl
    | validity v =>
      obtain ⟨w, rfl⟩ := ha
      rfl
    | requestStatus b => rfl
    | ref b => rfl
    | randId b => rfl
    | pid b => rfl
    | text b => rfl
    | fmt b => rfl
  · rw [(C77_refused a s).2 ha, (C77_refused a s').2 ha, h]

theorem exec_ids (a : Assign) (s : State) : (a.exec s).state.idList = s.idList := (C77_last s [a]).idList

theorem cscaOk_accepted {c : Option (List Nat)} (h : Accepted c) : CscaOk c := by
  rcases h with rfl | rfl | ⟨y, rfl, h⟩
  · trivial
  · exact .inl rfl
  · exact .inr h

/-- a service centre number that was accepted can be coded -/
theorem getSmscPdu_accepted {c : Option (List Nat)} (h : Accepted c) : ∃ p, getSmscPdu c = .ok p := by
  rcases h with rfl | rfl | ⟨y, rfl, h⟩
  · exact ⟨_, getSmscPdu_none (.inl rfl)⟩
  · exact ⟨_, getSmscPdu_none (.inr rfl)⟩
  · obtain ⟨b, hb1, hb2, hb3⟩ := valid_denotes h
    exact ⟨_, getSmscPdu_ok hb1 (by intro h0; rw [h0] at hb2; simp at hb2) (by omega)⟩

theorem getPhonePdu_accepted {c : Option (List Nat)} (h : Accepted c) :
    (∃ p, getPhonePdu c = .ok p) ↔ ∃ x, c = some x ∧ x ≠ [] := by
  rcases h with rfl | rfl | ⟨y, rfl, h⟩
  · exact ⟨(fun ⟨p, hp⟩ => by cases hp), (fun ⟨x, hx, _⟩ => by cases hx)⟩
  · exact ⟨(fun ⟨p, hp⟩ => by cases hp), (fun ⟨x, hx, h0⟩ => by cases hx; exact absurd rfl h0)⟩
  · obtain ⟨b, hb1, hb2, hb3⟩ := valid_denotes h
    refine ⟨fun _ => ⟨y, rfl, ?_⟩, fun _ => ⟨_, getPhonePdu_ok hb1 (by intro h0; rw [h0] at hb2; simp at hb2) (by omega)⟩⟩
    rintro rfl
    have := (validNumber_iff []).2 h
    revert this
    decide

theorem getTppidPdu_iff (p : Int) : (∃ x, getTppidPdu p = .ok x) ↔ 0 ≤ p ∧ p < 256 := by
  simp only [getTppidPdu, pyChr, bind, Except.bind]
  by_cases h : 0 ≤ p ∧ p < 256
  · rw [if_neg (by omega), if_pos (by omega)]
    exact ⟨fun _ => h, fun _ => ⟨_, rfl⟩⟩
  · refine ⟨?_, fun h' => absurd h' h⟩
    rintro ⟨x, hx⟩
    split at hx
    · cases hx
    · rw [if_neg (by omega)] at hx
      cases hx

open Classical in
/-- the object after a call, whether or not it raised -/
theorem toPdu_settings {s : State} (hn : Accepted s.number) (hc : Accepted s.csca) : settings (toPdu s).state =
    settings { s with ref := some (mrOf s : Int), fmt := if Addressable s then some (effFmt s) else s.fmt } := by
  obtain ⟨smsc, hsm⟩ := getSmscPdu_accepted hc
  obtain ⟨e1, e2, e3, e4, e5, e6, e7, e8, e9⟩ := afterRef_fields s
  have er : (afterRef s).ref = some (mrOf s : Int) := by unfold afterRef; split <;> rfl
  have hno : ¬ Addressable s → settings (afterRef s) =
      settings { s with ref := some (mrOf s : Int), fmt := if Addressable s then some (effFmt s) else s.fmt } := by
    intro ha
    simp only [settings, e1, e2, e3, e4, e5, e6, e7, e8, e9, er, if_neg ha]
  unfold toPdu
  rw [M.bind_ok (M.get_apply s), hsm, M.bind_ok (M.lift_ok _ _), getSmsSubmitPdu_ok, M.bind_ok (M.lift_ok _ _),
    M.bind_ok (getTpmessrefPdu_eq s)]
  cases hph : getPhonePdu s.number with
  | error e =>
    rw [M.bind_err (M.lift_error _ _)]
    refine hno fun ha => ?_
    obtain ⟨p, hp⟩ := (getPhonePdu_accepted hn).2 ha.1
    rw [hp] at hph
    cases hph
  | ok phone =>
    rw [M.bind_ok (M.lift_ok _ _)]
    cases hpd : getTppidPdu s.pid with
    | error e =>
      rw [M.bind_err (M.lift_error _ _)]
      refine hno fun ha => ?_
      obtain ⟨p, hp⟩ := (getTppidPdu_iff s.pid).2 ha.2
      rw [hp] at hpd
      cases hpd
    | ok pid =>
      rw [M.bind_ok (M.lift_ok _ _)]
      have ha : Addressable s := ⟨(getPhonePdu_accepted hn).1 ⟨_, hph⟩, (getTppidPdu_iff s.pid).1 ⟨_, hpd⟩⟩
      have hk1 : settings (getMsgPdu (afterRef s)).state = settings (withDcs (afterRef s)) := by
        rw [getMsgPdu_eq]
        exact ((keep_lift _).bind fun d => (keep_lift _).bind fun vp => (keep_body _ _).bind fun msgs => keep_pure _) _
      have hk2 : settings (withDcs (afterRef s)) =
          settings { s with ref := some (mrOf s : Int), fmt := if Addressable s then some (effFmt s) else s.fmt } := by
        simp only [settings, withDcs, effFmt_afterRef, e1, e2, e3, e5, e6, e7, e8, e9, er, if_pos ha]
      rw [← hk2, ← hk1, M.bind_apply]
      cases getMsgPdu (afterRef s) with
      | err e s2 => rfl
      | ok msgs s2 =>
        have := frame_eq s.validity s.requestStatus smsc (encodeStr [submitOctet s.validity s.requestStatus false])
          (encodeStr [mrOf s]) phone pid msgs s2
        refine congrArg settings ((congrArg Res.state this).trans ?_)
        cases frameP s.validity s.requestStatus smsc (encodeStr [submitOctet s.validity s.requestStatus false])
          (encodeStr [mrOf s]) phone pid msgs <;> rfl

/-- the PDUs depend on the attributes and the ids only -/
theorem toPdu_val_of {s s' : State} (h : settings s = settings s') (h1 : mrOf s = mrOf s')
    (h2 : crOf (afterRef s) = crOf (afterRef s')) : (toPdu s).val = (toPdu s').val := by
  simp only [settings, Prod.mk.injEq] at h
  obtain ⟨a1, a2, a3, a4, a5, a6, a7, a8, a9, a10⟩ := h
  rw [toPdu_val, toPdu_val, a1, a2, a3, a4, a5, a7, a8, h1, h2]
  unfold effFmt
  rw [a8, a10]

theorem settings_ref {s s' : State} (h : settings s = settings s') : s.ref = s'.ref ∧ s.randId = s'.randId ∧
    s.number = s'.number ∧ s.csca = s'.csca ∧ s.pid = s'.pid ∧ effFmt s = effFmt s' := by
  simp only [settings, Prod.mk.injEq] at h
  obtain ⟨a1, a2, a3, a4, a5, a6, a7, a8, a9, a10⟩ := h
  refine ⟨a9, a6, a1, a2, a7, ?_⟩
  unfold effFmt
  rw [a8, a10]

theorem msgRef_mrOf {s o : State} {c : Nat} (hd : Drawn s c) (h : s.ref = o.ref) : MsgRef o c (mrOf s) := by
  unfold MsgRef mrOf
  rw [← h]
  cases hr : s.ref with
  | none =>
    refine ⟨fun _ => ?_, (fun x hx => by cases hx)⟩
    simp only
    rw [(nextId_drawn hd).1]
    omega
  | some r =>
    refine ⟨(fun hx => by cases hx), fun x hx => ?_⟩
    cases hx
    show (((r % 256).toNat : Nat) : Int) = r % 256
    omega

theorem concRef_crOf {s o : State} {c : Nat} (hd : Drawn s c) (h : s.ref = o.ref) (h' : s.randId = o.randId) :
    ConcRef o c (crOf (afterRef s)) := by
  have hd' := drawn_afterRef hd
  unfold ConcRef crOf
  rw [(afterRef_fields s).2.2.2.2.2.2.2.2, ← h, ← h']
  cases hr : s.randId with
  | none =>
    refine ⟨fun _ => ?_, (fun x hx => by cases hx)⟩
    simp only
    rw [(nextId_drawn hd').1]
    omega
  | some r =>
    refine ⟨(fun hx => by cases hx), fun x hx => ?_⟩
    cases hx
    show (((r % 256).toNat : Nat) : Int) = r % 256
    omega

/-- a call on the object gives what it gives on one that was never called, with the references that are used -/
theorem call_val {s o : State} (h : settings s = settings o) : (toPdu s).val =
    (toPdu (assignAll o [.ref (some (mrOf s)), .randId (some (crOf (afterRef s)))])).val := by
  simp only [settings, Prod.mk.injEq] at h
  obtain ⟨a1, a2, a3, a4, a5, a6, a7, a8, a9, a10⟩ := h
  have m1 := mrOf_lt s
  have m2 := crOf_lt (afterRef s)
  rw [toPdu_val, toPdu_val, a1, a2, a3, a4, a5, a7, a8]
  have h1 : mrOf (assignAll o [.ref (some (mrOf s)), .randId (some (crOf (afterRef s)))]) = mrOf s := by
    show (((mrOf s : Nat) : Int) % 256).toNat = mrOf s
    omega
  have h2 : crOf (afterRef (assignAll o [.ref (some (mrOf s)), .randId (some (crOf (afterRef s)))])) = crOf (afterRef s) := by
    show (((crOf (afterRef s) : Nat) : Int) % 256).toNat = crOf (afterRef s)
    omega
  have h3 : effFmt s = effFmt (assignAll o [.ref (some (mrOf s)), .randId (some (crOf (afterRef s)))]) := by
    unfold effFmt
    rw [a8, a10]
    rfl
  rw [h1, h2, h3]
  rfl

theorem exec_accepted (a : Assign) {s : State} (h : Accepted s.number ∧ Accepted s.csca) :
    Accepted (a.exec s).state.number ∧ Accepted (a.exec s).state.csca := by
  by_cases ha : a.Ok
  · cases a with
    | number v => rw [show Assign.exec (.number v) _ = _ from (C18_number _ v).1 ha]; exact ⟨ha, h.2⟩
    | csca v => rw [show Assign.exec (.csca v) _ = _ from (C18_csca _ v).1 ha]; exact ⟨h.1, ha⟩
    | klass v =>
      obtain ⟨n, hn, rfl⟩ := ha
      obtain ⟨n1, hn1, he⟩ := (C19_class s n).1 ⟨by omega, by omega⟩
      rw [show Assign.exec (.klass (.int n)) s = _ from he]
      exact h
    | validity v => obtain ⟨w, rfl⟩ := ha; exact h
    | requestStatus b => exact h
    | ref b => exact h
    | randId b => exact h
    | pid b => exact h
    | text b => exact h
    | fmt b => exact h
  · rw [(C77_refused a s).2 ha]; exact h

theorem init_accepted {n : Option (List Nat)} {t : PyStr} {s : State} (h : init n t = .ok s) :
    Accepted s.number ∧ Accepted s.csca := by
  unfold init at h
  simp only [] at h
  by_cases hn : Accepted n
  · rw [(C18_number _ n).1 hn] at h
    cases h
    exact ⟨hn, .inl rfl⟩
  · rw [(C18_number _ n).2 hn] at h
    cases h

/-- C106: whatever was assigned and however often `to_pdu` was called, in whatever order and whether or not it raised: the
object has the attributes of one to which only was assigned, each call standing for the assignments of the message
reference and the coding it has used, and `to_pdu` does what it does for that object, with the references that are used. -/
theorem C106_history (n : Option (List Nat)) (t : PyStr) (s : State) (hi : init n t = .ok s) (acts : List Act) :
    ∃ l c, Amounts106 s acts l c ∧ settings (life s acts) = settings (assignAll s l) ∧
      ∃ r cr, MsgRef (assignAll s l) c r ∧ ConcRef (assignAll s l) c cr ∧
        (toPdu (life s acts)).val = (toPdu (assignAll s (l ++ [.ref (some r), .randId (some cr)]))).val := by
  suffices h : ∃ l c, Amounts106 s acts l c ∧ settings (life s acts) = settings (assignAll s l) ∧
      Drawn (life s acts) c ∧ Accepted (life s acts).number ∧ Accepted (life s acts).csca by
    obtain ⟨l, c, h1, h2, h3, _⟩ := h
    obtain ⟨e1, e2, _⟩ := settings_ref h2
    exact ⟨l, c, h1, h2, mrOf (life s acts), crOf (afterRef (life s acts)), msgRef_mrOf h3 e1, concRef_crOf h3 e1 e2,
      by rw [assignAll_append]; exact call_val h2⟩
  induction acts using List.reverseRecOn with
  | nil => exact ⟨[], 0, .nil, rfl, init_drawn hi, init_accepted hi⟩
  | append_singleton acts a ih =>
    obtain ⟨l, c, h1, h2, h3, h4⟩ := ih
    rw [life_snoc]
    cases a with
    | assign a =>
      refine ⟨l ++ [a], c, .assign acts l c a h1, ?_, drawn_of_ids (exec_ids a _) h3, exec_accepted a h4⟩
      rw [assignAll_append]
      exact exec_settings a h2
    | call =>
      obtain ⟨e1, e2, e3, e4, e5, e6⟩ := settings_ref h2
      have hset := toPdu_settings h4.1 h4.2
      have hadd : Addressable (life s acts) ↔ Addressable (assignAll s l) := by unfold Addressable; rw [e3, e5]
      obtain ⟨j, hj1, hj2, hj3⟩ : ∃ j ≤ 2, Drawn (toPdu (life s acts)).state (c + j) ∧
          ∀ ps s', toPdu (life s acts) = .ok ps s' →
            j = count ((assignAll s l).ref = none) + count (ps.length ≠ 1 ∧ (assignAll s l).randId = none) := by
        obtain ⟨c', k1, k2, k3, k4, _⟩ := step_counter (life s acts) .call c h3
        refine ⟨c' - c, by omega, by rw [show c + (c' - c) = c' by omega]; exact k3, fun ps s' h => ?_⟩
        have := k4 rfl ps s' h
        simp only [e1, e2] at this
        omega
      refine ⟨_, c + j, .call acts l c j (mrOf (life s acts)) (crOf (afterRef (life s acts))) (effFmt (assignAll s l)) h1
        (msgRef_mrOf h3 e1) (concRef_crOf h3 e1 e2) coded_eff hj1 (fun ps s' h => ?_), ?_, hj2, ?_⟩
      · have hv := call_val h2
        rw [← assignAll_append, h] at hv
        cases ht : toPdu (life s acts) with
        | err e s'' => rw [ht] at hv; cases hv
        | ok ps' s'' =>
          rw [ht] at hv
          cases hv
          exact hj3 _ _ ht
      · rw [assignAll_append]
        show settings (toPdu (life s acts)).state = _
        rw [hset]
        simp only [settings, Prod.mk.injEq] at h2
        obtain ⟨a1, a2, a3, a4, a5, a6, a7, a8, a9, a10⟩ := h2
        by_cases ha : Addressable (assignAll s l)
        · rw [if_pos ha, if_pos (hadd.2 ha), e6]
          simp only [settings, assignAll, List.foldl, Assign.exec, Res.state] at *
          simp only [a1, a2, a3, a4, a5, a6, a7, a8]
        · rw [if_neg ha, if_neg (fun h => ha (hadd.1 h))]
          simp only [settings, assignAll, List.foldl, Assign.exec, Res.state] at *
          simp only [a1, a2, a3, a4, a5, a6, a7, a8, a10]
      · show Accepted (toPdu (life s acts)).state.number ∧ Accepted (toPdu (life s acts)).state.csca
        simp only [settings, Prod.mk.injEq] at hset
        rw [hset.1, hset.2.1]
        exact h4

theorem assigns_snoc_assign (acts : List Act) (a : Assign) : assigns (acts ++ [.assign a]) = assigns acts ++ [a] := by
  induction acts with
  | nil => rfl
  | cons b acts ih => cases b <;> simp only [List.cons_append, assigns, ih]

theorem assigns_snoc_call (acts : List Act) : assigns (acts ++ [.call]) = assigns acts := by
  induction acts with
  | nil => rfl
  | cons b acts ih => cases b <;> simp only [List.cons_append, assigns, ih]

/-- the object, and one to which the same was assigned but which was never called -/
structure Beside (s o : State) : Prop where
  number : s.number = o.number
  csca : s.csca = o.csca
  klass : s.klass = o.klass
  validity : s.validity = o.validity
  requestStatus : s.requestStatus = o.requestStatus
  randId : s.randId = o.randId
  pid : s.pid = o.pid
  text : s.text = o.text
  ref : ∀ x, o.ref = some x → ∃ y, s.ref = some y ∧ y % 256 = x % 256
  fmt : ∀ f, o.fmt = some f → s.fmt = some f

theorem beside_exec (a : Assign) {s o : State} (h : Beside s o) : Beside (a.exec s).state (a.exec o).state := by
  by_cases ha : a.Ok
  · obtain ⟨h1, h2, h3, h4, h5, h6, h7, h8, h9, h10⟩ := h
    cases a with
    | number v =>
      rw [show Assign.exec (.number v) _ = _ from (C18_number _ v).1 ha, show Assign.exec (.number v) _ = _ from (C18_number _ v).1 ha]
      exact ⟨rfl, h2, h3, h4, h5, h6, h7, h8, h9, h10⟩
    | csca v =>
      rw [show Assign.exec (.csca v) _ = _ from (C18_csca _ v).1 ha, show Assign.exec (.csca v) _ = _ from (C18_csca _ v).1 ha]
      exact ⟨h1, rfl, h3, h4, h5, h6, h7, h8, h9, h10⟩
    | klass v =>
      obtain ⟨n, hn, rfl⟩ := ha
      have key : ∀ s : State, Assign.exec (.klass (.int n)) s = .ok () { s with klass := some n } := by
        intro s
        obtain ⟨n1, hn1, he⟩ := (C19_class s n).1 ⟨by omega, by omega⟩
        have : n1 = n := by omega
        rw [this] at he
        exact he
      rw [key, key]
      exact ⟨h1, h2, rfl, h4, h5, h6, h7, h8, h9, h10⟩
    | validity v =>
      obtain ⟨w, rfl⟩ := ha
      exact ⟨h1, h2, h3, rfl, h5, h6, h7, h8, h9, h10⟩
    | requestStatus b => exact ⟨h1, h2, h3, h4, rfl, h6, h7, h8, h9, h10⟩
    | ref b => exact ⟨h1, h2, h3, h4, h5, h6, h7, h8, fun x hx => ⟨x, hx, rfl⟩, h10⟩
    | randId b => exact ⟨h1, h2, h3, h4, h5, rfl, h7, h8, h9, h10⟩
    | pid b => exact ⟨h1, h2, h3, h4, h5, h6, rfl, h8, h9, h10⟩
    | text b => exact ⟨h1, h2, h3, h4, h5, h6, h7, rfl, h9, h10⟩
    | fmt b => exact ⟨h1, h2, h3, h4, h5, h6, h7, h8, h9, fun f hf => hf⟩
  · rw [(C77_refused a s).2 ha, (C77_refused a o).2 ha]; exact h

theorem life_beside {n : Option (List Nat)} {t : PyStr} {s : State} (hi : init n t = .ok s) (acts : List Act) :
    Beside (life s acts) (assignAll s (assigns acts)) ∧ Accepted (life s acts).number ∧ Accepted (life s acts).csca := by
  induction acts using List.reverseRecOn with
  | nil =>
    exact ⟨⟨rfl, rfl, rfl, rfl, rfl, rfl, rfl, rfl, fun x hx => ⟨x, hx, rfl⟩, fun _ h => h⟩, init_accepted hi⟩
  | append_singleton acts a ih =>
    obtain ⟨h, h4⟩ := ih
    rw [life_snoc]
    cases a with
    | assign a =>
      rw [assigns_snoc_assign, assignAll_append]
      exact ⟨beside_exec a h, exec_accepted a h4⟩
    | call =>
      rw [assigns_snoc_call]
      have hset := toPdu_settings h4.1 h4.2
      simp only [settings, Prod.mk.injEq] at hset
      obtain ⟨a1, a2, a3, a4, a5, a6, a7, a8, a9, a10⟩ := hset
      refine ⟨⟨a1.trans h.number, a2.trans h.csca, a3.trans h.klass, a4.trans h.validity, a5.trans h.requestStatus,
        a6.trans h.randId, a7.trans h.pid, a8.trans h.text, fun x hx => ?_, fun f hf => ?_⟩,
        a1.symm ▸ h4.1, a2.symm ▸ h4.2⟩
      · obtain ⟨y, hy, hyx⟩ := h.ref x hx
        refine ⟨_, a9, ?_⟩
        unfold mrOf
        rw [hy]
        show (((y % 256).toNat : Nat) : Int) % 256 = x % 256
        omega
      · have := h.fmt f hf
        show (toPdu (life s acts)).state.fmt = some f
        rw [a10]
        split
        · unfold effFmt
          rw [this]
        · exact this

/-- C106: calls never change a number, class, validity, request for a report, `rand_id`, protocol identifier or text: they
are the last acceptable ones assigned -/
theorem C106_last (n : Option (List Nat)) (t : PyStr) (s : State) (hi : init n t = .ok s) (acts : List Act) :
    let o := assignAll s (assigns acts)
    (life s acts).number = o.number ∧ (life s acts).csca = o.csca ∧ (life s acts).klass = o.klass ∧
    (life s acts).validity = o.validity ∧ (life s acts).requestStatus = o.requestStatus ∧
    (life s acts).randId = o.randId ∧ (life s acts).pid = o.pid ∧ (life s acts).text = o.text := by
  have h := (life_beside hi acts).1
  exact ⟨h.number, h.csca, h.klass, h.validity, h.requestStatus, h.randId, h.pid, h.text⟩

/-- C106: if the coding and both references are assigned, calls in between make no difference at all: `to_pdu` does what
it does for an object to which the same was assigned and which was never called -/
theorem C106_calls (n : Option (List Nat)) (t : PyStr) (s : State) (hi : init n t = .ok s) (acts : List Act)
    (h1 : (assignAll s (assigns acts)).ref ≠ none) (h2 : (assignAll s (assigns acts)).randId ≠ none)
    (h3 : (assignAll s (assigns acts)).fmt ≠ none) :
    (toPdu (life s acts)).val = (toPdu (assignAll s (assigns acts))).val := by
  have h := (life_beside hi acts).1
  generalize life s acts = x at h ⊢
  generalize assignAll s (assigns acts) = o at h h1 h2 h3 ⊢
  obtain ⟨r, hr⟩ := Option.ne_none_iff_exists'.1 h1
  obtain ⟨q, hq⟩ := Option.ne_none_iff_exists'.1 h2
  obtain ⟨f, hf⟩ := Option.ne_none_iff_exists'.1 h3
  obtain ⟨y, hy, hyr⟩ := h.ref r hr
  rw [toPdu_val, toPdu_val, h.csca, h.validity, h.requestStatus, h.number, h.pid, h.klass, h.text]
  have e1 : mrOf x = mrOf o := by unfold mrOf; rw [hr, hy]; simp only; rw [hyr]
  have e2 : effFmt x = effFmt o := by unfold effFmt; rw [h.fmt f hf, hf]
  have e3 : crOf (afterRef x) = crOf (afterRef o) := by
    unfold crOf
    rw [(afterRef_fields x).2.2.2.2.2.2.2.2, (afterRef_fields o).2.2.2.2.2.2.2.2, h.randId, hq]
  rw [e1, e2, e3]

/-- C106: for a message of one PDU `rand_id` need not be assigned -/
theorem C106_single (n : Option (List Nat)) (t : PyStr) (s : State) (hi : init n t = .ok s) (acts : List Act) (p : Pdu)
    (s' : State) (h1 : (assignAll s (assigns acts)).ref ≠ none) (h3 : (assignAll s (assigns acts)).fmt ≠ none)
    (hp : toPdu (assignAll s (assigns acts)) = .ok [p] s') : (toPdu (life s acts)).val = .ok [p] := by
  have h := (life_beside hi acts).1
  generalize life s acts = x at h ⊢
  generalize assignAll s (assigns acts) = o at h h1 h3 hp ⊢
  obtain ⟨r, hr⟩ := Option.ne_none_iff_exists'.1 h1
  obtain ⟨f, hf⟩ := Option.ne_none_iff_exists'.1 h3
  obtain ⟨y, hy, hyr⟩ := h.ref r hr
  have hv : (toPdu o).val = .ok [p] := by rw [hp]; rfl
  have e1 : mrOf x = mrOf o := by unfold mrOf; rw [hr, hy]; simp only; rw [hyr]
  have e2 : effFmt x = effFmt o := by unfold effFmt; rw [h.fmt f hf, hf]
  rw [toPdu_val] at hv ⊢
  rw [h.csca, h.validity, h.requestStatus, h.number, h.pid, h.klass, h.text, e1, e2]
  exact toPduP_single hv

/-- a call, a refused number, a call that raises for the protocol identifier, another text -/
def life106 : List Act :=
  [.call, .assign (.number (some (py! "12"))), .assign (.pid 300), .call, .assign (.pid 0),
    .assign (.text ⟨true, List.replicate 200 98⟩), .call]

/-- the third call is for several PDUs; it uses the message reference 0 of the first and the concatenation reference 1 -/
example : ∃ s l c, init (some (py! "+123456")) ⟨true, py! "abc"⟩ = .ok s ∧ Amounts106 s life106 l c ∧
    settings (life s life106) = settings (assignAll s l) ∧ (life s life106).ref = some 0 ∧
    (life s life106).number = some (py! "+123456") ∧ ((toPdu (life s life106)).val.map List.length) = .ok 2 := by
  obtain ⟨s, hs⟩ : ∃ s, init (some (py! "+123456")) ⟨true, py! "abc"⟩ = .ok s := ⟨_, rfl⟩
  obtain ⟨l, c, h1, h2, _⟩ := C106_history _ _ s hs life106
  refine ⟨s, l, c, hs, h1, h2, ?_⟩
  cases hs
  decide +kernel

/-- with everything assigned, the calls before make no difference -/
example : ∃ s, init (some (py! "+123456")) ⟨true, py! "abc"⟩ = .ok s ∧
    (toPdu (life s (life106 ++ [.assign (.ref (some 7)), .call, .assign (.randId (some 9)), .assign (.fmt (some 8))]))).val =
      (toPdu (assignAll s [.number (some (py! "12")), .pid 300, .pid 0, .text ⟨true, List.replicate 200 98⟩, .ref (some 7),
        .randId (some 9), .fmt (some 8)])).val := by
  refine ⟨_, rfl, C106_calls (some (py! "+123456")) ⟨true, py! "abc"⟩ _ rfl _ ?_ ?_ ?_⟩ <;> decide

example : ∃ s, init (some (py! "+123456")) ⟨true, py! "abc"⟩ = .ok s ∧ ∃ p,
    (toPdu (life s (life106 ++ [.assign (.text ⟨true, py! "x"⟩), .assign (.ref (some 7)), .assign (.fmt (some 8))]))).val =
      .ok [p] := by
  obtain ⟨s, hs⟩ : ∃ s, init (some (py! "+123456")) ⟨true, py! "abc"⟩ = .ok s := ⟨_, rfl⟩
  refine ⟨s, hs, ⟨py! "00010706912143650008020078", 12, 1, 1⟩, ?_⟩
  obtain ⟨s', h⟩ : ∃ s', toPdu (assignAll s (assigns (life106 ++
      [.assign (.text ⟨true, py! "x"⟩), .assign (.ref (some 7)), .assign (.fmt (some 8))]))) =
      .ok [⟨py! "00010706912143650008020078", 12, 1, 1⟩] s' := by
    cases hs
    exact ⟨_, rfl⟩
  refine C106_single _ _ s hs _ _ s' ?_ ?_ h <;> cases hs <;> decide

end Verif.Props

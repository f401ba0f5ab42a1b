import Verif.Props.Deliver
/-!
# C84: assignments of PDUs that fail
-/
set_option autoImplicit false

namespace Verif.Props
open Verif Verif.Spec Verif.Spec.Sms Verif.Spec.Time
open Verif.Deliver (smsDeliver setPdu State)

/-- the full property: a failed assignment leaves the object as it was -/
def C84_full : Prop := ∀ (p : Str) (st : State) (e : PyErr) (st' : State), setPdu p st = .err e st' → st' = st

/-- attributes that a failed assignment does not touch -/
def Kept (s s' : State) : Prop := s'.text = s.text ∧ s'.sr = s.sr ∧ s'.type = s.type ∧ s'.strict = s.strict

/-- a relation between the object before and after -/
class Pre (R : State → State → Prop) : Prop where
  refl : ∀ s, R s s
  trans : ∀ {s s' s''}, R s s' → R s' s'' → R s s''

instance : Pre Kept where
  refl _ := ⟨rfl, rfl, rfl, rfl⟩
  trans h h' := ⟨h'.1.trans h.1, h'.2.1.trans h.2.1, h'.2.2.1.trans h.2.2.1, h'.2.2.2.trans h.2.2.2⟩

/-- only the user data header may differ -/
def OnlyUdh (s s' : State) : Prop := ∃ u, s' = { s with udh := u }

instance : Pre OnlyUdh where
  refl s := ⟨s.udh, rfl⟩
  trans := by rintro _ _ _ ⟨u, rfl⟩ ⟨u', rfl⟩; exact ⟨u', rfl⟩

section
variable (R : State → State → Prop)

/-- when it raises, the relation holds -/
def KeptErr {α : Type} (m : M State α) : Prop := ∀ s e s', m s = .err e s' → R s s'
/-- when it returns, the relation holds -/
def KeptOk {α : Type} (m : M State α) : Prop := ∀ s a s', m s = .ok a s' → R s s'
end

section
variable {R : State → State → Prop} [Pre R]

theorem KeptErr.bind {α β : Type} {m : M State α} {f : α → M State β} (h1 : KeptErr R m) (h2 : KeptOk R m)
    (h3 : ∀ a, KeptErr R (f a)) : KeptErr R (m >>= f) := by
  intro s e s' h
  rw [M.bind_apply] at h
  cases hm : m s with
  | ok a t => rw [hm] at h; exact Pre.trans (h2 s a t hm) (h3 a t e s' h)
  | err e' t => rw [hm] at h; cases h; exact h1 s _ _ hm

omit [Pre R] in
theorem KeptErr.modify (f : State → State) : KeptErr R (M.modify f) := by intro s e s' h; cases h
omit [Pre R] in
theorem KeptErr.pure {α : Type} (a : α) : KeptErr R (pure a : M State α) := by intro s e s' h; cases h
omit [Pre R] in
theorem KeptErr.get : KeptErr R (M.get : M State State) := by intro s e s' h; cases h
theorem KeptErr.throw {α : Type} (e : PyErr) : KeptErr R (M.throw e : M State α) := by
  intro s e s' h; cases h; exact Pre.refl _
theorem KeptErr.lift {α : Type} (x : Py α) : KeptErr R (M.lift x : M State α) := by
  intro s e s' h
  cases x with
  | ok a => cases h
  | error e => cases h; exact Pre.refl _

omit [Pre R] in
theorem KeptOk.modify {f : State → State} (hf : ∀ s, R s (f s)) : KeptOk R (M.modify f) := by
  intro s a s' h; cases h; exact hf s
theorem KeptOk.pure {α : Type} (a : α) : KeptOk R (pure a : M State α) := by intro s e s' h; cases h; exact Pre.refl _
theorem KeptOk.get : KeptOk R (M.get : M State State) := by intro s e s' h; cases h; exact Pre.refl _
theorem KeptOk.lift {α : Type} (x : Py α) : KeptOk R (M.lift x : M State α) := by
  intro s a s' h
  cases x with
  | ok a => cases h; exact Pre.refl _
  | error e => cases h
end

theorem processMessage_only (data : List Nat) : KeptErr OnlyUdh (Deliver.processMessage data) := by
  unfold Deliver.processMessage
  refine .bind (.lift _) (.lift _) fun x => .bind .get .get fun s => ?_
  have hlast : ∀ (fmt msgl headlen udLen : Nat) (msg : Str) (data : List Nat), KeptErr OnlyUdh (if fmt = 0x00 then do
        let t ← M.lift (unpackMsg msg)
        let x ← M.lift (Gsm.decode .strict ((t.take msgl).drop headlen))
        M.modify fun s => { s with text := some x }
      else if fmt = 0x04 then
        M.modify fun s => { s with text := some (data.drop udLen) }
      else if fmt = 0x08 then do
        let x ← M.lift (Deliver.ucs2Chars (data.drop udLen))
        M.modify fun s => { s with text := some x }
      else pure () : M State Unit) := by
    intro fmt msgl headlen udLen msg data
    split
    · exact .bind (.lift _) (.lift _) fun _ => .bind (.lift _) (.lift _) fun _ => .modify _
    · split
      · exact .modify _
      · split
        · exact .bind (.lift _) (.lift _) fun _ => .modify _
        · exact .pure _
  dsimp only
  split
  · exact .bind (.lift _) (.lift _) fun _ => .bind (.lift _) (.lift _) fun _ => .bind (.modify _)
      (.modify fun s => ⟨_, rfl⟩) fun _ => .bind (.pure _) (.pure _) fun _ => hlast _ _ _ _ _ _
  · exact .bind (.pure _) (.pure _) fun _ => hlast _ _ _ _ _ _

theorem processMessage_kept (data : List Nat) : KeptErr Kept (Deliver.processMessage data) := by
  intro s e s' h
  obtain ⟨u, rfl⟩ := processMessage_only data s e s' h
  exact ⟨rfl, rfl, rfl, rfl⟩

theorem decodeDeliver_kept (data : List Nat) : KeptErr Kept (Deliver.decodeDeliver data) := by
  unfold Deliver.decodeDeliver
  refine .bind (.lift _) (.lift _) fun _ => .bind (.lift _) (.lift _) fun _ => .bind (.lift _) (.lift _) fun _ =>
    .bind (.modify _) (.modify fun s => ⟨rfl, rfl, rfl, rfl⟩) fun _ => .bind (.lift _) (.lift _) fun _ =>
    .bind (.modify _) (.modify fun s => ⟨rfl, rfl, rfl, rfl⟩) fun _ => .bind (.lift _) (.lift _) fun _ =>
    .bind (.modify _) (.modify fun s => ⟨rfl, rfl, rfl, rfl⟩) fun _ => .bind (.lift _) (.lift _) fun _ =>
    .bind (.lift _) (.lift _) fun _ => .bind (.modify _) (.modify fun s => ⟨rfl, rfl, rfl, rfl⟩) fun _ =>
    processMessage_kept _

theorem decodeStatusReport_kept (data : List Nat) : KeptErr Kept (Deliver.decodeStatusReport data) := by
  unfold Deliver.decodeStatusReport
  refine .bind (.lift _) (.lift _) fun _ => .bind (.modify _) (.modify fun s => ⟨rfl, rfl, rfl, rfl⟩) fun _ =>
    .bind (.lift _) (.lift _) fun _ => .bind (.lift _) (.lift _) fun _ => ?_
  dsimp only
  split
  · exact .bind (.modify _) (.modify fun s => ⟨rfl, rfl, rfl, rfl⟩) fun _ => .bind (.pure _) (.pure _) fun _ => .modify _
  · exact .bind (.pure _) (.pure _) fun _ => .modify _

/-- C84: after a failed assignment the text, the status report and the type are those of before.  Missing: the other
attributes may have changed, see `C84_mixed`. -/
theorem C84_kept_partial (p : Str) (st : State) (e : PyErr) (st' : State) (h : setPdu p st = .err e st') :
    st'.text = st.text ∧ st'.sr = st.sr ∧ st'.type = st.type ∧ st'.strict = st.strict := by
  revert h
  refine (?_ : KeptErr Kept (setPdu p)) st e st'
  unfold setPdu
  refine .bind .get .get fun s => ?_
  dsimp only
  generalize (if (!s.strict && decide (p.length % 2 ≠ 0)) = true then p.dropLast else p) = q
  split
  · exact .throw _
  · have hlast : ∀ data : List Nat, KeptErr Kept (M.lift (pop0 data) >>= fun m =>
        (M.modify (fun s => { s with mtype := some m.1 }) >>= fun _ =>
        if m.1 &&& 0x03 = 0x02 then Deliver.decodeStatusReport m.2
        else if m.1 &&& 0x03 = 0x01 then M.throw .valueError
        else Deliver.decodeDeliver m.2) : M State Unit) := by
      intro data
      refine .bind (.lift _) (.lift _) fun _ => .bind (.modify _) (.modify fun s => ⟨rfl, rfl, rfl, rfl⟩) fun _ => ?_
      split
      · exact decodeStatusReport_kept _
      · split
        · exact .throw _
        · exact decodeDeliver_kept _
    refine .bind (.modify _) (.modify fun s => ⟨rfl, rfl, rfl, rfl⟩) fun _ => .bind (.lift _) (.lift _) fun _ =>
      .bind (.lift _) (.lift _) fun _ => ?_
    split
    · exact .bind (.lift _) (.lift _) fun _ => .bind (.modify _) (.modify fun s => ⟨rfl, rfl, rfl, rfl⟩) fun _ =>
        .bind (.pure _) (.pure _) fun _ => hlast _
    · exact .bind (.modify _) (.modify fun s => ⟨rfl, rfl, rfl, rfl⟩) fun _ => .bind (.pure _) (.pure _) fun _ => hlast _

example : ∃ st', setPdu (py! "07") (State.fresh true) = .err .indexError st' := ⟨_, rfl⟩

/-- the object after an assignment, whether it raised or not -/
def assigned (st : State) (p : Str) : State :=
  match setPdu p st with
  | .ok _ s => s
  | .err _ s => s

theorem assigned_strict (st : State) (p : Str) : (assigned st p).strict = st.strict := by
  unfold assigned
  cases h : setPdu p st with
  | err e s => exact (C84_kept_partial p st e s h).2.2.2
  | ok u s =>
    have hout := Deliver.setPdu_out p st
    rw [h] at hout
    simp only [Res.out] at hout
    unfold Deliver.setP at hout
    split at hout
    · cases hout
    obtain ⟨o, _, hout⟩ := Deliver.ebind_ok hout.symm
    obtain ⟨f, hf, hout⟩ := Deliver.ebind_ok hout
    cases hout
    obtain ⟨csca, mt, r, r', _, _, hfr⟩ := Deliver.pduP_frame hf
    rcases hfr with ⟨_, g, hg, rfl⟩ | ⟨_, _, x, r2, t, u, _, _, rfl⟩
    · unfold Deliver.reportP at hg
      obtain ⟨a, _, hg⟩ := Deliver.ebind_ok hg
      obtain ⟨b, _, hg⟩ := Deliver.ebind_ok hg
      obtain ⟨c, _, hg⟩ := Deliver.ebind_ok hg
      cases hg
      rfl
    · rfl

/-- what the strings among these that can be decoded decode to -/
def decoded (strict : Bool) (ps : List Str) : List State := ps.filterMap fun p => (smsDeliver p strict).toOption

/-- C84: after any sequence of assignments, some of which failed, the text is that of the last string that could be
decoded, and that of before if there was none. -/
theorem C84_last (ps : List Str) (st : State) :
    (ps.foldl assigned st).text = (match (decoded st.strict ps).getLast? with | some d => d.text | none => st.text) := by
  induction ps generalizing st with
  | nil => rfl
  | cons p r ih =>
    rw [List.foldl_cons, ih, assigned_strict]
    obtain ⟨h1, h2⟩ := C31_partial p st
    cases hd : smsDeliver p st.strict with
    | error e =>
      obtain ⟨st', h⟩ := (h1 e).1 hd
      have ha : assigned st p = st' := by unfold assigned; rw [h]
      have : decoded st.strict (p :: r) = decoded st.strict r := by
        unfold decoded; rw [List.filterMap_cons, hd]; rfl
      rw [this, ha, (C84_kept_partial p st e st' h).1]
    | ok d =>
      obtain ⟨mt, _, h3, h4⟩ := h2 d hd
      have ha : (assigned st p).text = d.text := by
        unfold assigned
        by_cases hm : mt % 4 = 2
        · obtain ⟨sr, _, _, h⟩ := h4 hm
          rw [h]
        · rw [h3 hm]
      have : decoded st.strict (p :: r) = d :: decoded st.strict r := by
        unfold decoded; rw [List.filterMap_cons, hd]; rfl
      rw [this, List.getLast?_cons, ha]
      cases (decoded st.strict r).getLast? <;> rfl

/-- C84: when the user data of a DELIVER cannot be decoded the object has the sender, the date and all other fields of the
new message, and the text of the old one. -/
theorem C84_mixed (p : DeliverPdu) (h : p.Ok) (strict : Bool) (d : State) (hd : smsDeliver (hexUpper p.octets) strict = .ok d)
    (udl : Nat) (ud : List Nat) (hb : ∀ x ∈ udl :: ud, x < 256) (st : State) (e : PyErr) (st' : State)
    (hf : setPdu (hexUpper { p with udl := udl, ud := ud }.octets) st = .err e st') :
    st'.number = d.number ∧ st'.date = d.date ∧ st'.csca = d.csca ∧ st'.pid = d.pid ∧ st'.dcs = d.dcs ∧ st'.fmt = d.fmt ∧
      st'.mtype = d.mtype ∧ st'.pdu = some (hexUpper { p with udl := udl, ud := ud }.octets) ∧
      st'.text = st.text ∧ st'.sr = st.sr ∧ st'.type = st.type := by
  have hd' := hd
  rw [Deliver.smsDeliver_eq, Deliver.setP_hex h.octets] at hd
  obtain ⟨f, hp, hd⟩ := Deliver.ebind_ok hd
  cases hd
  have hbo : ∀ x ∈ { p with udl := udl, ud := ud }.octets, x < 256 := by
    intro x hx
    have := h.octets x
    simp only [DeliverPdu.octets, List.mem_append, List.mem_cons, List.not_mem_nil, or_false] at hx this
    have hb' := hb x
    simp only [List.mem_cons] at hb'
    tauto
  obtain ⟨n, toa, oa, sender, stamp, z, e1, e2, e3, e4, e5, _, _, _, e6⟩ := Deliver.pduP_deliver h
  rw [hp] at e6
  obtain ⟨dt, e7, e8⟩ := Deliver.ebind_ok e6.symm
  obtain ⟨g, e9, e8⟩ := Deliver.ebind_ok e8
  cases e8
  obtain ⟨a, ha⟩ := h.smsc
  have e10 : { p with udl := udl, ud := ud }.octets = p.smsc ++ p.fo :: (n :: toa :: (oa ++ p.pid :: p.dcs ::
      (stamp ++ z :: (udl :: ud)))) := by
    rw [DeliverPdu.octets]
    simp only [e1, e4]
    simp [List.append_assoc]
  have hm := h.mti
  rw [Deliver.setPdu_start (Deliver.smscField_of ha) (by rw [← e10]; exact hbo) _ (by rw [toArray_hexUpper hbo, e10])
    (by rw [hexUpper_length]; omega), Deliver.and3, if_neg (by omega), if_neg (by omega),
    Deliver.decodeDeliver_ok e2 e3 e5 e7] at hf
  obtain ⟨u, rfl⟩ := processMessage_only _ _ _ _ hf
  rcases Deliver.udP_frame (Deliver.fmtOfDcs_cases _) e9 with ⟨t, _, rfl⟩ | ⟨t, u', _, rfl⟩
  · exact ⟨rfl, rfl, rfl, rfl, rfl, rfl, rfl, rfl, rfl, rfl, rfl⟩
  · exact ⟨rfl, rfl, rfl, rfl, rfl, rfl, rfl, rfl, rfl, rfl, rfl⟩

/-- "hi" in 8-bit coding from +1999 -/
def sampleBinary84 : DeliverPdu :=
  { smsc := [0], fo := 0x04, oa := [0x04, 0x91, 0x91, 0x99], pid := 0, dcs := 4,
    scts := [0x11, 0x30, 0x13, 0x21, 0x43, 0x65, 0x80], udl := 2, ud := [104, 105] }
/-- a message in UCS2 from 1234, for the example -/
def sampleUcs2 : DeliverPdu :=
  { smsc := [0], fo := 0x04, oa := [0x04, 0x81, 0x21, 0x43], pid := 0, dcs := 8,
    scts := [0x11, 0x30, 0x13, 0x21, 0x43, 0x65, 0x80], udl := 2, ud := [0, 65] }

/-- a message from 1234 of which the last octet is missing is assigned to an object that shows another: it keeps the
text of the other, and shows it as sent by 1234 -/
theorem C84_refuted : ¬ C84_full ∧ ∃ d st', smsDeliver (hexUpper sampleBinary84.octets) = .ok d ∧
    setPdu (hexUpper { sampleUcs2 with ud := [0] }.octets) d = .err .indexError st' ∧
    d.number = some (py! "+1999") ∧ st'.number = some (py! "1234") ∧ st'.text = d.text ∧ d.text = some [104, 105] := by
  have h : ∃ d st', smsDeliver (hexUpper sampleBinary84.octets) = .ok d ∧
    setPdu (hexUpper { sampleUcs2 with ud := [0] }.octets) d = .err .indexError st' ∧
    d.number = some (py! "+1999") ∧ st'.number = some (py! "1234") ∧ st'.text = d.text ∧ d.text = some [104, 105] :=
    ⟨_, _, rfl, rfl, by decide +kernel, by decide +kernel, by decide +kernel, by decide +kernel⟩
  refine ⟨fun hc => ?_, h⟩
  obtain ⟨d, st', _, h1, h2, h3, _⟩ := h
  have := hc _ _ _ _ h1
  subst this
  rw [h2] at h3
  cases h3

/-- the hypotheses of `C84_mixed` are met by that message -/
example : sampleUcs2.Ok ∧ (∃ d, smsDeliver (hexUpper sampleUcs2.octets) true = .ok d) ∧
    ∃ e st', setPdu (hexUpper { sampleUcs2 with udl := 2, ud := [0] }.octets) (State.fresh true) = .err e st' :=
  ⟨⟨by decide, ⟨none, rfl⟩, rfl, ⟨4, 0x81, [0x21, 0x43], rfl, rfl⟩, rfl⟩, ⟨_, rfl⟩, ⟨_, _, rfl⟩⟩
/-- two of three assignments succeed -/
example : (decoded true [hexUpper sampleUcs2.octets, py! "07", hexUpper sampleBinary84.octets]).length = 2 := by decide +kernel

end Verif.Props

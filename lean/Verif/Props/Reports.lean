import Verif.Spec.Reports
import Verif.Spec.Same
import Verif.Proofs.History
import Verif.Proofs.Repeat
import Verif.Proofs.Relay
import Verif.Props.Injective
import Verif.Props.Reply
import Verif.Props.Relay
import Verif.Props.Deliver
/-!
# C107: status reports and the messages they are about
-/
set_option autoImplicit false

namespace Verif.Props
open Verif Verif.Submit Verif.Spec Verif.Spec.Sms Verif.Spec.Submit Verif.Spec.Time Verif.Spec.Same Verif.Spec.Reports
open Verif.Deliver (smsDeliver)

theorem denotes_display {x : List Nat} {a : Address} (g3 : Denotes x a) : display a = x.filter (· ≠ 10) := by
  obtain ⟨plus, nl, ds, hx, hd, ht, hdig⟩ := g3
  have hmap : ds.map ((fun x => x + 48) ∘ fun x => x - 48) = ds := by
    conv_rhs => rw [← List.map_id ds]
    apply List.map_congr_left
    intro y hy
    have := hd y hy
    simp only [Function.comp, id]; omega
  have hf : ds.filter (· ≠ 10) = ds := List.filter_eq_self.2 fun y hy => by have := hd y hy; simp; omega
  rw [display, hdig, hx, ht, List.map_map, hmap, List.filter_append, List.filter_append, hf]
  cases plus <;> cases nl <;> simp

/-- the numbers that denote the same address are those that are the same -/
theorem same_denotes {x y : List Nat} {a b : Address} (h1 : Denotes x a) (h2 : Denotes y b) (h : SameNumber x y) : a = b := by
  have hf : x.filter (· ≠ 10) = y.filter (· ≠ 10) := by
    obtain ⟨w, hx, hy⟩ := h
    have : ∀ z : List Nat, (z = w ∨ z = w ++ [10]) → z.filter (· ≠ 10) = w.filter (· ≠ 10) := by
      rintro z (rfl | rfl)
      · rfl
      · simp
    rw [this x hx, this y hy]
  have hd : display a = display b := (denotes_display h1).trans (hf.trans (denotes_display h2).symm)
  obtain ⟨a1, a2⟩ := denotes_lt h1
  obtain ⟨b1, b2⟩ := denotes_lt h2
  have e := denotes_unique (display_denotes a1) (hd ▸ display_denotes b1)
  have hp : ∀ c : Address, (c.toa = 0x91 ∨ c.toa = 0x81) → plainType c = c := by
    rintro ⟨t, ds⟩ (h | h) <;> simp only at h <;> subst h <;> simp [plainType]
  rwa [hp a a2, hp b b2] at e

/-- a PDU is read in one way -/
theorem reportsOn_envelope {s : State} {al : Alphabet} {mr n i udl : Nat} {ud : List Nat} {p : Pdu}
    (he : Envelope s al mr n i p udl ud) {r : ReportPdu} :
    ReportsOn r p ↔ r.mr = mr ∧ ∃ x a, s.number = some x ∧ Denotes x a ∧ r.Ok a := by
  obtain ⟨bytes, sm, rest, sub, h1, h2, h3, _, _, _, _, h4, _, _, _, _, _, h5, _, ⟨x, h6, h7⟩, _⟩ := he
  constructor
  · rintro ⟨bytes', sm', rest', sub', g1, g2, g3, g4, g5, g6⟩
    have e1 := Deliver.hexUpper_inj h2 g2 (h1.symm.trans g1)
    subst e1
    rw [h3] at g3
    simp only [Option.some.injEq, Prod.mk.injEq] at g3
    obtain ⟨_, rfl⟩ := g3
    rw [h4] at g4
    simp only [Option.some.injEq] at g4
    subst g4
    exact ⟨g5.trans h5, x, _, h6, h7, g6⟩
  · rintro ⟨g1, x', a, g2, g3, g4⟩
    rw [h6] at g2
    simp only [Option.some.injEq] at g2
    subst g2
    have := denotes_unique g3 h7
    subst this
    exact ⟨bytes, sm, rest, sub, h1, h2, h3, h4, g1.trans h5.symm, g4⟩

/-- the reports on a PDU of a message: its reference, its number -/
theorem reportsOn_iff {s s' : State} {ps : List Pdu} (hr : Ready s) (h : toPdu s = .ok ps s')
    (hb : s.fmt = some 4 → ∀ x ∈ s.text.s, x < 256) {p : Pdu} (hp : p ∈ ps) {r : ReportPdu} :
    ReportsOn r p ↔ r.mr = mrOf s ∧ ∃ x a, s.number = some x ∧ Denotes x a ∧ r.Ok a := by
  obtain ⟨i, hi, rfl⟩ := List.getElem_of_mem hp
  obtain ⟨udl, ud, he⟩ := toPdu_any hr h hb i hi
  exact reportsOn_envelope he

/-- the parts of a decoded status report a program can compare: recipient and reference -/
def reportKey (d : Deliver.State) : Option (List Nat × Nat) :=
  match d.sr, (Deliver.data d).concat with
  | some sr, some (ref, _, _) => some (sr.recipient, ref)
  | _, _ => none

/-- The full claim: a status report about a PDU of a message decodes to the number the message was sent to and the
reference it has got; and it is a report about no other PDU, neither another part of the message nor a part of another
message.  The second half is false, see `C107_refuted`. -/
def C107_full : Prop :=
  (∀ (s s' : State) (ps : List Pdu), Ready s → toPdu s = .ok ps s' → (s.fmt = some 4 → ∀ x ∈ s.text.s, x < 256) →
    ∀ p ∈ ps, ∀ (r : ReportPdu), ReportsOn r p → ∀ strict, ∃ (d : Deliver.State) (x : List Nat) (mr : Nat), smsDeliver (hexUpper r.octets) strict = .ok d ∧
      s'.number = some x ∧ s'.ref = some (mr : Int) ∧ reportKey d = some (x.filter (· ≠ 10), mr)) ∧
  (∀ (s s' : State) (ps : List Pdu), Ready s → toPdu s = .ok ps s' → (s.fmt = some 4 → ∀ x ∈ s.text.s, x < 256) →
    ∀ p ∈ ps, ∀ q ∈ ps, ∀ r : ReportPdu, ReportsOn r p → ReportsOn r q → p = q) ∧
  (∀ (n1 n2 : Option (List Nat)) (t1 t2 : PyStr) (s1 s1' s2 s2' : State) (ps1 ps2 : List Pdu), init n1 t1 = .ok s1 →
    init n2 t2 = .ok s2 → t1 ≠ t2 → Ready s1 → Ready s2 → toPdu s1 = .ok ps1 s1' → toPdu s2 = .ok ps2 s2' →
    ∀ p ∈ ps1, ∀ q ∈ ps2, ∀ r : ReportPdu, ReportsOn r p → ¬ ReportsOn r q)

/-- C107: a report on any part of a message decodes to the number the message was sent to (without the newline that
may end it) and to the message's `ref` after the call.  Missing of `C107_full`: that it is about nothing else. -/
theorem C107_partial (s s' : State) (ps : List Pdu) (hr : Ready s) (h : toPdu s = .ok ps s')
    (hb : s.fmt = some 4 → ∀ x ∈ s.text.s, x < 256) (p : Pdu) (hp : p ∈ ps) (r : ReportPdu) (hrep : ReportsOn r p)
    (strict : Bool) : ∃ (d : Deliver.State) (x : List Nat) (mr : Nat), smsDeliver (hexUpper r.octets) strict = .ok d ∧
      s'.number = some x ∧ s'.ref = some (mr : Int) ∧ reportKey d = some (x.filter (· ≠ 10), mr) := by
  obtain ⟨g1, x, a, g2, g3, g4⟩ := (reportsOn_iff hr h hb hp).1 hrep
  obtain ⟨d, h1, h2, _, _, h3, _⟩ := C29_report r a g4 strict
  have ha := toPdu_after h
  refine ⟨d, x, mrOf s, h1, ha.number.trans g2, ha.ref, ?_⟩
  simp only [reportKey, h2, h3, denotes_display g3, g1]

/-- C107: every PDU of every message has status reports, with any times and any status. -/
theorem C107_exists (s s' : State) (ps : List Pdu) (hr : Ready s) (h : toPdu s = .ok ps s')
    (hb : s.fmt = some 4 → ∀ x ∈ s.text.s, x < 256) (p : Pdu) (hp : p ∈ ps) (rest : List Nat) (hrest : ∀ x ∈ rest, x < 256) :
    ∃ r : ReportPdu, ReportsOn r p ∧ r.rest = rest := by
  obtain ⟨i, hi, rfl⟩ := List.getElem_of_mem hp
  obtain ⟨udl, ud, he⟩ := toPdu_any hr h hb i hi
  obtain ⟨bytes, sm, rest', sub, h1, h2, h3, _, _, _, _, h4, _, _, _, _, _, h5, _, ⟨x, h6, h7⟩, _⟩ := id he
  have hmr : mrOf s < 256 := mrOf_lt s
  obtain ⟨k1, k2⟩ := denotes_lt h7
  have hlen : sub.da.digits.length < 256 := by
    obtain ⟨y, hy, hv⟩ := hr.number
    rw [h6] at hy
    cases hy
    have hd := congrArg List.length (denotes_display h7)
    obtain ⟨plus, nl, ds, hx, _, hl, hd'⟩ := hv
    have hf : ds.filter (· ≠ 10) = ds := List.filter_eq_self.2 fun y hy => by have := hd' y hy; simp; omega
    rw [display, hx, List.filter_append, List.filter_append, hf] at hd
    simp only [List.length_append, List.length_map] at hd
    have e1 : (List.filter (fun x => decide (x ≠ 10)) (if plus = true then [43] else [])).length ≤ 1 := by
      cases plus <;> decide
    have e2 : (List.filter (fun x => decide (x ≠ 10)) (if nl = true then [10] else [])).length ≤ 1 := by
      cases nl <;> decide
    omega
  refine ⟨⟨[0], 2, mrOf s, addrBytes sub.da, rest⟩, (reportsOn_envelope he).2 ⟨rfl, x, _, h6, h7, ?_⟩, rfl⟩
  refine ⟨?_, ⟨none, rfl⟩, rfl, ?_, k1⟩
  · intro y hy
    simp only [ReportPdu.octets, addrBytes, List.mem_append, List.mem_cons, List.not_mem_nil, or_false] at hy
    rcases hy with ((rfl | rfl | rfl) | (rfl | rfl | hy)) | hy
    · omega
    · omega
    · exact hmr
    · exact hlen
    · omega
    · exact bcd_lt _ k1 y hy
    · exact hrest y hy
  · have := readAddress_ok k1 []
    rwa [List.append_nil] at this

/-- C107: a report about one part of a message is as well a report about every other part. -/
theorem C107_parts (s s' : State) (ps : List Pdu) (hr : Ready s) (h : toPdu s = .ok ps s')
    (hb : s.fmt = some 4 → ∀ x ∈ s.text.s, x < 256) (p q : Pdu) (hp : p ∈ ps) (hq : q ∈ ps) (r : ReportPdu) :
    ReportsOn r p ↔ ReportsOn r q := by
  rw [reportsOn_iff hr h hb hp, reportsOn_iff hr h hb hq]

/-- C107: PDUs of two messages have a report in common exactly when the messages were sent to the same number and have
got the same reference; and then they have all reports in common. -/
theorem C107_common (s1 s1' s2 s2' : State) (ps1 ps2 : List Pdu) (hr1 : Ready s1) (hr2 : Ready s2)
    (h1 : toPdu s1 = .ok ps1 s1') (h2 : toPdu s2 = .ok ps2 s2')
    (hb1 : s1.fmt = some 4 → ∀ x ∈ s1.text.s, x < 256) (hb2 : s2.fmt = some 4 → ∀ x ∈ s2.text.s, x < 256)
    (p q : Pdu) (hp : p ∈ ps1) (hq : q ∈ ps2) :
    ((∃ r, ReportsOn r p ∧ ReportsOn r q) ↔
      s1'.ref = s2'.ref ∧ ∃ x y, s1.number = some x ∧ s2.number = some y ∧ SameNumber x y) ∧
    ((∃ r, ReportsOn r p ∧ ReportsOn r q) → ∀ r, ReportsOn r p ↔ ReportsOn r q) := by
  have e1 := (toPdu_after h1).ref
  have e2 := (toPdu_after h2).ref
  have key : s1'.ref = s2'.ref ∧ (∃ x y, s1.number = some x ∧ s2.number = some y ∧ SameNumber x y) →
      ∀ r, ReportsOn r p → ReportsOn r q := by
    rintro ⟨hm, x, y, hx, hy, hs⟩ r hr
    rw [reportsOn_iff hr1 h1 hb1 hp] at hr
    obtain ⟨g1, x', a, g2, g3, g4⟩ := hr
    rw [hx] at g2
    cases g2
    obtain ⟨r0, hr0, _⟩ := C107_exists s2 s2' ps2 hr2 h2 hb2 q hq [] (by simp)
    rw [reportsOn_iff hr2 h2 hb2 hq] at hr0 ⊢
    obtain ⟨_, y', b, k2, k3, _⟩ := hr0
    rw [hy] at k2
    cases k2
    rw [e1, e2] at hm
    have hm' : mrOf s1 = mrOf s2 := by simpa using hm
    exact ⟨g1.trans hm', y, b, hy, k3, same_denotes g3 k3 hs ▸ g4⟩
  have fwd : (∃ r, ReportsOn r p ∧ ReportsOn r q) →
      s1'.ref = s2'.ref ∧ ∃ x y, s1.number = some x ∧ s2.number = some y ∧ SameNumber x y := by
    rintro ⟨r, ha, hb⟩
    rw [reportsOn_iff hr1 h1 hb1 hp] at ha
    rw [reportsOn_iff hr2 h2 hb2 hq] at hb
    obtain ⟨a1, x, a, a2, a3, a4⟩ := ha
    obtain ⟨b1, y, b, b2, b3, b4⟩ := hb
    have hab : a = b := by
      have := a4.ra.symm.trans b4.ra
      simpa using this
    subst hab
    refine ⟨?_, x, y, a2, b2, denotes_same a3 b3⟩
    rw [e1, e2, ← a1, ← b1]
  refine ⟨⟨fwd, fun h => ?_⟩, fun h r => ⟨key (fwd h) r, fun hq' => ?_⟩⟩
  · obtain ⟨r, hr, _⟩ := C107_exists s1 s1' ps1 hr1 h1 hb1 p hp [] (by simp)
    exact ⟨r, hr, key h r hr⟩
  · obtain ⟨hm, x, y, hx, hy, w, hw1, hw2⟩ := fwd h
    rw [reportsOn_iff hr2 h2 hb2 hq] at hq'
    obtain ⟨g1, y', b, g2, g3, g4⟩ := hq'
    rw [hy] at g2
    cases g2
    obtain ⟨r0, hr0, _⟩ := C107_exists s1 s1' ps1 hr1 h1 hb1 p hp [] (by simp)
    rw [reportsOn_iff hr1 h1 hb1 hp] at hr0 ⊢
    obtain ⟨_, x', a, k2, k3, _⟩ := hr0
    rw [hx] at k2
    cases k2
    rw [e1, e2] at hm
    have hm' : mrOf s1 = mrOf s2 := by simpa using hm
    exact ⟨g1.trans hm'.symm, x, a, hx, k3, same_denotes g3 k3 ⟨w, hw2, hw1⟩ ▸ g4⟩

/-! ## Messages whose reference is not assigned -/

/-- the computation keeps `I`, whether it raises or not -/
def Keeps {α : Type} (I : State → Prop) (m : M State α) : Prop := ∀ s, I s → I (m s).state

theorem Keeps.bind {α β : Type} {I : State → Prop} {m : M State α} {f : α → M State β} (hm : Keeps I m)
    (hf : ∀ x, Keeps I (f x)) : Keeps I (m >>= f) := by
  intro s h
  have hd := hm s h
  rw [M.bind_apply]
  cases hms : m s with
  | ok x s' => rw [hms] at hd; exact hf x s' hd
  | err e s' => rw [hms] at hd; exact hd

theorem keeps_lift {α : Type} {I : State → Prop} (x : Py α) : Keeps I (M.lift x : M State α) := by
  intro s h; cases x <;> exact h

theorem keeps_pure {α : Type} {I : State → Prop} (x : α) : Keeps I (pure x : M State α) := fun _ h => h

/-- the reference is 0 -/
def RefZero (s : State) : Prop := s.ref = some 0

theorem keeps_split (c : Coding) (t : PyStr) : Keeps RefZero (splitSmsMessage c t) := by
  intro s h
  obtain ⟨parts, hp, _⟩ := splitLoop_ok t.s c.mpSize (by cases c <;> decide)
  rw [splitSmsMessage_eq c t s hp]
  have : (M.lift (packParts c t.uni (crOf s) parts.length 0 parts) (afterSplit s)).state = afterSplit s := by
    cases packParts c t.uni (crOf s) parts.length 0 parts <;> rfl
  rw [this]
  unfold afterSplit
  split <;> exact h

theorem keeps_body (f : Nat) (t : PyStr) : Keeps RefZero (bodyM f t) := by
  have hp : ∀ x : Py Str, Keeps RefZero (M.lift x >>= fun m => (pure [m] : M State (List Str))) := fun x =>
    (keeps_lift x).bind (fun _ => keeps_pure _)
  unfold bodyM
  split
  · refine (keeps_lift _).bind fun g => Keeps.bind (fun _ h => h) fun _ => ?_
    split
    · exact hp _
    · exact keeps_split _ _
  · split
    · split
      · exact hp _
      · exact keeps_split _ _
    · split
      · split
        · exact hp _
        · exact keeps_split _ _
      · exact fun _ h => h

theorem keeps_msg : Keeps RefZero getMsgPdu := by
  intro s h
  rw [getMsgPdu_eq]
  have hw : RefZero (withDcs s) := h
  have : Keeps RefZero ((M.lift (pyChr (dcsOf (effFmt s) s.klass)) : M State Nat) >>= fun d =>
      (M.lift (vpPdu s.validity) : M State Str) >>= fun vp =>
      bodyM (effFmt s) s.text >>= fun msgs => pure (msgs.map (fun m => encodeStr [d] ++ vp ++ m))) :=
    (keeps_lift _).bind fun d => (keeps_lift _).bind fun vp => (keeps_body _ _).bind fun msgs => keeps_pure _
  exact this _ hw

/-- the reference is zero or will be -/
def Zero (s : State) : Prop := (s.ref = none ∧ Drawn s 0) ∨ s.ref = some 0

theorem zero_mr {s : State} (h : Zero s) : mrOf s = 0 := by
  rcases h with ⟨h1, h2⟩ | h
  · exact drawn_mr h2 h1
  · simp [mrOf, h]

theorem zero_lift {α β : Type} {x : Py α} {f : α → M State β} {s : State} (hs : Zero s)
    (h : ∀ a, Zero (f a s).state) : Zero ((M.lift x >>= f) s).state := by
  cases x with
  | ok a => rw [M.bind_ok (M.lift_ok _ _)]; exact h a
  | error e => exact hs

theorem zero_toPdu {s : State} (h : Zero s) : Zero (toPdu s).state := by
  unfold toPdu
  rw [M.bind_ok (M.get_apply s)]
  refine zero_lift h fun _ => zero_lift h fun _ => ?_
  rw [M.bind_ok (getTpmessrefPdu_eq s)]
  have hz : RefZero (afterRef s) := by
    unfold RefZero afterRef
    split <;> simp [zero_mr h]
  refine .inr (Keeps.bind (I := RefZero) (keeps_lift _) (fun _ => (keeps_lift _).bind fun _ => keeps_msg.bind fun msgs => ?_) _ hz)
  have hms : ∀ (pre : Str → Str) (l n : Nat) (ms : List Str), Keeps RefZero
      (M.lift (getSmsSubmitPdu s.validity s.requestStatus true) >>= fun submit =>
        (pure (mkPdus (pre submit) l n 0 ms) : M State (List Pdu))) := fun pre l n ms =>
    (keeps_lift _).bind fun _ => keeps_pure _
  rcases msgs with _ | ⟨m, _ | ⟨m2, r⟩⟩
  · exact hms (fun x => _ ++ x ++ _ ++ _ ++ _) _ _ _
  · exact keeps_pure _
  · exact hms (fun x => _ ++ x ++ _ ++ _ ++ _) _ _ _

theorem step_ref (s : State) (op : Op) (h : op ≠ .call) (hr : ∀ r, op ≠ .ref r) : (step s op).ref = s.ref := by
  cases op with
  | call => exact absurd rfl h
  | number x =>
    simp only [step, setNumber]
    cases x with
    | none => rfl
    | some x => simp only []; split <;> rfl
  | csca x =>
    simp only [step, setCsca]
    cases x with
    | none => rfl
    | some x => simp only []; split <;> rfl
  | klass k =>
    simp only [step, setKlass]
    cases k with
    | notInt => rfl
    | int k => simp only []; split <;> rfl
  | ref r => exact absurd rfl (hr r)
  | validity v => rfl
  | requestStatus b => rfl
  | randId r => rfl
  | pid p => rfl
  | text t => rfl
  | fmt f => rfl

theorem zero_step {s : State} (h : Zero s) (op : Op) (hr : ∀ r, op ≠ .ref r) : Zero (step s op) := by
  by_cases hc : op = .call
  · subst hc; exact zero_toPdu h
  · unfold Zero
    rw [step_ref s op hc hr]
    rcases h with ⟨h1, h2⟩ | h
    · exact .inl ⟨h1, drawn_of_ids (step_ids s op hc) h2⟩
    · exact .inr h

theorem zero_run {s : State} (h : Zero s) (ops : List Op) (hr : ∀ op ∈ ops, ∀ r, op ≠ .ref r) : Zero (run s ops) := by
  induction ops generalizing s with
  | nil => exact h
  | cons op ops ih =>
    exact ih (zero_step h op (hr op (by simp))) fun o ho => hr o (by simp [ho])

theorem init_ref {n : Option (List Nat)} {t : PyStr} {s : State} (h : init n t = .ok s) : s.ref = none := by
  unfold init at h
  simp only [] at h
  split at h
  · rename_i s0 hs
    simp only [Except.ok.injEq] at h
    subst h
    unfold setNumber at hs
    cases n with
    | none => simp only [M.modify, Res.ok.injEq, true_and] at hs; rw [← hs]
    | some x =>
      simp only [] at hs
      split at hs
      · cases hs
      · simp only [M.modify, Res.ok.injEq, true_and] at hs; rw [← hs]
  · cases h

/-- C107: whatever is done with an object but assigning `ref`, all its messages get the reference 0: reports on different
messages to the same number, of the same or of different objects, are told apart only if references are assigned. -/
theorem C107_unset (n : Option (List Nat)) (t : PyStr) (s0 : State) (hi : init n t = .ok s0) (ops : List Op)
    (hops : ∀ op ∈ ops, ∀ r, op ≠ .ref r) (ps : List Pdu) (s' : State) (h : toPdu (run s0 ops) = .ok ps s') :
    s'.ref = some 0 ∧ (Ready (run s0 ops) → ((run s0 ops).fmt = some 4 → ∀ x ∈ (run s0 ops).text.s, x < 256) →
      ∀ p ∈ ps, ∀ r, ReportsOn r p → r.mr = 0) := by
  have hz := zero_mr (zero_run (.inl ⟨init_ref hi, init_drawn hi⟩) ops hops)
  refine ⟨by rw [(toPdu_after h).ref, hz]; rfl, fun hr hb p hp r hrep => ?_⟩
  rw [reportsOn_iff hr h hb hp, hz] at hrep
  exact hrep.1

/-! ## The counterexamples, and examples for the hypotheses -/

/-- a new message to a number -/
def fresh107 (t : List Nat) : State :=
  { number := some (py! "+34616585119"), csca := none, klass := none, validity := .none, requestStatus := false,
    ref := none, randId := none, idList := List.range 255, pid := 0, text := ⟨true, t⟩, fmt := none, dcs := none,
    textGsm := none }

theorem fresh107_init (t : List Nat) : init (some (py! "+34616585119")) ⟨true, t⟩ = .ok (fresh107 t) := by
  have h : Submit.validNumber (py! "+34616585119") = true := by decide +kernel
  unfold init setNumber
  simp only [h, Bool.not_true, Bool.and_false, Bool.false_eq_true, if_false, M.modify, fresh107]

theorem fresh107_ready (t : List Nat) : Ready (fresh107 t) where
  number := ⟨_, rfl, (validNumber_iff _).1 (by decide +kernel)⟩
  csca := trivial
  klass := by rintro k ⟨⟩
  pid := ⟨le_refl 0, by exact (by decide : (0 : Int) < 256)⟩
  validity := trivial

/-- the PDUs, if there are any -/
def pdus107 (s : State) : List Pdu :=
  match toPdu s with
  | .ok ps _ => ps
  | .err _ _ => []

theorem pdus107_ok {s : State} (h : pdus107 s ≠ []) : ∃ s', toPdu s = .ok (pdus107 s) s' := by
  unfold pdus107 at h ⊢
  cases hp : toPdu s with
  | ok ps s' => exact ⟨s', rfl⟩
  | err e s' => rw [hp] at h; exact absurd rfl h

/-- C107: the two parts of a message of 161 letters have the same reports. -/
theorem C107_refuted_parts : ¬ (∀ (s s' : State) (ps : List Pdu), Ready s → toPdu s = .ok ps s' →
    (s.fmt = some 4 → ∀ x ∈ s.text.s, x < 256) →
    ∀ p ∈ ps, ∀ q ∈ ps, ∀ r : ReportPdu, ReportsOn r p → ReportsOn r q → p = q) := by
  intro hf
  have hk : (pdus107 (fresh107 (List.replicate 161 97))).map Pdu.seq = [1, 2] := by decide +kernel
  generalize List.replicate 161 97 = t at hk
  obtain ⟨s', hs⟩ := pdus107_ok (s := fresh107 t) fun h => by rw [h] at hk; cases hk
  generalize pdus107 (fresh107 t) = ps at hk hs
  match ps, hk with
  | [], hk => cases hk
  | [_], hk => simp at hk
  | _ :: _ :: _ :: _, hk => simp at hk
  | [p, q], hk =>
    have hb : (fresh107 t).fmt = some 4 → ∀ x ∈ (fresh107 t).text.s, x < 256 :=
      fun h => by cases h
    obtain ⟨r, hr, _⟩ := C107_exists _ _ _ (fresh107_ready _) hs hb p (by simp) [] (by simp)
    have := hf _ _ _ (fresh107_ready _) hs hb p (by simp) q (by simp) r hr
      ((C107_parts _ _ _ (fresh107_ready _) hs hb p q (by simp) (by simp) r).1 hr)
    subst this
    simp at hk
    omega

/-- C107: "Hi" and "Ho", sent to the same number, have the same reports. -/
theorem C107_refuted_messages : ∃ (s1 s1' s2 s2' : State) (p q : Pdu),
    init (some (py! "+34616585119")) ⟨true, py! "Hi"⟩ = .ok s1 ∧ init (some (py! "+34616585119")) ⟨true, py! "Ho"⟩ = .ok s2 ∧
    Ready s1 ∧ Ready s2 ∧ toPdu s1 = .ok [p] s1' ∧ toPdu s2 = .ok [q] s2' ∧ p.pdu ≠ q.pdu ∧
    (∃ r, ReportsOn r p) ∧ ∀ r, ReportsOn r p ↔ ReportsOn r q := by
  have hk : (pdus107 (fresh107 (py! "Hi"))).length = 1 ∧ (pdus107 (fresh107 (py! "Ho"))).length = 1 ∧
      (pdus107 (fresh107 (py! "Hi"))).map Pdu.pdu ≠ (pdus107 (fresh107 (py! "Ho"))).map Pdu.pdu := by decide +kernel
  obtain ⟨k1, k2, k3⟩ := hk
  obtain ⟨s1', h1⟩ := pdus107_ok (s := fresh107 (py! "Hi")) fun h => by rw [h] at k1; cases k1
  obtain ⟨s2', h2⟩ := pdus107_ok (s := fresh107 (py! "Ho")) fun h => by rw [h] at k2; cases k2
  obtain ⟨p, hp⟩ := List.length_eq_one_iff.1 k1
  obtain ⟨q, hq⟩ := List.length_eq_one_iff.1 k2
  rw [hp] at h1 k3
  rw [hq] at h2 k3
  have hb : ∀ t, (fresh107 t).fmt = some 4 → ∀ x ∈ (fresh107 t).text.s, x < 256 := fun t h => by cases h
  have hc := C107_common _ _ _ _ _ _ (fresh107_ready _) (fresh107_ready _) h1 h2 (hb _) (hb _) p q (by simp) (by simp)
  have hu1 := (C107_unset _ _ _ (fresh107_init _) [] (by simp) _ _ h1).1
  have hu2 := (C107_unset _ _ _ (fresh107_init _) [] (by simp) _ _ h2).1
  obtain ⟨r, hr, _⟩ := C107_exists _ _ _ (fresh107_ready _) h1 (hb _) p (by simp) [] (by simp)
  exact ⟨_, s1', _, s2', p, q, fresh107_init _, fresh107_init _, fresh107_ready _, fresh107_ready _, h1, h2,
    fun h => k3 (by simp [h]), ⟨r, hr⟩,
    hc.2 (hc.1.2 ⟨hu1.trans hu2.symm, _, _, rfl, rfl, _, .inl rfl, .inl rfl⟩)⟩

theorem C107_refuted : ¬ C107_full := fun h => C107_refuted_parts h.2.1

/-- a report that "Hi" has arrived, of a message whose reference was set to 298 -/
example : ∃ (s' : State) (p : Pdu), toPdu { fresh107 (py! "Hi") with ref := some 298 } = .ok [p] s' ∧
    s'.ref = some 42 ∧
    ReportsOn { smsc := [0], fo := 6, mr := 42, ra := [11, 0x91, 0x43, 0x16, 0x56, 0x58, 0x11, 0xF9],
                rest := [0x11, 0x30, 0x13, 0x21, 0x43, 0x65, 0x80, 0x11, 0x30, 0x13, 0x21, 0x43, 0x65, 0x80, 0x00] } p := by
  have hk : (pdus107 { fresh107 (py! "Hi") with ref := some 298 }).length = 1 := by decide +kernel
  have hr : Ready { fresh107 (py! "Hi") with ref := some 298 } :=
    { number := (fresh107_ready (py! "Hi")).number, csca := trivial, klass := fun _ h => (by cases h),
      pid := (fresh107_ready (py! "Hi")).pid, validity := trivial }
  obtain ⟨s', h1⟩ := pdus107_ok (s := { fresh107 (py! "Hi") with ref := some 298 }) fun h => by rw [h] at hk; cases hk
  obtain ⟨p, hp⟩ := List.length_eq_one_iff.1 hk
  rw [hp] at h1
  refine ⟨s', p, h1, (toPdu_after h1).ref, ?_⟩
  rw [reportsOn_iff hr h1 (fun h => by cases h) (by simp)]
  exact ⟨rfl, _, ⟨0x91, [3, 4, 6, 1, 6, 5, 8, 5, 1, 1, 9]⟩, rfl, ⟨true, false, py! "34616585119", rfl, by decide +kernel, rfl, rfl⟩,
    by decide, ⟨none, by decide⟩, by decide, by decide, by decide⟩

/-- a history without assignments of `ref` -/
example : ∃ s0, init (some (py! "+34616585119")) ⟨true, py! "Hi"⟩ = .ok s0 ∧
    (∀ op ∈ [Op.call, .text ⟨true, py! "Ho"⟩, .randId (some 7), .number (some (py! "123"))], ∀ r, op ≠ .ref r) ∧
    ∃ ps s', toPdu (run s0 [.call, .text ⟨true, py! "Ho"⟩, .randId (some 7), .number (some (py! "123"))]) = .ok ps s' := by
  refine ⟨_, fresh107_init _, by simp, ?_⟩
  have hk : (pdus107 (run (fresh107 (py! "Hi")) [.call, .text ⟨true, py! "Ho"⟩, .randId (some 7), .number (some (py! "123"))])).length = 1 := by
    decide +kernel
  obtain ⟨s', h1⟩ := pdus107_ok (s := run (fresh107 (py! "Hi")) [.call, .text ⟨true, py! "Ho"⟩, .randId (some 7),
    .number (some (py! "123"))]) fun h => by rw [h] at hk; cases hk
  exact ⟨_, s', h1⟩

end Verif.Props

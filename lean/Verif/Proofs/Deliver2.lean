import Verif.Proofs.Relay
/-!
# Received PDUs: the decoder as a pure function from octets to a change of the object
-/
set_option autoImplicit false

namespace Verif

/-- the object after a successful call -/
def Res.out {σ α : Type} : Res σ α → Py σ
  | .ok _ s => .ok s
  | .err e _ => .error e

namespace Deliver
open Verif.Spec Verif.Spec.Sms Verif.Spec.Time

theorem out_lift {α : Type} (x : Py α) (f : α → M State Unit) (s : State) :
    ((M.lift x >>= f) s).out = x.bind fun a => (f a s).out := by
  cases x <;> rfl

theorem out_modify (g : State → State) (f : Unit → M State Unit) (s : State) :
    ((M.modify g >>= f) s).out = (f () (g s)).out := rfl

/-- header length in septets or bits -/
def headLen (fmt udLen : Nat) : Nat := if fmt = 0x00 then roundUp7 6 ((udLen + 1) * 8) / 7 else (udLen + 1) * 8

/-- text of the user data; `data` are the octets after the header length octet, if any -/
def textP (fmt msgl headlen udLen : Nat) (msg : Str) (data : List Nat) : Py (State → State) :=
  if fmt = 0x00 then
    (unpackMsg msg).bind fun t => (Gsm.decode .strict ((t.take msgl).drop headlen)).bind fun x =>
      .ok fun s => { s with text := some x }
  else if fmt = 0x04 then .ok fun s => { s with text := some (data.drop udLen) }
  else if fmt = 0x08 then (ucs2Chars (data.drop udLen)).bind fun x => .ok fun s => { s with text := some x }
  else .ok id

/-- user data -/
def udP (mt fmt : Nat) (data : List Nat) : Py (State → State) :=
  (pop0 data).bind fun x =>
    if mt &&& 0x40 ≠ 0 then
      (pop0 x.2).bind fun y => (Udh.fromBytes (y.2.take y.1)).bind fun udh =>
        (textP fmt x.1 (headLen fmt y.1) y.1 (encodeStr (x.2.take x.1)) y.2).bind fun f =>
          .ok fun s => f { s with udh := some udh }
    else textP fmt x.1 0 0 (encodeStr (x.2.take x.1)) x.2

theorem processMessage_out {s : State} {mt fmt : Nat} (hm : s.mtype = some mt) (hf : s.fmt = some fmt) (data : List Nat) :
    (processMessage data s).out = (udP mt fmt data).bind fun f => .ok (f s) := by
  have htext : ∀ (s : State) (msgl headlen udLen : Nat) (msg : Str) (data : List Nat),
      ((if fmt = 0x00 then do
        let t ← M.lift (unpackMsg msg)
        let x ← M.lift (Gsm.decode .strict ((t.take msgl).drop headlen))
        M.modify fun s => { s with text := some x }
      else if fmt = 0x04 then
        M.modify fun s => { s with text := some (data.drop udLen) }
      else if fmt = 0x08 then do
        let x ← M.lift (ucs2Chars (data.drop udLen))
        M.modify fun s => { s with text := some x }
      else pure () : M State Unit) s).out = (textP fmt msgl headlen udLen msg data).bind fun f => .ok (f s) := by
    intro s msgl headlen udLen msg data
    unfold textP
    split
    · rw [out_lift]
      cases unpackMsg msg with
      | error e => rfl
      | ok t =>
        simp only [Except.bind]
        rw [out_lift]
        cases Gsm.decode .strict ((t.take msgl).drop headlen) <;> rfl
    · split
      · rfl
      · split
        · rw [out_lift]
          cases ucs2Chars (data.drop udLen) <;> rfl
        · rfl
  unfold processMessage udP
  rw [out_lift]
  cases pop0 data with
  | error e => rfl
  | ok x =>
    simp only [Except.bind]
    rw [M.bind_ok (M.get_apply _)]
    simp only [hm, hf, Option.getD_some]
    split
    · rw [out_lift]
      cases pop0 x.2 with
      | error e => rfl
      | ok y =>
        simp only [Except.bind]
        rw [out_lift]
        cases Udh.fromBytes (y.2.take y.1) with
        | error e => rfl
        | ok udh =>
          simp only [Except.bind]
          rw [out_modify, M.bind_ok (M.pure_apply _ _)]
          refine (htext _ _ _ _ _ _).trans ?_
          unfold headLen
          cases textP fmt x.1 (if fmt = 0x00 then roundUp7 6 ((y.1 + 1) * 8) / 7 else (y.1 + 1) * 8) y.1
            (encodeStr (x.2.take x.1)) y.2 <;> rfl
    · rw [M.bind_ok (M.pure_apply _ _)]
      exact htext _ _ _ _ _ _

/-- fields of a DELIVER between the first octet and the user data -/
structure Fields where
  sender : Str
  pid : Nat
  dcs : Nat
  date : DateTime

/-- the octets of a DELIVER after the first -/
def fieldsP (data : List Nat) : Py (Fields × List Nat) :=
  (pop0 data).bind fun a => (pop0 a.2).bind fun b =>
    (decodeSender b.1 (b.2.take (semiLen a.1))).bind fun sender =>
      (pop0 (b.2.drop (semiLen a.1))).bind fun c => (pop0 c.2).bind fun d =>
        (pop0 (d.2.drop 6)).bind fun e => (Cal.strptime (swapPairs (encodeStr (d.2.take 6)))).bind fun dt =>
          .ok (⟨sender, c.1, d.1, Cal.subMinutes dt (zoneMinutes e.1)⟩, e.2)

/-- what a DELIVER sets -/
def deliverP (mt : Nat) (data : List Nat) : Py (State → State) :=
  (fieldsP data).bind fun x => (udP mt (fmtOfDcs x.1.dcs) x.2).bind fun f => .ok fun s => f { s with
    number := some x.1.sender, pid := some x.1.pid, dcs := some x.1.dcs, fmt := some (fmtOfDcs x.1.dcs),
    date := some x.1.date }

theorem decodeDeliver_out {s : State} {mt : Nat} (hm : s.mtype = some mt) (data : List Nat) :
    (decodeDeliver data s).out = (deliverP mt data).bind fun f => .ok (f s) := by
  unfold decodeDeliver deliverP fieldsP
  rw [out_lift]
  cases pop0 data with
  | error e => rfl
  | ok a =>
  simp only [Except.bind]
  rw [out_lift]
  cases pop0 a.2 with
  | error e => rfl
  | ok b =>
  simp only [Except.bind]
  rw [out_lift]
  cases decodeSender b.1 (b.2.take (semiLen a.1)) with
  | error e => rfl
  | ok sender =>
  simp only [Except.bind]
  rw [out_modify, out_lift]
  cases pop0 (b.2.drop (semiLen a.1)) with
  | error e => rfl
  | ok c =>
  simp only [Except.bind]
  rw [out_modify, out_lift]
  cases pop0 c.2 with
  | error e => rfl
  | ok d =>
  simp only [Except.bind]
  rw [out_modify, out_lift]
  cases pop0 (d.2.drop 6) with
  | error e => rfl
  | ok e =>
  simp only [Except.bind]
  rw [out_lift]
  cases Cal.strptime (swapPairs (encodeStr (d.2.take 6))) with
  | error e => rfl
  | ok dt =>
  simp only [Except.bind]
  rw [out_modify, processMessage_out (mt := mt) (fmt := fmtOfDcs d.1) (by exact hm) rfl]
  cases udP mt (fmtOfDcs d.1) e.2 <;> rfl

/-- a time stamp and its text -/
def stampP (octets : List Nat) : Option DateTime × Str :=
  match Cal.strptime ((swapPairs (encodeStr (octets.take 7))).take 12) with
  | .ok d => (some d, fmtStamp ((swapPairs (encodeStr (octets.take 7))).take 12))
  | .error _ => (none, [])

/-- the address in a status report -/
def recipientP (ty : Nat) (octets : List Nat) : Str :=
  if (ty >>> 4) &&& 0x07 = 1 then 43 :: swapNumber (encodeStr octets) else swapNumber (encodeStr octets)

/-- pseudo sender of a status report -/
def srSender : List Nat → Str
  | [] => py! "SR-UNKNOWN"
  | st :: _ => if st = 0x00 then py! "SR-OK" else if st = 0x1 then py! "SR-UNKNOWN"
      else if st = 0x30 then py! "SR-STORED" else py! "SR-UNKNOWN"

/-- the last part of the text of a status report -/
def srLast (dtStr : Str) : List Nat → Str
  | [] => dtStr
  | st :: _ => if st = 0x00 then dtStr else []

/-- what a status report sets -/
def reportP (data : List Nat) : Py (State → State) :=
  (pop0 data).bind fun a => (pop0 a.2).bind fun b => (pop0 b.2).bind fun c => .ok fun s =>
    let recipient := recipientP c.1 (c.2.take (semiLen b.1))
    let r := c.2.drop (semiLen b.1)
    let scts := stampP r
    let dt := stampP (r.drop 7)
    let date := match scts.1 with | some d => some d | none => s.date
    { s with
      udh := some (Udh.fromStatusReportRef a.1)
      date := date
      number := some (srSender ((r.drop 7).drop 7))
      text := some (recipient ++ [124] ++ scts.2 ++ [124] ++ srLast dt.2 ((r.drop 7).drop 7))
      fmt := some 0x08
      type := some 0x03
      sr := some ⟨recipient, date, dt.1, ((r.drop 7).drop 7).head?⟩ }

theorem decodeStatusReport_out (s : State) (data : List Nat) :
    (decodeStatusReport data s).out = (reportP data).bind fun f => .ok (f s) := by
  unfold decodeStatusReport reportP
  rw [out_lift]
  cases pop0 data with
  | error e => rfl
  | ok a =>
  simp only [Except.bind]
  rw [out_modify, out_lift]
  cases pop0 a.2 with
  | error e => rfl
  | ok b =>
  simp only [Except.bind]
  rw [out_lift]
  cases pop0 b.2 with
  | error e => rfl
  | ok c =>
  simp only [Except.bind, stampP, recipientP]
  cases Cal.strptime ((swapPairs (encodeStr ((c.2.drop (semiLen b.1)).take 7))).take 12) with
  | error e =>
    simp only []
    rw [M.bind_ok (M.pure_apply _ _), M.modify_apply]
    simp only [Res.out]
    cases Cal.strptime ((swapPairs (encodeStr (((c.2.drop (semiLen b.1)).drop 7).take 7))).take 12) <;>
      cases ((c.2.drop (semiLen b.1)).drop 7).drop 7 <;> rfl
  | ok d =>
    simp only []
    simp only [M.bind_apply, M.modify_apply, M.pure_apply, Res.out]
    cases Cal.strptime ((swapPairs (encodeStr (((c.2.drop (semiLen b.1)).drop 7).take 7))).take 12) <;>
      cases ((c.2.drop (semiLen b.1)).drop 7).drop 7 <;> rfl

/-- the service centre field -/
def smscP (data : List Nat) : Py (Option Str × List Nat) :=
  (pop0 data).bind fun a =>
    if a.1 > 0 then
      (pop0 a.2).bind fun b => .ok (some (recipientP b.1 (b.2.take (a.1 - 1))), b.2.drop (a.1 - 1))
    else .ok (none, a.2)

/-- what the octets of a PDU set -/
def pduP (data : List Nat) : Py (State → State) :=
  (smscP data).bind fun x => (pop0 x.2).bind fun m =>
    (if m.1 &&& 0x03 = 0x02 then reportP m.2
     else if m.1 &&& 0x03 = 0x01 then .error .valueError
     else deliverP m.1 m.2).bind fun f => .ok fun s => f { s with csca := x.1, mtype := some m.1 }

/-- removal of the odd character -/
def trim (strict : Bool) (pdu : Str) : Str := if !strict && pdu.length % 2 ≠ 0 then pdu.dropLast else pdu

/-- assigning `.pdu` as a pure function -/
def setP (pdu : Str) (st : State) : Py State :=
  if (trim st.strict pdu).length % 2 ≠ 0 then .error .valueError
  else (toArray (trim st.strict pdu)).bind fun data => (pduP data).bind fun f =>
    .ok (f { st with pdu := some (trim st.strict pdu) })

theorem setPdu_out (pdu : Str) (st : State) : (setPdu pdu st).out = setP pdu st := by
  unfold setPdu setP
  rw [M.bind_ok (M.get_apply st)]
  change ((if (trim st.strict pdu).length % 2 ≠ 0 then _ else _ : M State Unit) st).out = _
  split
  · rfl
  change ((M.modify (fun s => { s with pdu := some (trim st.strict pdu) }) >>= _ : M State Unit) st).out = _
  rw [out_modify, out_lift]
  change ((toArray (trim st.strict pdu)).bind _) = _
  cases toArray (trim st.strict pdu) with
  | error e => rfl
  | ok data =>
  simp only [Except.bind, pduP, smscP]
  rw [out_lift]
  have hrest : ∀ (s : State) (x : Option Str) (data : List Nat), s.csca = x →
      ((M.lift (pop0 data) >>= fun m => (M.modify (fun s => { s with mtype := some m.1 }) >>= fun _ =>
        if m.1 &&& 0x03 = 0x02 then decodeStatusReport m.2
        else if m.1 &&& 0x03 = 0x01 then M.throw .valueError
        else decodeDeliver m.2) : M State Unit) s).out =
      ((pop0 data).bind fun m =>
        (if m.1 &&& 0x03 = 0x02 then reportP m.2
         else if m.1 &&& 0x03 = 0x01 then .error .valueError
         else deliverP m.1 m.2).bind fun f => .ok fun s => f { s with csca := x, mtype := some m.1 }).bind
        fun f => .ok (f s) := by
    intro s x data hx
    rw [out_lift]
    cases pop0 data with
    | error e => rfl
    | ok m =>
      simp only [Except.bind]
      rw [out_modify]
      split
      · rw [decodeStatusReport_out]
        cases reportP m.2 with
        | error e => rfl
        | ok f => simp only [Except.bind, ← hx]
      · split
        · rfl
        · rw [decodeDeliver_out (mt := m.1) rfl]
          cases deliverP m.1 m.2 with
          | error e => rfl
          | ok f => simp only [Except.bind, ← hx]
  cases pop0 data with
  | error e => rfl
  | ok a =>
  simp only [Except.bind]
  split
  · rw [out_lift]
    cases pop0 a.2 with
    | error e => rfl
    | ok b =>
      simp only [Except.bind]
      rw [out_modify, M.bind_ok (M.pure_apply _ _)]
      refine (hrest _ (some (recipientP b.1 (b.2.take (a.1 - 1)))) _ rfl).trans ?_
      simp only []
      cases pop0 (b.2.drop (a.1 - 1)) with
      | error e => rfl
      | ok m =>
        simp only [Except.bind]
        cases (if m.1 &&& 0x03 = 0x02 then reportP m.2 else if m.1 &&& 0x03 = 0x01 then .error .valueError
          else deliverP m.1 m.2) <;> rfl
  · rw [out_modify, M.bind_ok (M.pure_apply _ _)]
    refine (hrest _ none _ rfl).trans ?_
    simp only []
    cases pop0 a.2 with
    | error e => rfl
    | ok m =>
      simp only [Except.bind]
      cases (if m.1 &&& 0x03 = 0x02 then reportP m.2 else if m.1 &&& 0x03 = 0x01 then .error .valueError
        else deliverP m.1 m.2) <;> rfl

theorem smsDeliver_eq (pdu : Str) (strict : Bool) : smsDeliver pdu strict = setP pdu (State.fresh strict) := by
  rw [← setPdu_out]
  unfold smsDeliver
  cases setPdu pdu (State.fresh strict) <;> rfl

end Deliver
end Verif

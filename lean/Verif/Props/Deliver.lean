import Verif.Proofs.Deliver6
import Verif.Proofs.Calendar
/-!
# C25-C33: received messages
-/
set_option autoImplicit false

namespace Verif.Props
open Verif Verif.Spec Verif.Spec.Sms Verif.Spec.Time
open Verif.Deliver (smsDeliver setPdu State)

/-- a DELIVER with a 16-bit concatenation element -/
def sampleDeliver : DeliverPdu :=
  { smsc := [7, 0x91, 0x43, 0x46, 0x46, 0x65, 0x54, 0xF6], fo := 0x44, oa := [0x04, 0x91, 0x21, 0x43], pid := 0, dcs := 0,
    scts := [0x11, 0x30, 0x13, 0x21, 0x43, 0x65, 0x80], udl := 10,
    ud := [6, 8, 4, 1, 2, 2, 1, 0x32, 0x1B] }

theorem sampleDeliver_ok : sampleDeliver.Ok where
  octets := by decide
  smsc := ⟨some ⟨0x91, [3, 4, 6, 4, 6, 4, 5, 6, 4, 5, 6]⟩, by decide⟩
  mti := by decide
  oa := ⟨4, 0x91, [0x21, 0x43], rfl, by decide⟩
  scts := by decide

example : ∃ d, smsDeliver (hexUpper sampleDeliver.octets) = .ok d := ⟨_, rfl⟩

/-! ## C25 -/

/-- C25: whatever the string and the state of the object, decoding returns or raises ValueError or IndexError;
OverflowError is possible only if the string contains '-' (`int("-1", 16)` is negative).  The model marks
non-termination with an exception of its own, so that is excluded too. -/
theorem C25_exceptions (pdu : Str) (st : State) (e : PyErr) (st' : State) (h : setPdu pdu st = .err e st') :
    e = .valueError ∨ e = .indexError ∨ (e = .overflowError ∧ 45 ∈ pdu) := by
  have h1 := Deliver.setPdu_out pdu st
  rw [h] at h1
  rcases Deliver.setP_raises pdu st e h1.symm with (h | h) | h
  · exact .inl h
  · exact .inr (.inl h)
  · exact .inr (.inr h)

example : ∃ st', setPdu (py! "01") (State.fresh true) = .err .indexError st' := ⟨_, rfl⟩

/-- C25 for the constructor -/
theorem C25_constructor (pdu : Str) (strict : Bool) (e : PyErr) (h : smsDeliver pdu strict = .error e) :
    e = .valueError ∨ e = .indexError ∨ (e = .overflowError ∧ 45 ∈ pdu) := by
  rw [Deliver.smsDeliver_eq] at h
  rcases Deliver.setP_raises pdu _ e h with (h | h) | h
  · exact .inl h
  · exact .inr (.inl h)
  · exact .inr (.inr h)

/-- the three exceptions occur -/
example : smsDeliver (py! "zz") = .error .valueError ∧ smsDeliver (py! "01") = .error .indexError ∧
    smsDeliver (py! "-1") = .error .overflowError := by decide

/-! ## C26 -/

/-- C26: in strict mode an odd number of characters raises ValueError and changes nothing. -/
theorem C26_strict (pdu : Str) (st : State) (hs : st.strict = true) (h : pdu.length % 2 = 1) :
    setPdu pdu st = .err .valueError st := by
  unfold setPdu
  rw [M.bind_ok (M.get_apply st)]
  have h1 : (if (!st.strict && decide (pdu.length % 2 ≠ 0)) = true then pdu.dropLast else pdu) = pdu := by
    rw [hs]; rfl
  simp only [h1]
  rw [if_pos (by omega)]
  rfl

example (st : State) (hs : st.strict = true) : setPdu (py! "07A") st = .err .valueError st := C26_strict _ _ hs (by decide)

/-- C26: otherwise it is like the string without its last character. -/
theorem C26_lenient (pdu : Str) (st : State) (hs : st.strict = false) (h : pdu.length % 2 = 1) :
    setPdu pdu st = setPdu pdu.dropLast st := by
  have h1 : (if (!st.strict && decide (pdu.length % 2 ≠ 0)) = true then pdu.dropLast else pdu) = pdu.dropLast := by
    rw [hs, if_pos (by simp [h])]
  have h2 : (if (!st.strict && decide (pdu.dropLast.length % 2 ≠ 0)) = true then pdu.dropLast.dropLast else pdu.dropLast) =
      pdu.dropLast := by
    have : pdu.dropLast.length % 2 = 0 := by rw [List.length_dropLast]; omega
    rw [if_neg (by rw [this]; simp)]
  unfold setPdu
  rw [M.bind_ok (M.get_apply st), M.bind_ok (M.get_apply st)]
  simp only [h1, h2]

example : smsDeliver (hexUpper sampleDeliver.octets ++ [48]) true = .error .valueError ∧
    smsDeliver (hexUpper sampleDeliver.octets ++ [48]) false = smsDeliver (hexUpper sampleDeliver.octets) false ∧
    (∃ d, smsDeliver (hexUpper sampleDeliver.octets) false = .ok d) := ⟨by decide +kernel, by decide +kernel, ⟨_, rfl⟩⟩

/-! ## C27 -/

/-- what is observable besides the stored hex string itself -/
def noPdu (x : Py State) : Py State := x.map fun d => { d with pdu := none }

/-- two strings that differ only in the case of letters -/
def SameLetters (p q : Str) : Prop := List.Forall₂ (fun a b => a = b ∨ (97 ≤ a ∧ a ≤ 122 ∧ b + 32 = a) ∨ (97 ≤ b ∧ b ≤ 122 ∧ a + 32 = b)) p q

theorem upper_same {p q : Str} (h : SameLetters p q) : pyUpper p = pyUpper q := by
  induction h with
  | nil => rfl
  | cons h _ ih =>
    unfold pyUpper at ih ⊢
    rw [List.map_cons, List.map_cons, ih]
    congr 1
    unfold upChar
    rcases h with rfl | ⟨h1, h2, h3⟩ | ⟨h1, h2, h3⟩
    · rfl
    · split <;> split <;> omega
    · split <;> split <;> omega

/-- C27: strings that differ only in case decode alike, including exceptions; only the stored string differs. -/
theorem C27_case (p q : Str) (h : SameLetters p q) (strict : Bool) : noPdu (smsDeliver p strict) = noPdu (smsDeliver q strict) := by
  have hu := upper_same h
  have hl : p.length = q.length := h.length_eq
  have ht : pyUpper (Deliver.trim strict p) = pyUpper (Deliver.trim strict q) := by
    unfold Deliver.trim
    rw [hl]
    split
    · unfold pyUpper at hu ⊢
      rw [List.map_dropLast, List.map_dropLast, hu]
    · exact hu
  have hl' : (Deliver.trim strict p).length = (Deliver.trim strict q).length := by
    have := congrArg List.length ht
    simpa [pyUpper] using this
  have ha : toArray (Deliver.trim strict p) = toArray (Deliver.trim strict q) := by
    rw [← toArray_upper, ht, toArray_upper]
  rw [Deliver.smsDeliver_eq, Deliver.smsDeliver_eq, Deliver.setP, Deliver.setP]
  change noPdu (if (Deliver.trim strict p).length % 2 ≠ 0 then _ else _) =
    noPdu (if (Deliver.trim strict q).length % 2 ≠ 0 then _ else _)
  rw [hl']
  split
  · rfl
  · change noPdu ((toArray (Deliver.trim strict p)).bind _) = noPdu ((toArray (Deliver.trim strict q)).bind _)
    rw [ha]
    cases toArray (Deliver.trim strict q) with
    | error e => rfl
    | ok data =>
      simp only [Except.bind]
      cases hf : Deliver.pduP data with
      | error e => rfl
      | ok f =>
        simp only []
        rw [Deliver.pduP_pdu hf (State.fresh strict) (some (Deliver.trim _ p)),
          Deliver.pduP_pdu hf (State.fresh strict) (some (Deliver.trim _ q))]
        rfl

example : SameLetters (py! "07a1Bc") (py! "07A1bC") := by simp [SameLetters]

/-! ## C28 -/

/-- a time without zone -/
def naive (c : Civil) : DateTime :=
  { year := c.year, month := c.month, day := c.day, hour := c.hour, minute := c.minute, second := c.second }

theorem date_set {p : DeliverPdu} (h : p.Ok) {strict : Bool} {d : State}
    (hd : smsDeliver (hexUpper p.octets) strict = .ok d) : ∃ (stamp : List Nat) (z : Nat) (dt : DateTime),
      p.scts = stamp ++ [z] ∧ stamp.length = 6 ∧ (∀ x ∈ stamp, x < 256) ∧ z < 256 ∧
      Cal.strptime (swapPairs (encodeStr stamp)) = .ok dt ∧
      d.date = some (Cal.subMinutes dt (Deliver.zoneMinutes z)) ∧ d.fmt = some (Deliver.fmtOfDcs p.dcs) := by
  obtain ⟨n, toa, o, sender, stamp, z, _, _, _, h1, h2, h3, h4, _, h5⟩ := Deliver.pduP_deliver h
  rw [Deliver.smsDeliver_eq, Deliver.setP_hex h.octets, h5] at hd
  obtain ⟨g, hg, hd⟩ := Deliver.ebind_ok hd
  obtain ⟨dt, hdt, hg⟩ := Deliver.ebind_ok hg
  obtain ⟨f, hf, hg⟩ := Deliver.ebind_ok hg
  cases hg
  cases hd
  refine ⟨stamp, z, dt, h1, h2, h4, h3, hdt, ?_⟩
  rcases Deliver.udP_frame (Deliver.fmtOfDcs_cases _) hf with ⟨t, _, rfl⟩ | ⟨t, u, _, rfl⟩ <;> exact ⟨rfl, rfl⟩

theorem stamp_bounds {o : List Nat} {t : Stamp} (h : readStamp o = some t) : -79 ≤ t.quarters ∧ t.quarters ≤ 79 := by
  unfold readStamp at h
  split at h
  · split at h
    · rename_i hz
      cases h
      simp only
      unfold zone at hz
      split at hz
      · cases hz
        split <;> omega
      · cases hz
    · cases h
  · cases h

theorem year_seconds {c : Civil} (h : 2 ≤ c.year) : 365 * 86400 ≤ c.seconds := by
  obtain ⟨k, hk⟩ := Nat.exists_eq_add_of_le h
  have hy : 365 ≤ yearStart c.year := by
    rw [hk, Nat.add_comm]
    unfold yearStart
    split <;> omega
  unfold Civil.seconds
  omega

/-- C28: the date of a DELIVER is its local time minus the zone offset, as the civil time with that distance in
seconds, whatever carries that needs. -/
theorem C28_utc (p : DeliverPdu) (h : p.Ok) (t : Stamp) (ht : readStamp p.scts = some t) (hv : t.civil.Valid)
    (strict : Bool) (d : State) (hd : smsDeliver (hexUpper p.octets) strict = .ok d) :
    ∃ c : Civil, d.date = some (naive c) ∧ c.Valid ∧ c.seconds = t.civil.seconds - 900 * t.quarters := by
  obtain ⟨stamp, z, dt, h1, h2, h3, hz, h4, h5, _⟩ := date_set h hd
  obtain ⟨stamp', z', e1, e2, e3, e4⟩ := Cal.readStamp_civil ht hv
  rw [h1] at e1
  obtain ⟨rfl, e5⟩ := List.append_inj e1 (h2.trans e2.symm)
  cases e5
  have hs := (Cal.strptime_octets h3).1 _ e3
  rw [List.take_of_length_le (by rw [Cal.swap_short h3]; omega), h4] at hs
  cases hs
  rw [Cal.zoneMinutes_ok hz e4] at h5
  have hb := stamp_bounds ht
  have hy : 365 * 86400 ≤ t.civil.seconds := year_seconds (by
    change 2 ≤ century t.yy
    unfold century; split <;> omega)
  obtain ⟨s1, s2⟩ := Cal.subMinutes_ok (d := Cal.ofCivil t.civil) (m := t.quarters * 15) hv (by
    rw [Cal.civil_ofCivil]; omega)
  refine ⟨_, ?_, s1, ?_⟩
  · rw [h5]
    exact congrArg some (Cal.ofCivil_civil (Cal.subMinutes_off _ _)).symm
  · rw [s2, Cal.civil_ofCivil]; omega

example : ∃ p : DeliverPdu, p.Ok ∧ readStamp p.scts = some ⟨11, 3, 31, 12, 34, 56, 8⟩ := by
  refine ⟨{ sampleDeliver with scts := [0x11, 0x30, 0x13, 0x21, 0x43, 0x65, 0x80] }, ?_, by decide⟩
  exact { sampleDeliver_ok with }

/-- C28: that civil time is unique. -/
theorem C28_unique (c c' : Civil) (h : c.Valid) (h' : c'.Valid) (hs : c.seconds = c'.seconds) : c = c' :=
  Cal.seconds_inj h h' hs

example (c : Civil) (h : c.Valid) := C28_unique c ⟨1999, 12, 31, 23, 30, 0⟩ h (by decide)

/-- C28: a time stamp that does not exist is rejected. -/
theorem C28_invalid (p : DeliverPdu) (h : p.Ok) (hc : readCivil p.scts = none) (strict : Bool) :
    smsDeliver (hexUpper p.octets) strict = .error .valueError := by
  obtain ⟨n, toa, o, sender, stamp, z, _, _, _, h1, h2, h3, h4, _, h5⟩ := Deliver.pduP_deliver h
  have hc' : readCivil stamp = none := by
    rw [h1] at hc
    match stamp, h2, hc with
    | [a, b, c, d, e, f], _, hc => exact hc
  obtain ⟨e, he, hv⟩ := (Cal.strptime_octets h4).2 hc'
  rw [List.take_of_length_le (by rw [Cal.swap_short h4]; omega)] at he
  rw [Deliver.smsDeliver_eq, Deliver.setP_hex h.octets, h5, he]
  rcases hv with rfl | ⟨_, hv⟩
  · rfl
  · omega

/-- new year: 2000-01-01 00:30:00 in zone +1 h is 1999-12-31 23:30:00 -/
example : let p := { sampleDeliver with scts := [0x00, 0x10, 0x10, 0x00, 0x03, 0x00, 0x40] }
    readStamp p.scts = some ⟨0, 1, 1, 0, 30, 0, 4⟩ ∧ (⟨2000, 1, 1, 0, 30, 0⟩ : Civil).Valid ∧
    (smsDeliver (hexUpper p.octets)).map (·.date) = .ok (some (naive ⟨1999, 12, 31, 23, 30, 0⟩)) :=
  ⟨by decide, by decide, by decide +kernel⟩

/-! ## C29 -/

/-- pseudo sender of a report -/
def reportSender (status : Option Nat) : Str :=
  if status = some 0 then py! "SR-OK" else if status = some 0x30 then py! "SR-STORED" else py! "SR-UNKNOWN"

/-- a time or nothing -/
def stampOrNothing (c : Option Civil) : Str :=
  match c with
  | some c => stampText c
  | none => []

/-- C29: status reports, cut off anywhere after the recipient. -/
theorem C29_report (p : ReportPdu) (a : Address) (h : p.Ok a) (strict : Bool) :
    ∃ d, smsDeliver (hexUpper p.octets) strict = .ok d ∧
      d.sr = some ⟨display a, (readCivil p.scts).map naive, (readCivil p.dt).map naive, p.status⟩ ∧
      d.number = some (reportSender p.status) ∧ d.date = (readCivil p.scts).map naive ∧
      (Deliver.data d).concat = some (p.mr, 0, 0) ∧ d.type = some 3 ∧ d.fmt = some 8 ∧
      d.text = some (display a ++ [124] ++ stampOrNothing (readCivil p.scts) ++ [124] ++
        (if p.status = some 0 ∨ p.status = none then stampOrNothing (readCivil p.dt) else [])) ∧
      d.pid = none ∧ d.dcs = none ∧ (∃ u, d.udh = some u ∧ u.ports = none ∧ u.headers = []) ∧
      ∀ sm, readSmsc p.smsc = some (sm, []) → (∀ x, sm = some x → ∀ y ∈ x.digits, y < 10) → d.csca = sm.map display := by
  obtain ⟨sm, hsm⟩ := h.smsc
  have hm := h.mti
  have hlt := h.octets
  have hra : p.ra = a.digits.length :: a.toa :: bcd a.digits := by
    have := (Verif.Submit.readAddress_bytes (fun x hx => hlt x (by simp [ReportPdu.octets, hx])) h.ra).1
    rw [this, List.append_nil]; rfl
  have hbytes : p.octets = p.smsc ++ p.fo :: (p.mr :: a.digits.length :: a.toa :: (bcd a.digits ++ p.rest)) := by
    rw [ReportPdu.octets, hra]; simp [List.append_assoc]
  have hr : ∀ x ∈ p.rest, x < 256 := fun x hx => hlt x (by simp [ReportPdu.octets, hx])
  have hr7 : ∀ x ∈ p.rest.drop 7, x < 256 := fun x hx => hr x (List.mem_of_mem_drop hx)
  have hrec : Deliver.recipientP a.toa (bcd a.digits) = display a := by
    unfold Deliver.recipientP display
    have : (a.toa >>> 4) &&& 0x07 = a.toa / 16 % 8 := by
      rw [Nat.shiftRight_eq_div_pow, show (7 : Nat) = 2 ^ 3 - 1 from rfl, Nat.and_two_pow_sub_one_eq_mod]
    rw [this, swapNumber_bcd _ h.digits]
    split <;> rfl
  have hst : (List.drop 7 (List.drop 7 p.rest)).head? = p.status := by
    rw [List.drop_drop, List.head?_drop]; rfl
  have hrep : Deliver.reportP (p.mr :: a.digits.length :: a.toa :: (bcd a.digits ++ p.rest)) = .ok (fun s =>
      let date := match (readCivil p.scts).map naive with | some d => some d | none => s.date
      { s with
        udh := some (Udh.fromStatusReportRef p.mr)
        date := date
        number := some (Deliver.srSender ((p.rest.drop 7).drop 7))
        text := some (display a ++ [124] ++ stampOrNothing (readCivil p.scts) ++ [124] ++
          Deliver.srLast (stampOrNothing (readCivil p.dt)) ((p.rest.drop 7).drop 7))
        fmt := some 0x08
        type := some 0x03
        sr := some ⟨display a, date, (readCivil p.dt).map naive, p.status⟩ }) := by
    unfold Deliver.reportP
    simp only [pop0, Except.bind, Deliver.semiLen_eq, ← bcd_length, List.take_left', List.drop_left', hrec,
      Deliver.stampP_eq hr, Deliver.stampP_eq hr7, hst]
    rfl
  have hd : smsDeliver (hexUpper p.octets) strict = (Deliver.reportP (p.mr :: a.digits.length :: a.toa ::
      (bcd a.digits ++ p.rest))).bind fun f => .ok (f { State.fresh strict with
        pdu := some (hexUpper p.octets), csca := Deliver.cscaOf p.smsc, mtype := some p.fo }) := by
    rw [Deliver.smsDeliver_eq, Deliver.setP_hex hlt, hbytes, Deliver.pduP_start (Deliver.smscField_of hsm), Deliver.and3,
      hm, if_pos rfl]
    cases Deliver.reportP (p.mr :: a.digits.length :: a.toa :: (bcd a.digits ++ p.rest)) <;> rfl
  rw [hrep] at hd
  refine ⟨_, hd, ?_, ?_, ?_, rfl, rfl, rfl, ?_, rfl, rfl, ⟨_, rfl, rfl, rfl⟩, fun sm h1 h2 =>
    Deliver.csca_display (fun x hx => hlt x (by simp [ReportPdu.octets, hx])) h1 h2⟩
  · cases (readCivil p.scts) <;> rfl
  · rw [← hst]
    cases (p.rest.drop 7).drop 7 with
    | nil => rfl
    | cons st r =>
      simp only [Deliver.srSender, reportSender, List.head?_cons, Option.some.injEq]
      split
      · rfl
      · split
        · rename_i h1; rw [if_neg (by omega)]
        · rfl
  · cases (readCivil p.scts) <;> rfl
  · rw [← hst]
    cases (p.rest.drop 7).drop 7 with
    | nil => rfl
    | cons st r => simp [Deliver.srLast]

/-- a report with an impossible discharge time -/
def sampleReport : ReportPdu :=
  { smsc := [7, 0x91, 0x43, 0x46, 0x46, 0x65, 0x54, 0xF6], fo := 0x06, mr := 0x2A, ra := [0x05, 0x91, 0x21, 0x43, 0xF5],
    rest := [0x11, 0x30, 0x13, 0x21, 0x43, 0x65, 0x80, 0x11, 0x03, 0x13, 0x21, 0x43, 0x65, 0x80, 0x30] }

example : sampleReport.Ok ⟨0x91, [1, 2, 3, 4, 5]⟩ ∧ readCivil sampleReport.scts = some ⟨2011, 3, 31, 12, 34, 56⟩ ∧
    readCivil sampleReport.dt = none ∧ sampleReport.status = some 0x30 :=
  ⟨⟨by decide, ⟨some ⟨0x91, [3, 4, 6, 4, 6, 4, 5, 6, 4, 5, 6]⟩, by decide⟩, by decide, by decide, by decide⟩,
    by decide, by decide, by decide⟩

/-! ## C30 -/

/-- observable parts of a parsed header -/
def concatFields (u : Udh.UserDataHeader) : Option (Nat × Nat × Nat × Bool) :=
  u.concat.map fun c => (c.ref, c.cnt, c.seq, c.eightBits)

def portFields (u : Udh.UserDataHeader) : Option (Nat × Nat × Bool) :=
  u.ports.map fun c => (c.destPort, c.origPort, c.eightBits)

/-- the full claim: false, see `C30_refuted` and `C30_refuted_truncated` -/
def C30_full : Prop :=
  (∀ els : List Element, (∀ e ∈ els, e.Ok) → (∀ e ∈ els, ∀ x ∈ e.payload, x < 256) →
    ∃ u, Udh.fromBytes (elementOctets els) = .ok u ∧ (∀ id, u.headers.lookup id = payloadOf els id) ∧
      concatFields u = concatOf els ∧ portFields u = portsOf els) ∧
  (∀ (els : List Element) (id len : Nat) (payload : List Nat), (∀ e ∈ els, e.Ok) →
    (∀ e ∈ els, ∀ x ∈ e.payload, x < 256) → payload.length < len →
    ∃ e, Udh.fromBytes (elementOctets els ++ id :: len :: payload) = .error e)

/-- C30: any sequence of elements; the payloads, the concatenation fields and the port numbers are exact, the flag for
8-bit ports when they are 16-bit.  Missing: 8-bit ports are reported as not 8-bit. -/
theorem C30_partial (els : List Element) (h : ∀ e ∈ els, e.Ok) (hb : ∀ e ∈ els, ∀ x ∈ e.payload, x < 256) :
    ∃ u, Udh.fromBytes (elementOctets els) = .ok u ∧ (∀ id, u.headers.lookup id = payloadOf els id) ∧
      (u.headers.map Prod.fst).Nodup ∧ concatFields u = concatOf els ∧
      portFields u = (portsOf els).map (fun x => (x.1, x.2.1, false)) := by
  obtain ⟨fuel, _, h1⟩ := Deliver.fromBytes_els els [] h hb
  obtain ⟨h2, h3, h4, h5⟩ := Deliver.foldl_ieStep els h
  rw [List.append_nil] at h1
  refine ⟨_, h1.trans (by rw [Udh.fromBytesLoop]), h2, h3, ?_, ?_⟩
  · rw [concatFields, h4]; cases concatOf els <;> rfl
  · rw [portFields, h5]; cases portsOf els <;> rfl

example := C30_partial [⟨8, [1, 2, 3, 1]⟩, ⟨0x70, [9]⟩, ⟨5, [1, 2, 3, 4]⟩, ⟨0, [7, 2, 1]⟩, ⟨0x70, []⟩] (by simp [Element.Ok])
  (by simp)

/-- C30: cut off inside an element with a fixed size, or after an id, parsing raises.  Missing: cut off inside another
element it does not. -/
theorem C30_truncated_partial (els : List Element) (h : ∀ e ∈ els, e.Ok) (hb : ∀ e ∈ els, ∀ x ∈ e.payload, x < 256)
    (id : Nat) :
    Udh.fromBytes (elementOctets els ++ [id]) = .error .indexError ∧
    ∀ (len : Nat) (payload : List Nat), payload.length < len → (id = 0 → len = 3) → (id = 8 → len = 4) →
      (id = 4 → len = 2) → (id = 5 → len = 4) → (id = 0 ∨ id = 4 ∨ id = 5 ∨ id = 8) →
      ∃ e, Udh.fromBytes (elementOctets els ++ id :: len :: payload) = .error e := by
  refine ⟨?_, ?_⟩
  · obtain ⟨fuel, hl, h1⟩ := Deliver.fromBytes_els els [id] h hb
    rw [h1]
    cases fuel with
    | zero => simp at hl
    | succ n => rfl
  · intro len payload hp h0 h8 h4 h5 hid
    obtain ⟨fuel, hl, h1⟩ := Deliver.fromBytes_els els (id :: len :: payload) h hb
    rw [h1]
    cases fuel with
    | zero => simp at hl
    | succ n =>
      rw [Udh.fromBytesLoop, List.take_of_length_le (by omega)]
      rcases hid with rfl | rfl | rfl | rfl
      · have := h0 rfl
        subst this
        match payload, hp with
        | [], _ => exact ⟨_, rfl⟩
        | [_], _ => exact ⟨_, rfl⟩
        | [_, _], _ => exact ⟨_, rfl⟩
      · have := h4 rfl
        subst this
        match payload, hp with
        | [], _ => exact ⟨_, rfl⟩
        | [_], _ => exact ⟨_, rfl⟩
      · have := h5 rfl
        subst this
        match payload, hp with
        | [], _ => exact ⟨_, rfl⟩
        | [_], _ => exact ⟨_, rfl⟩
        | [_, _], _ => exact ⟨_, rfl⟩
        | [_, _, _], _ => exact ⟨_, rfl⟩
      · have := h8 rfl
        subst this
        match payload, hp with
        | [], _ => exact ⟨_, rfl⟩
        | [_], _ => exact ⟨_, rfl⟩
        | [_, _], _ => exact ⟨_, rfl⟩
        | [_, _, _], _ => exact ⟨_, rfl⟩

example := C30_truncated_partial [⟨8, [1, 2, 3, 1]⟩, ⟨0x70, [9]⟩] (by simp [Element.Ok]) (by simp) 5

/-- 8-bit ports -/
theorem C30_refuted : ¬ C30_full := by
  rintro ⟨h, _⟩
  obtain ⟨u, h1, _, _, h2⟩ := h [⟨4, [1, 2]⟩] (by simp [Element.Ok]) (by simp)
  cases h1
  cases h2

/-- an element cut off without any exception -/
theorem C30_refuted_truncated : Udh.fromBytes [0x70, 5, 1] = .ok ⟨none, none, [(0x70, [1])]⟩ := rfl

example : let els : List Element := [⟨8, [1, 2, 3, 1]⟩, ⟨0x70, [9]⟩, ⟨5, [1, 2, 3, 4]⟩, ⟨0, [7, 2, 1]⟩, ⟨0x70, []⟩]
    (∀ e ∈ els, e.Ok) ∧ concatOf els = some (7, 2, 1, true) ∧ portsOf els = some (258, 772, false) ∧
    payloadOf els 0x70 = some [] := by simp [Element.Ok, concatOf, portsOf, payloadOf]

/-! ## C31 -/

/-- the full claim: false, see `C31_refuted` -/
def C31_full : Prop :=
  ∀ (p1 p2 : Str) (strict : Bool) (d1 d2 : State), smsDeliver p1 strict = .ok d1 → smsDeliver p2 strict = .ok d2 →
    setPdu p2 d1 = .ok () d2

theorem setPdu_of_out {p : Str} {st st' : State} (h : (setPdu p st).out = .ok st') : setPdu p st = .ok () st' := by
  cases hs : setPdu p st with
  | ok u s => rw [hs] at h; cases h; rfl
  | err e s => rw [hs] at h; cases h

/-- C31: assigning a PDU to any object `st` fails exactly as decoding it afresh does; and if that gives `d`, the object
becomes `d` except for what is named: for a DELIVER a user data header (only if the new PDU has none), a status report
record and type; for a status report the protocol id and coding scheme octet and, if the service centre time
stamp is invalid, the date.  Those keep their old values. -/
theorem C31_partial (p : Str) (st : State) :
    (∀ e, smsDeliver p st.strict = .error e ↔ ∃ st', setPdu p st = .err e st') ∧
    ∀ d, smsDeliver p st.strict = .ok d → ∃ mt, d.mtype = some mt ∧
      (mt % 4 ≠ 2 → setPdu p st = .ok () { d with
        udh := (match d.udh with | some u => some u | none => st.udh), sr := st.sr, type := st.type }) ∧
      (mt % 4 = 2 → ∃ sr, d.sr = some sr ∧ sr.scts = d.date ∧
        setPdu p st = .ok () { d with
          pid := st.pid, dcs := st.dcs, date := (match d.date with | some x => some x | none => st.date),
          sr := some { sr with scts := (match d.date with | some x => some x | none => st.date) } }) := by
  have hout := Deliver.setPdu_out p st
  rw [Deliver.smsDeliver_eq]
  have hs : Deliver.setP p (State.fresh st.strict) = if (Deliver.trim st.strict p).length % 2 ≠ 0 then .error .valueError
      else (toArray (Deliver.trim st.strict p)).bind fun data => (Deliver.pduP data).bind fun f =>
      .ok (f { State.fresh st.strict with pdu := some (Deliver.trim st.strict p) }) := rfl
  have herr : ∀ e, Deliver.setP p (State.fresh st.strict) = .error e ↔ Deliver.setP p st = .error e := by
    intro e
    rw [hs]
    unfold Deliver.setP
    split
    · rfl
    · cases toArray (Deliver.trim st.strict p) with
      | error e => rfl
      | ok data =>
        simp only [Except.bind]
        cases Deliver.pduP data with
        | error e => rfl
        | ok f => simp
  refine ⟨fun e => ?_, fun d hd => ?_⟩
  · rw [herr e, ← hout]
    constructor
    · intro h
      cases hx : setPdu p st with
      | ok u s => rw [hx] at h; cases h
      | err e' s => rw [hx] at h; cases h; exact ⟨s, rfl⟩
    · rintro ⟨s, h⟩
      rw [h]; rfl
  · rw [hs] at hd
    split at hd
    · cases hd
    rename_i hodd
    obtain ⟨data, hdata, hd⟩ := Deliver.ebind_ok hd
    obtain ⟨f, hf, hd⟩ := Deliver.ebind_ok hd
    cases hd
    have hset : (setPdu p st).out = .ok (f { st with pdu := some (Deliver.trim st.strict p) }) := by
      rw [hout]; unfold Deliver.setP; rw [if_neg hodd, hdata]
      simp only [Except.bind, hf]
    have hset := setPdu_of_out hset
    obtain ⟨csca, mt, r, r', _, _, hk⟩ := Deliver.pduP_frame hf
    rw [Deliver.and3] at hk
    refine ⟨mt, ?_, ?_, ?_⟩
    · rcases hk with ⟨_, g, hg, rfl⟩ | ⟨_, _, x, r2, t, u, _, _, rfl⟩
      · obtain ⟨a, _, hg⟩ := Deliver.ebind_ok hg
        obtain ⟨b, _, hg⟩ := Deliver.ebind_ok hg
        obtain ⟨c, _, hg⟩ := Deliver.ebind_ok hg
        cases hg
        rfl
      · rfl
    · intro hm
      rcases hk with ⟨hm', _⟩ | ⟨_, _, x, r2, t, u, _, _, rfl⟩
      · exact absurd hm' hm
      · rw [hset]
        cases u <;> rfl
    · intro hm
      rcases hk with ⟨_, g, hg, rfl⟩ | ⟨hm', _⟩
      · obtain ⟨a, _, hg⟩ := Deliver.ebind_ok hg
        obtain ⟨b, _, hg⟩ := Deliver.ebind_ok hg
        obtain ⟨c, _, hg⟩ := Deliver.ebind_ok hg
        cases hg
        refine ⟨_, rfl, rfl, ?_⟩
        rw [hset]
        cases hx : (Deliver.stampP (c.2.drop (Deliver.semiLen b.1))).1 with
        | none => simp only [hx]; rfl
        | some y => simp only [hx]; rfl
      · exact absurd hm hm'

/-- a status report, then a DELIVER without header: the object still shows the report and its reference -/
theorem C31_refuted : ¬ C31_full := by
  intro h
  have hd1 : ∃ d, smsDeliver (hexUpper sampleReport.octets) true = .ok d := ⟨_, rfl⟩
  obtain ⟨d1, hd1⟩ := hd1
  have hd2 : ∃ d, smsDeliver (hexUpper { sampleDeliver with fo := 4 }.octets) true = .ok d := ⟨_, rfl⟩
  obtain ⟨d2, hd2⟩ := hd2
  have h1 := h _ _ _ _ _ hd1 hd2
  cases hd1
  cases hd2
  have h2 := congrArg (fun x => x.out.map (·.sr.isSome)) h1
  revert h2
  decide +kernel

/-- so a DELIVER replaces everything when the object had no header, report or type before -/
theorem C31_clean (p : Str) (st d : State) (h : smsDeliver p st.strict = .ok d) (hm : ∀ mt, d.mtype = some mt → mt % 4 ≠ 2)
    (hu : st.udh = none) (hs : st.sr = none) (ht : st.type = none) : setPdu p st = .ok () d := by
  obtain ⟨mt, h1, h2, _⟩ := (C31_partial p st).2 d h
  rw [h2 (hm mt h1), hu, hs, ht]
  rw [Deliver.smsDeliver_eq] at h
  unfold Deliver.setP at h
  split at h
  · cases h
  obtain ⟨data, hdata, h⟩ := Deliver.ebind_ok h
  obtain ⟨f, hf, h⟩ := Deliver.ebind_ok h
  cases h
  obtain ⟨csca, mt', r, r', _, _, hk⟩ := Deliver.pduP_frame hf
  rw [Deliver.and3] at hk
  rcases hk with ⟨hm', g, hg, rfl⟩ | ⟨_, _, x, r2, t, u, _, _, rfl⟩
  · obtain ⟨a, _, hg⟩ := Deliver.ebind_ok hg
    obtain ⟨b, _, hg⟩ := Deliver.ebind_ok hg
    obtain ⟨c, _, hg⟩ := Deliver.ebind_ok hg
    cases hg
    exact absurd hm' (hm mt' rfl)
  · cases u <;> rfl

example : ∃ st d, smsDeliver (hexUpper { sampleDeliver with fo := 4 }.octets) true = .ok st ∧ st.strict = true ∧
    smsDeliver (hexUpper sampleDeliver.octets) st.strict = .ok d ∧ d.mtype = some 0x44 ∧ st.udh = none ∧ st.sr = none ∧
    st.type = none ∧ d.udh ≠ none := ⟨_, _, rfl, rfl, rfl, rfl, rfl, rfl, rfl, by decide +kernel⟩

/-! ## C32 -/

/-- the full claim: false, see `C32_refuted` -/
def C32_full : Prop :=
  ∀ (p : DeliverPdu) (x : List Nat) (al : Alphabet) (strict : Bool) (d : State), p.Ok → (∀ y ∈ x, y < 256) →
    smsDeliver (hexUpper p.octets) strict = .ok d → d.fmt = some al.code → p.ud.length = udOctets al p.udl →
    ∃ d', smsDeliver (hexUpper (p.octets ++ x)) strict = .ok d' ∧ d'.text = d.text

/-- C32 for the 7-bit alphabet: with the declared user data and its header present, any octets may follow; only the
stored hex string changes.  Missing: the other codings. -/
theorem C32_partial (p : DeliverPdu) (x : List Nat) (strict : Bool) (d : State) (h : p.Ok) (hx : ∀ y ∈ x, y < 256)
    (hd : smsDeliver (hexUpper p.octets) strict = .ok d) (hf : d.fmt = some 0) (hl : udOctets .gsm p.udl ≤ p.ud.length)
    (hh : p.fo / 64 % 2 = 1 → ∃ n r, p.ud = n :: r ∧ n ≤ r.length) :
    smsDeliver (hexUpper (p.octets ++ x)) strict = .ok { d with pdu := some (hexUpper (p.octets ++ x)) } := by
  have hfmt : Deliver.fmtOfDcs p.dcs = 0 := by
    obtain ⟨_, _, _, _, _, _, _, _, _, h6⟩ := date_set h hd
    rw [hf] at h6
    exact (Option.some.inj h6).symm
  have hq : ({ p with ud := p.ud ++ x } : DeliverPdu).octets = p.octets ++ x := by simp [DeliverPdu.octets]
  have hlt : ∀ y ∈ p.octets ++ x, y < 256 := fun y hy => (List.mem_append.1 hy).elim (h.octets y) (hx y)
  have hqok : ({ p with ud := p.ud ++ x } : DeliverPdu).Ok :=
    ⟨by rw [hq]; exact hlt, h.smsc, h.mti, h.oa, h.scts⟩
  have hud : ∀ y ∈ p.ud, y < 256 := fun y hy => h.octets y (by simp [DeliverPdu.octets, hy])
  unfold udOctets at hl
  simp only at hl
  -- the septets do not change
  have hsep : ∀ k, (unpackMsg (encodeStr ((p.ud ++ x).take p.udl))).bind (fun t =>
        (Gsm.decode .strict ((t.take p.udl).drop k)).bind fun y => .ok fun s : State => { s with text := some y }) =
      (unpackMsg (encodeStr (p.ud.take p.udl))).bind (fun t =>
        (Gsm.decode .strict ((t.take p.udl).drop k)).bind fun y => .ok fun s : State => { s with text := some y }) := by
    intro k
    have h1 : ∀ y ∈ p.ud.take p.udl, y < 256 := fun y hy => hud y (List.mem_of_mem_take hy)
    have h2 : ∀ y ∈ x.take (p.udl - p.ud.length), y < 256 := fun y hy => hx y (List.mem_of_mem_take hy)
    rw [List.take_append, unpackMsg_eq h1, unpackMsg_eq (fun y hy => (List.mem_append.1 hy).elim (h1 y) (h2 y))]
    simp only [Except.bind]
    rw [Deliver.unpack_prefix h1 h2 (by rw [List.length_take]; omega)]
  have hudp : Deliver.udP p.fo 0 (p.udl :: (p.ud ++ x)) = Deliver.udP p.fo 0 (p.udl :: p.ud) := by
    unfold Deliver.udP
    simp only [pop0, Except.bind, Deliver.textP, if_true]
    have h64 : p.fo &&& 0x40 ≠ 0 → p.fo / 64 % 2 = 1 := by
      intro hne
      by_contra hc
      apply hne
      apply Nat.eq_of_testBit_eq
      intro i
      rw [Nat.testBit_and, Nat.zero_testBit]
      by_cases hi : i = 6
      · subst hi
        have : p.fo.testBit 6 = false := by
          rw [Nat.testBit_eq_decide_div_mod_eq]; simpa using hc
        rw [this]; rfl
      · rw [show (64 : Nat) = 2 ^ 6 from rfl, Nat.testBit_two_pow_of_ne (Ne.symm hi), Bool.and_false]
    by_cases hm : p.fo &&& 0x40 ≠ 0
    · obtain ⟨n, r, hn, hnl⟩ := hh (h64 hm)
      rw [if_pos hm, if_pos hm]
      have hsep' := hsep (Deliver.headLen 0 n)
      rw [hn] at hsep' ⊢
      simp only [List.cons_append, List.take_append_of_le_length hnl] at hsep' ⊢
      cases Udh.fromBytes (r.take n) with
      | error e => rfl
      | ok u =>
        simp only []
        exact congrArg (fun z => Except.bind z fun f => Except.ok fun s : State => f { s with udh := some u }) hsep'
    · rw [if_neg hm, if_neg hm]
      exact hsep 0
  obtain ⟨n, toa, o, sender, stamp, z, e1, e2, e3, e4, e5, _, _, _, e6⟩ := Deliver.pduP_deliver h
  obtain ⟨n', toa', o', sender', stamp', z', g1, g2, g3, g4, g5, _, _, _, g6⟩ := Deliver.pduP_deliver hqok
  simp only at g1 g4 g6
  rw [e1] at g1
  simp only [List.cons.injEq] at g1
  obtain ⟨rfl, rfl, rfl⟩ := g1
  rw [e3] at g3
  cases g3
  rw [e4] at g4
  obtain ⟨rfl, g7⟩ := List.append_inj g4 (e5.trans g5.symm)
  cases g7
  rw [hfmt] at e6 g6
  rw [hudp, ← e6, hq] at g6
  rw [Deliver.smsDeliver_eq, Deliver.setP_hex h.octets] at hd
  rw [Deliver.smsDeliver_eq, Deliver.setP_hex hlt, g6]
  obtain ⟨f, hf', hd⟩ := Deliver.ebind_ok hd
  cases hd
  rw [hf']
  simp only [Except.bind]
  have a1 := Deliver.pduP_pdu hf' (State.fresh strict) (some (hexUpper (p.octets ++ x)))
  have a2 := Deliver.pduP_pdu hf' (State.fresh strict) (some (hexUpper p.octets))
  rw [a1, a2]

example : ∃ d, smsDeliver (hexUpper sampleDeliver.octets) true = .ok d ∧ d.fmt = some 0 ∧
    udOctets .gsm sampleDeliver.udl ≤ sampleDeliver.ud.length ∧ (∃ n r, sampleDeliver.ud = n :: r ∧ n ≤ r.length) :=
  ⟨_, rfl, rfl, by decide, 6, _, rfl, by decide⟩

/-- an octet after 8-bit data becomes part of it -/
theorem C32_refuted : ¬ C32_full := by
  intro h
  have hok : ({ sampleDeliver with fo := 4, dcs := 4, udl := 1, ud := [97] } : DeliverPdu).Ok :=
    ⟨by decide, sampleDeliver_ok.smsc, by decide, sampleDeliver_ok.oa, by decide⟩
  obtain ⟨d', h1, h2⟩ := h { sampleDeliver with fo := 4, dcs := 4, udl := 1, ud := [97] } [98] .bin true _ hok (by decide) rfl rfl rfl
  cases h1
  revert h2
  decide +kernel

example : ∃ d, smsDeliver (hexUpper sampleDeliver.octets) true = .ok d ∧ d.fmt = some 0 ∧
    udOctets .gsm sampleDeliver.udl ≤ sampleDeliver.ud.length ∧ (∃ n r, sampleDeliver.ud = n :: r ∧ n ≤ r.length) :=
  ⟨_, rfl, rfl, by decide, 6, _, rfl, by decide⟩

/-! ## C33 -/

/-- the full claim: false, see `C33_refuted` -/
def C33_full : Prop :=
  ∀ (p : DeliverPdu) (strict : Bool) (d : State), p.Ok → smsDeliver (hexUpper p.octets) strict = .ok d →
    d.fmt = some (dcsAlphabet p.dcs).code

/-- octets that are misread: reserved codings, message waiting groups with bits 3-2 set (or, for the UCS2 group, other
than 10), and the reserved bit of the class group -/
def Misread (dcs : Nat) : Prop :=
  (dcs / 64 ≤ 1 ∧ dcs / 4 % 4 = 3) ∨ (8 ≤ dcs / 16 ∧ dcs / 16 ≤ 13 ∧ dcs / 4 % 4 ≠ 0) ∨
  (dcs / 16 = 14 ∧ dcs / 4 % 4 ≠ 2) ∨ (dcs / 16 = 15 ∧ dcs / 4 % 4 = 2)

instance (dcs : Nat) : Decidable (Misread dcs) := inferInstanceAs (Decidable (_ ∨ _))

theorem misread_table : ∀ dcs ∈ List.range 256, Deliver.fmtOfDcs dcs = (dcsAlphabet dcs).code ↔ ¬ Misread dcs := by
  decide +kernel

/-- C33: the coding is the one of the standard exactly for the octets that are not listed in `Misread`, which
include the whole general groups (but the reserved alphabet) and the class group. -/
theorem C33_partial (p : DeliverPdu) (strict : Bool) (d : State) (h : p.Ok)
    (hd : smsDeliver (hexUpper p.octets) strict = .ok d) :
    d.fmt = some (dcsAlphabet p.dcs).code ↔ ¬ Misread p.dcs := by
  obtain ⟨_, _, _, _, _, _, _, _, _, h6⟩ := date_set h hd
  rw [h6, Option.some.injEq]
  exact misread_table p.dcs (List.mem_range.2 (h.octets p.dcs (by simp [DeliverPdu.octets])))

example : ∃ d, smsDeliver (hexUpper sampleDeliver.octets) true = .ok d ∧ ¬ Misread sampleDeliver.dcs :=
  ⟨_, rfl, by decide⟩

/-- a voice mail indication (0xC8) is decoded as UCS2 -/
theorem C33_refuted : ¬ C33_full := by
  intro h
  have hok : ({ sampleDeliver with fo := 4, dcs := 0xC8, udl := 0, ud := [] } : DeliverPdu).Ok :=
    ⟨by decide, sampleDeliver_ok.smsc, by decide, sampleDeliver_ok.oa, by decide⟩
  have h1 := h _ true _ hok rfl
  revert h1
  decide

end Verif.Props

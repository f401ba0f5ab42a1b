import Verif.Props.Ignored
/-!
# C120: the fields of a received short message are read independently of one another
-/
set_option autoImplicit false

namespace Verif.Props
open Verif Verif.Spec Verif.Spec.Sms Verif.Spec.Time
open Verif.Deliver (smsDeliver State)

theorem fmt_bits : ∀ n ∈ List.range 256, Deliver.fmtOfDcs n = if n / 4 % 4 = 0 then 0 else if n / 4 % 4 % 2 = 1 then 4 else 8 := by
  decide +kernel

theorem fmt_of_bits {a b : Nat} (ha : a < 256) (hb : b < 256) (h : a / 4 % 4 = b / 4 % 4) :
    Deliver.fmtOfDcs a = Deliver.fmtOfDcs b := by
  rw [fmt_bits a (List.mem_range.2 ha), fmt_bits b (List.mem_range.2 hb), h]

theorem deliver_inv {p : DeliverPdu} (h : p.Ok) (strict : Bool) : ∃ (n toa : Nat) (oa : List Nat) (sender : Str)
    (stamp : List Nat) (z : Nat), p.oa = n :: toa :: oa ∧ Deliver.decodeSender toa oa = .ok sender ∧ p.scts = stamp ++ [z] ∧
    smsDeliver (hexUpper p.octets) strict = ((Cal.strptime (swapPairs (encodeStr stamp))).bind fun dt =>
      (Deliver.udP p.fo (Deliver.fmtOfDcs p.dcs) (p.udl :: p.ud)).bind fun f => .ok (f { State.fresh strict with
        pdu := some (hexUpper p.octets), mtype := some p.fo,
        csca := Deliver.cscaOf p.smsc, number := some sender, pid := some p.pid, dcs := some p.dcs,
        fmt := some (Deliver.fmtOfDcs p.dcs), date := some (Cal.subMinutes dt (Deliver.zoneMinutes z)) })) := by
  obtain ⟨n, toa, oa, sender, stamp, z, e1, _, e3, e4, e5, _, _, _, e6⟩ := Deliver.pduP_deliver h
  refine ⟨n, toa, oa, sender, stamp, z, e1, e3, e4, ?_⟩
  rw [Deliver.smsDeliver_eq, Deliver.setP_hex h.octets, e6]
  cases Cal.strptime (swapPairs (encodeStr stamp)) with
  | error e => rfl
  | ok dt =>
    simp only [Except.bind]
    cases Deliver.udP p.fo (Deliver.fmtOfDcs p.dcs) (p.udl :: p.ud) <;> rfl

theorem deliver_octets {p : DeliverPdu} (h : p.Ok) : p.fo < 256 ∧ p.dcs < 256 :=
  ⟨h.octets _ (by simp [DeliverPdu.octets]), h.octets _ (by simp [DeliverPdu.octets])⟩

theorem fresh_ok {f g : State → State} {mt mt' fmt fmt' : Nat} {x y : List Nat} (hf : fmt = 0 ∨ fmt = 4 ∨ fmt = 8)
    (h : Deliver.udP mt fmt x = .ok f) (hg : Deliver.udP mt' fmt' y = .ok g)
    (he : Deliver.udP mt fmt x = Deliver.udP mt' fmt' y) (s t : State) (hu : s.udh = t.udh) :
    (f s).text = (g t).text ∧ (f s).udh = (g t).udh := by
  rw [h, hg] at he
  injection he with he
  subst he
  rcases Deliver.udP_frame hf h with ⟨a, _, rfl⟩ | ⟨a, u, _, rfl⟩
  · exact ⟨rfl, hu⟩
  · exact ⟨rfl, rfl⟩

theorem frame_rest {f : State → State} {mt fmt : Nat} {x : List Nat} (hf : fmt = 0 ∨ fmt = 4 ∨ fmt = 8)
    (h : Deliver.udP mt fmt x = .ok f) (s : State) :
    (f s).csca = s.csca ∧ (f s).number = s.number ∧ (f s).pid = s.pid ∧ (f s).dcs = s.dcs ∧ (f s).fmt = s.fmt ∧
      (f s).date = s.date ∧ (f s).sr = s.sr ∧ (f s).type = s.type := by
  rcases Deliver.udP_frame hf h with ⟨a, _, rfl⟩ | ⟨a, u, _, rfl⟩ <;> exact ⟨rfl, rfl, rfl, rfl, rfl, rfl, rfl, rfl⟩

/-- C120: whatever two DELIVERs have in common is shown alike, however they differ in the other fields: service centre,
sender, protocol identifier, alphabet, time stamp, and user data of one alphabet with or without header. -/
theorem C120_fields (p q : DeliverPdu) (hp : p.Ok) (hq : q.Ok) (s s' : Bool) (d e : State)
    (h : smsDeliver (hexUpper p.octets) s = .ok d) (h' : smsDeliver (hexUpper q.octets) s' = .ok e) :
    (p.smsc = q.smsc → d.csca = e.csca) ∧ (p.oa = q.oa → d.number = e.number) ∧ (p.pid = q.pid → d.pid = e.pid) ∧
    (p.dcs = q.dcs → d.dcs = e.dcs) ∧ (p.dcs / 4 % 4 = q.dcs / 4 % 4 → d.fmt = e.fmt) ∧ (p.scts = q.scts → d.date = e.date) ∧
    (p.fo / 64 % 2 = q.fo / 64 % 2 → p.dcs / 4 % 4 = q.dcs / 4 % 4 → p.udl = q.udl → p.ud = q.ud →
      d.text = e.text ∧ d.udh = e.udh) ∧ d.sr = e.sr ∧ d.type = e.type := by
  obtain ⟨n, toa, oa, sender, stamp, z, e1, e2, e3, e4⟩ := deliver_inv hp s
  obtain ⟨n', toa', oa', sender', stamp', z', g1, g2, g3, g4⟩ := deliver_inv hq s'
  obtain ⟨b1, b2⟩ := deliver_octets hp
  obtain ⟨c1, c2⟩ := deliver_octets hq
  rw [e4] at h
  rw [g4] at h'
  obtain ⟨dt, t1, h⟩ := Deliver.ebind_ok h
  obtain ⟨f, u1, h⟩ := Deliver.ebind_ok h
  obtain ⟨dt', t2, h'⟩ := Deliver.ebind_ok h'
  obtain ⟨g, u2, h'⟩ := Deliver.ebind_ok h'
  injection h with h
  injection h' with h'
  subst h h'
  obtain ⟨r1, r2, r3, r4, r5, r6, r7, r8⟩ := frame_rest (Deliver.fmtOfDcs_cases _) u1 { State.fresh s with
        pdu := some (hexUpper p.octets), mtype := some p.fo,
        csca := Deliver.cscaOf p.smsc, number := some sender, pid := some p.pid, dcs := some p.dcs,
        fmt := some (Deliver.fmtOfDcs p.dcs), date := some (Cal.subMinutes dt (Deliver.zoneMinutes z)) }
  obtain ⟨k1, k2, k3, k4, k5, k6, k7, k8⟩ := frame_rest (Deliver.fmtOfDcs_cases _) u2 { State.fresh s' with
        pdu := some (hexUpper q.octets), mtype := some q.fo,
        csca := Deliver.cscaOf q.smsc, number := some sender', pid := some q.pid, dcs := some q.dcs,
        fmt := some (Deliver.fmtOfDcs q.dcs), date := some (Cal.subMinutes dt' (Deliver.zoneMinutes z')) }
  rw [r1, r2, r3, r4, r5, r6, r7, r8, k1, k2, k3, k4, k5, k6, k7, k8]
  refine ⟨fun x => by simp only [x], ?_, fun x => by simp only [x], fun x => by simp only [x],
    fun x => by simp only [fmt_of_bits b2 c2 x], ?_, ?_, rfl, rfl⟩
  · intro x
    rw [x, g1] at e1
    cases e1
    rw [e2] at g2
    cases g2
    rfl
  · intro x
    rw [x, g3] at e3
    obtain ⟨rfl, rfl⟩ := stamp_unique e3
    rw [t1] at t2
    cases t2
    rfl
  · intro x1 x2 x3 x4
    refine fresh_ok (Deliver.fmtOfDcs_cases _) u1 u2 ?_ _ _ rfl
    rw [x3, x4, fmt_of_bits b2 c2 x2, udP_bit b1 c1 x1]

/-- C120: whether a DELIVER is accepted is a matter of its time stamp alone and of its user data alone: it is refused only if
every DELIVER with this time stamp is, or every one with this user data, in the same alphabet and with or without header as
it is. -/
theorem C120_accepted (p : DeliverPdu) (hp : p.Ok) (s : Bool) :
    (∃ d, smsDeliver (hexUpper p.octets) s = .ok d) ↔
      (∃ (q : DeliverPdu) (d : State), q.Ok ∧ q.scts = p.scts ∧ smsDeliver (hexUpper q.octets) s = .ok d) ∧
      ∃ (q : DeliverPdu) (d : State), q.Ok ∧ q.fo / 64 % 2 = p.fo / 64 % 2 ∧ q.dcs / 4 % 4 = p.dcs / 4 % 4 ∧ q.udl = p.udl ∧ q.ud = p.ud ∧
        smsDeliver (hexUpper q.octets) s = .ok d := by
  constructor
  · rintro ⟨d, h⟩
    exact ⟨⟨p, d, hp, rfl, h⟩, p, d, hp, rfl, rfl, rfl, rfl, h⟩
  · rintro ⟨⟨q, d, hq, x0, h⟩, q', d', hq', x1, x2, x3, x4, h'⟩
    obtain ⟨n, toa, oa, sender, stamp, z, e1, e2, e3, e4⟩ := deliver_inv hp s
    obtain ⟨n', toa', oa', sender', stamp', z', g1, g2, g3, g4⟩ := deliver_inv hq s
    obtain ⟨_, _, _, _, _, _, _, _, _, l4⟩ := deliver_inv hq' s
    obtain ⟨b1, b2⟩ := deliver_octets hp
    obtain ⟨c1, c2⟩ := deliver_octets hq'
    rw [g4] at h
    rw [l4] at h'
    obtain ⟨dt, t1, _⟩ := Deliver.ebind_ok h
    obtain ⟨_, _, h'⟩ := Deliver.ebind_ok h'
    obtain ⟨f, u1, _⟩ := Deliver.ebind_ok h'
    rw [x0, e3] at g3
    obtain ⟨rfl, rfl⟩ := stamp_unique g3
    rw [x3, x4, fmt_of_bits c2 b2 x2, udP_bit c1 b1 x1] at u1
    rw [e4, t1, u1]
    exact ⟨_, rfl⟩

/-- the message of another sender, with another text in another alphabet, at the same time -/
def otherDeliver : DeliverPdu :=
  { sampleDeliver with oa := [0x06, 0x81, 0x21, 0x43, 0x65], fo := 0x04, dcs := 8, udl := 4, ud := [0, 72, 0, 105] }

theorem otherDeliver_ok : otherDeliver.Ok where
  octets := by decide
  smsc := ⟨some ⟨0x91, [3, 4, 6, 4, 6, 4, 5, 6, 4, 5, 6]⟩, by decide⟩
  mti := by decide
  oa := ⟨_, _, _, rfl, rfl⟩
  scts := rfl

example : sampleDeliver.Ok ∧ otherDeliver.Ok ∧ sampleDeliver.scts = otherDeliver.scts ∧ sampleDeliver.smsc = otherDeliver.smsc ∧
    ∃ d e, smsDeliver (hexUpper sampleDeliver.octets) true = .ok d ∧ smsDeliver (hexUpper otherDeliver.octets) true = .ok e ∧
      d.date = e.date ∧ d.csca = e.csca ∧ d.number = some (py! "+1234") ∧ e.number = some (py! "123456") ∧
      e.text = some (py! "Hi") := by
  have h1 : (match smsDeliver (hexUpper sampleDeliver.octets) true with
    | .ok d => decide (d.number = some (py! "+1234")) | .error _ => false) = true := by decide +kernel
  have h2 : (match smsDeliver (hexUpper otherDeliver.octets) true with
    | .ok d => decide (d.number = some (py! "123456") ∧ d.text = some (py! "Hi")) | .error _ => false) = true := by decide +kernel
  cases hd : smsDeliver (hexUpper sampleDeliver.octets) true with
  | error e => rw [hd] at h1; cases h1
  | ok d =>
    cases he : smsDeliver (hexUpper otherDeliver.octets) true with
    | error e => rw [he] at h2; cases h2
    | ok e =>
      rw [hd] at h1
      rw [he] at h2
      have h1 := of_decide_eq_true h1
      have h2 := of_decide_eq_true h2
      obtain ⟨k1, _, _, _, _, k2, _⟩ := C120_fields _ _ sampleDeliver_ok otherDeliver_ok true true d e hd he
      exact ⟨sampleDeliver_ok, otherDeliver_ok, rfl, rfl, d, e, rfl, rfl, k2 rfl, k1 rfl, h1, h2.1, h2.2⟩

end Verif.Props

import Verif.Props.Deliver
import Verif.Proofs.Deliver6
/-!
# C85: bits of received messages that do not matter
-/
set_option autoImplicit false

namespace Verif.Props
open Verif Verif.Spec Verif.Spec.Sms Verif.Spec.Time
open Verif.Deliver (smsDeliver State)

/-- everything but the stored string and the first octet -/
def sights (x : Py State) : Py State := x.map fun d => { d with pdu := none, mtype := none }

theorem sights_deliver {p : DeliverPdu} (h : p.Ok) (strict : Bool) : ∃ (n toa : Nat) (oa : List Nat) (sender : Str)
    (stamp : List Nat) (z : Nat), p.oa = n :: toa :: oa ∧ Deliver.decodeSender toa oa = .ok sender ∧ p.scts = stamp ++ [z] ∧
    stamp.length = 6 ∧
    sights (smsDeliver (hexUpper p.octets) strict) = ((Cal.strptime (swapPairs (encodeStr stamp))).bind fun dt =>
      (Deliver.udP p.fo (Deliver.fmtOfDcs p.dcs) (p.udl :: p.ud)).bind fun f => .ok { f { State.fresh strict with
        csca := Deliver.cscaOf p.smsc, number := some sender, pid := some p.pid, dcs := some p.dcs,
        fmt := some (Deliver.fmtOfDcs p.dcs), date := some (Cal.subMinutes dt (Deliver.zoneMinutes z)) } with
        pdu := none, mtype := none }) := by
  obtain ⟨n, toa, oa, sender, stamp, z, e1, _, e3, e4, e5, _, _, _, e6⟩ := Deliver.pduP_deliver h
  refine ⟨n, toa, oa, sender, stamp, z, e1, e3, e4, e5, ?_⟩
  rw [Deliver.smsDeliver_eq, Deliver.setP_hex h.octets, e6]
  unfold sights
  cases Cal.strptime (swapPairs (encodeStr stamp)) with
  | error e => rfl
  | ok dt =>
    simp only [Except.bind]
    cases hu : Deliver.udP p.fo (Deliver.fmtOfDcs p.dcs) (p.udl :: p.ud) with
    | error e => rfl
    | ok f =>
      simp only [Except.map]
      rcases Deliver.udP_frame (Deliver.fmtOfDcs_cases _) hu with ⟨t, _, rfl⟩ | ⟨t, u, _, rfl⟩ <;> rfl

theorem stamp_unique {a b : List Nat} {x y : Nat} (h : a ++ [x] = b ++ [y]) : a = b ∧ x = y := by
  have := List.append_inj' h rfl
  simpa using this

theorem udP_bit {mt mt' fmt : Nat} (h : mt < 256) (h' : mt' < 256) (he : mt / 64 % 2 = mt' / 64 % 2) (data : List Nat) :
    Deliver.udP mt fmt data = Deliver.udP mt' fmt data := by
  have : (mt &&& 0x40 ≠ 0) = (mt' &&& 0x40 ≠ 0) := by
    rw [eq_iff_iff, Deliver.and64 h, Deliver.and64 h', he]
  unfold Deliver.udP
  simp only [this]

/-- C85: of the first octet of a DELIVER only the type and the header indicator matter: more messages to send, status
report indication, reply path and the other bits change nothing that is shown but the octet itself. -/
theorem C85_flags (p : DeliverPdu) (h : p.Ok) (fo : Nat) (hf : fo < 256) (h4 : fo % 4 = 0)
    (h64 : fo / 64 % 2 = p.fo / 64 % 2) (strict : Bool) :
    sights (smsDeliver (hexUpper { p with fo := fo }.octets) strict) = sights (smsDeliver (hexUpper p.octets) strict) := by
  have hp : p.fo < 256 := h.octets _ (by simp [DeliverPdu.octets])
  have h' : ({ p with fo := fo } : DeliverPdu).Ok := by
    refine ⟨?_, h.smsc, h4, h.oa, h.scts⟩
    intro x hx
    have := h.octets x
    simp only [DeliverPdu.octets, List.mem_append, List.mem_cons, List.not_mem_nil, or_false] at hx this
    by_cases hxf : x = fo
    · omega
    · tauto
  obtain ⟨n, toa, oa, sender, stamp, z, e1, e2, e3, e4, e5⟩ := sights_deliver h strict
  obtain ⟨n', toa', oa', sender', stamp', z', g1, g2, g3, g4, g5⟩ := sights_deliver h' strict
  simp only at g1 g3
  rw [e1] at g1
  cases g1
  rw [e2] at g2
  cases g2
  obtain ⟨rfl, rfl⟩ := stamp_unique (e3.symm.trans g3)
  rw [e5, g5]
  simp only []
  rw [udP_bit hf hp h64]

theorem shift_and : ∀ n ∈ List.range 256, n >>> 4 &&& 0x07 = n / 16 % 8 := by decide +kernel

theorem decodeSender_type {a b : Nat} (ha : a < 256) (hb : b < 256) (h : a / 16 % 8 = b / 16 % 8) (d : List Nat) :
    Deliver.decodeSender a d = Deliver.decodeSender b d := by
  have : a >>> 4 &&& 0x07 = b >>> 4 &&& 0x07 := by
    rw [shift_and a (List.mem_range.2 ha), shift_and b (List.mem_range.2 hb), h]
  unfold Deliver.decodeSender
  rw [this]

theorem cscaOf_type {n a b : Nat} (ha : a < 256) (hb : b < 256) (h : a / 16 % 8 = b / 16 % 8) (d : List Nat) :
    Deliver.cscaOf (n :: a :: d) = Deliver.cscaOf (n :: b :: d) := by
  have : a >>> 4 &&& 0x07 = b >>> 4 &&& 0x07 := by
    rw [shift_and a (List.mem_range.2 ha), shift_and b (List.mem_range.2 hb), h]
  unfold Deliver.cscaOf
  simp only [this]

/-- C85: of the type of the sender's address only the type of number matters, not the numbering plan. -/
theorem C85_plan (p : DeliverPdu) (h : p.Ok) (n toa : Nat) (d : List Nat) (ho : p.oa = n :: toa :: d) (toa' : Nat) (ht : toa' < 256)
    (he : toa' / 16 % 8 = toa / 16 % 8) (strict : Bool) :
    sights (smsDeliver (hexUpper { p with oa := n :: toa' :: d }.octets) strict) = sights (smsDeliver (hexUpper p.octets) strict) := by
  have hp : toa < 256 := h.octets _ (by simp [DeliverPdu.octets, ho])
  have h' : ({ p with oa := n :: toa' :: d } : DeliverPdu).Ok := by
    refine ⟨?_, h.smsc, h.mti, ?_, h.scts⟩
    · intro x hx
      have := h.octets x
      simp only [DeliverPdu.octets, List.mem_append, List.mem_cons, List.not_mem_nil, or_false, ho] at hx this
      by_cases hxf : x = toa'
      · omega
      · tauto
    · obtain ⟨n1, t1, d1, e, hl⟩ := h.oa
      rw [ho] at e
      cases e
      exact ⟨n, toa', d, rfl, hl⟩
  obtain ⟨n1, toa1, oa1, sender, stamp, z, e1, e2, e3, e4, e5⟩ := sights_deliver h strict
  obtain ⟨n', toa1', oa', sender', stamp', z', g1, g2, g3, g4, g5⟩ := sights_deliver h' strict
  simp only at g1 g3
  rw [ho] at e1
  cases e1
  cases g1
  rw [decodeSender_type ht hp he, e2] at g2
  cases g2
  obtain ⟨rfl, rfl⟩ := stamp_unique (e3.symm.trans g3)
  rw [e5, g5]

/-- C85: the same for the service centre. -/
theorem C85_plan_smsc (p : DeliverPdu) (h : p.Ok) (n toa : Nat) (d : List Nat) (ho : p.smsc = n :: toa :: d) (toa' : Nat)
    (ht : toa' < 256) (he : toa' / 16 % 8 = toa / 16 % 8) (strict : Bool) :
    sights (smsDeliver (hexUpper { p with smsc := n :: toa' :: d }.octets) strict) = sights (smsDeliver (hexUpper p.octets) strict) := by
  have hp : toa < 256 := h.octets _ (by simp [DeliverPdu.octets, ho])
  have h' : ({ p with smsc := n :: toa' :: d } : DeliverPdu).Ok := by
    refine ⟨?_, ?_, h.mti, h.oa, h.scts⟩
    · intro x hx
      have := h.octets x
      simp only [DeliverPdu.octets, List.mem_append, List.mem_cons, List.not_mem_nil, or_false, ho] at hx this
      by_cases hxf : x = toa'
      · omega
      · tauto
    · obtain ⟨a, ha⟩ := h.smsc
      rw [ho] at ha
      cases n with
      | zero => simp [readSmsc] at ha
      | succ n =>
        simp only [readSmsc] at ha ⊢
        split at ha
        · cases ha
        · rename_i hl
          rw [if_neg hl]
          simp only [Option.some.injEq, Prod.mk.injEq] at ha
          exact ⟨_, by rw [ha.2]⟩
  obtain ⟨n1, toa1, oa1, sender, stamp, z, e1, e2, e3, e4, e5⟩ := sights_deliver h strict
  obtain ⟨n', toa1', oa', sender', stamp', z', g1, g2, g3, g4, g5⟩ := sights_deliver h' strict
  simp only at g1 g3
  rw [e1] at g1
  cases g1
  rw [e2] at g2
  cases g2
  obtain ⟨rfl, rfl⟩ := stamp_unique (e3.symm.trans g3)
  rw [e5, g5, ho, cscaOf_type ht hp he]

/-- the septets at positions `i` to `j` of these octets are the same; the bits before and after may differ -/
def SameSeptets (i j : Nat) (a b : List Nat) : Prop :=
  a.length = b.length ∧ leVal 256 a / 128 ^ i % 128 ^ (j - i) = leVal 256 b / 128 ^ i % 128 ^ (j - i)

theorem leVal_take {o : List Nat} (h : ∀ x ∈ o, x < 256) (k : Nat) : leVal 256 (o.take k) = leVal 256 o % 256 ^ k := by
  by_cases hk : k ≤ o.length
  · have hlt : leVal 256 (o.take k) < 256 ^ k := by
      have := leVal_lt (b := 256) (xs := o.take k) (fun x hx => h x (List.mem_of_mem_take hx))
      rwa [List.length_take, Nat.min_eq_left hk] at this
    conv_rhs => rw [← List.take_append_drop k o, leVal_append, List.length_take, Nat.min_eq_left hk]
    rw [Nat.add_mul_mod_self_left, Nat.mod_eq_of_lt hlt]
  · rw [List.take_of_length_le (by omega), Nat.mod_eq_of_lt]
    refine lt_of_lt_of_le (leVal_lt h) (Nat.pow_le_pow_right (by decide) (by omega))

theorem septets_take {o : List Nat} (h : ∀ x ∈ o, x < 256) (k i : Nat) :
    leVal 256 (o.take k) / 128 ^ i % 128 ^ (k - i) = leVal 256 o / 128 ^ i % 128 ^ (k - i) := by
  rw [leVal_take h]
  by_cases hi : i ≤ k
  · have e : (256 : Nat) ^ k = 128 ^ i * (128 ^ (k - i) * 2 ^ k) := by
      rw [← mul_assoc, ← pow_add, show i + (k - i) = k by omega, ← mul_pow]
      norm_num
    rw [e, Nat.mod_mul_right_div_self, Nat.mod_mul_right_mod]
  · rw [show k - i = 0 by omega, pow_zero, Nat.mod_one, Nat.mod_one]

theorem septets_eq {a b : List Nat} (ha : ∀ x ∈ a, x < 256) (hb : ∀ x ∈ b, x < 256) {i k : Nat} (h : SameSeptets i k a b) :
    ((unpackMsg2 (a.take k)).take k).drop i = ((unpackMsg2 (b.take k)).take k).drop i := by
  obtain ⟨h1, h2⟩ := h
  have ha' : ∀ x ∈ a.take k, x < 256 := fun x hx => ha x (List.mem_of_mem_take hx)
  have hb' : ∀ x ∈ b.take k, x < 256 := fun x hx => hb x (List.mem_of_mem_take hx)
  rw [← septets_take ha, ← septets_take hb] at h2
  rw [unpackMsg2_eq ha', unpackMsg2_eq hb']
  have hmin : ∀ (m v : Nat), (digits 128 m v).take k = digits 128 (min m k) v := by
    intro m v
    by_cases h : k ≤ m
    · rw [digits_take _ _ _ _ h, Nat.min_eq_right h]
    · rw [List.take_of_length_le, Nat.min_eq_left (by omega)]
      rw [digits_eq_map]; simp; omega
  rw [hmin, hmin, digits_drop, digits_drop, List.length_take, List.length_take, h1]
  apply Deliver.digits_congr
  generalize hm : min (min (8 * min k b.length / 7) 161) k - i = m
  have hd : (128 : Nat) ^ m ∣ 128 ^ (k - i) := pow_dvd_pow _ (by omega)
  have := congrArg (· % 128 ^ m) h2
  simp only [Nat.mod_mod_of_dvd _ hd] at this
  exact this

theorem textP_septets {a b : List Nat} (ha : ∀ x ∈ a, x < 256) (hb : ∀ x ∈ b, x < 256) {h k n : Nat} (data data' : List Nat)
    (hs : SameSeptets h k a b) :
    Deliver.textP 0 k h n (encodeStr (a.take k)) data = Deliver.textP 0 k h n (encodeStr (b.take k)) data' := by
  unfold Deliver.textP
  rw [if_pos rfl, if_pos rfl, unpackMsg_eq (fun x hx => ha x (List.mem_of_mem_take hx)),
    unpackMsg_eq (fun x hx => hb x (List.mem_of_mem_take hx))]
  simp only [Except.bind]
  rw [septets_eq ha hb hs]

/-- C85: in the 7-bit alphabet the bits after the last septet do not matter, nor do the fill bits between the header and
the first septet. -/
theorem C85_fill (p : DeliverPdu) (h : p.Ok) (hd : p.dcs / 4 % 4 = 0) (ud : List Nat) (hu : ∀ x ∈ ud, x < 256)
    (hs : if p.fo / 64 % 2 = 1 then ∃ n r r', p.ud = n :: r ∧ ud = n :: r' ∧ r.take n = r'.take n ∧
        SameSeptets ((8 * (n + 1) + 6) / 7) p.udl p.ud ud
      else SameSeptets 0 p.udl p.ud ud) (strict : Bool) :
    sights (smsDeliver (hexUpper { p with ud := ud }.octets) strict) = sights (smsDeliver (hexUpper p.octets) strict) := by
  have hp : p.fo < 256 := h.octets _ (by simp [DeliverPdu.octets])
  have hdc : p.dcs < 256 := h.octets _ (by simp [DeliverPdu.octets])
  have hpu : ∀ x ∈ p.ud, x < 256 := fun x hx => h.octets _ (by simp [DeliverPdu.octets, hx])
  have hfmt : Deliver.fmtOfDcs p.dcs = 0 := by
    have : ∀ n ∈ List.range 256, (n / 4 % 4 = 0 → Deliver.fmtOfDcs n = 0) := by decide +kernel
    exact this _ (List.mem_range.2 hdc) hd
  have h' : ({ p with ud := ud } : DeliverPdu).Ok := by
    refine ⟨?_, h.smsc, h.mti, h.oa, h.scts⟩
    intro x hx
    have := h.octets x
    have hx' := hu x
    simp only [DeliverPdu.octets, List.mem_append, List.mem_cons, List.not_mem_nil, or_false] at hx this
    tauto
  obtain ⟨n, toa, oa, sender, stamp, z, e1, e2, e3, e4, e5⟩ := sights_deliver h strict
  obtain ⟨n', toa', oa', sender', stamp', z', g1, g2, g3, g4, g5⟩ := sights_deliver h' strict
  simp only at g1 g3
  rw [e1] at g1
  cases g1
  rw [e2] at g2
  cases g2
  obtain ⟨rfl, rfl⟩ := stamp_unique (e3.symm.trans g3)
  rw [e5, g5]
  simp only [hfmt]
  have key : Deliver.udP p.fo 0 (p.udl :: ud) = Deliver.udP p.fo 0 (p.udl :: p.ud) := by
    unfold Deliver.udP
    simp only [pop0, Except.bind]
    by_cases h64 : p.fo / 64 % 2 = 1
    · rw [if_pos h64] at hs
      obtain ⟨k, r, r', q1, q2, q3, q4⟩ := hs
      rw [if_pos ((Deliver.and64 hp).2 h64), if_pos ((Deliver.and64 hp).2 h64)]
      have hh : Deliver.headLen 0 k = (8 * (k + 1) + 6) / 7 := by
        unfold Deliver.headLen
        rw [if_pos rfl, Deliver.roundUp7_eq, mul_comm]
      rw [← hh] at q4
      have := textP_septets hpu hu (h := Deliver.headLen 0 k) (k := p.udl) (n := k) r r' q4
      rw [q1, q2] at this ⊢
      simp only [q3, this]
    · rw [if_neg h64] at hs
      rw [if_neg (fun hc => h64 ((Deliver.and64 hp).1 hc)), if_neg (fun hc => h64 ((Deliver.and64 hp).1 hc))]
      exact (textP_septets hpu hu p.ud ud hs).symm
  rw [key]

/-- a report: nothing of the first octet matters but the type -/
theorem C85_report (p : ReportPdu) (a : Address) (h : p.Ok a) (fo : Nat) (hf : fo < 256) (h4 : fo % 4 = 2) (strict : Bool) :
    sights (smsDeliver (hexUpper { p with fo := fo }.octets) strict) = sights (smsDeliver (hexUpper p.octets) strict) := by
  have h' : ({ p with fo := fo } : ReportPdu).Ok a := by
    refine ⟨?_, h.smsc, h4, h.ra, h.digits⟩
    intro x hx
    have := h.octets x
    simp only [ReportPdu.octets, List.mem_append, List.mem_cons, List.not_mem_nil, or_false] at hx this
    by_cases hxf : x = fo
    · omega
    · tauto
  obtain ⟨b, hb⟩ := h.smsc
  have hm := h.mti
  have e : ∀ q : ReportPdu, q.octets = q.smsc ++ q.fo :: (q.mr :: (q.ra ++ q.rest)) := by
    intro q; simp [ReportPdu.octets]
  rw [Deliver.smsDeliver_eq, Deliver.smsDeliver_eq, Deliver.setP_hex h.octets, Deliver.setP_hex h'.octets, e, e,
    Deliver.pduP_start (Deliver.smscField_of hb), Deliver.pduP_start (Deliver.smscField_of hb), Deliver.and3, Deliver.and3,
    h4, hm]
  simp only [if_true]
  cases hr : Deliver.reportP (p.mr :: (p.ra ++ p.rest)) with
  | error e => rfl
  | ok f =>
    unfold Deliver.reportP at hr
    obtain ⟨a, _, hr⟩ := Deliver.ebind_ok hr
    obtain ⟨b, _, hr⟩ := Deliver.ebind_ok hr
    obtain ⟨c, _, hr⟩ := Deliver.ebind_ok hr
    cases hr
    rfl

/-- the hypotheses: other flags, another numbering plan -/
example : sampleDeliver.Ok ∧ 0xE4 % 4 = 0 ∧ 0xE4 / 64 % 2 ≠ 0 ∧ 0xE4 / 64 % 2 = sampleDeliver.fo / 64 % 2 ∧
    sampleDeliver.oa = 4 :: 0x91 :: [0x21, 0x43] ∧ 0x1F / 16 % 8 = 0x91 / 16 % 8 :=
  ⟨⟨by decide, ⟨some ⟨0x91, [3, 4, 6, 4, 6, 4, 5, 6, 4, 5, 6]⟩, by decide⟩, rfl, ⟨_, _, _, rfl, rfl⟩, rfl⟩, by decide, by decide, by decide, rfl, by decide⟩
/-- a header with a fill bit: the bit is set, and so are the bits after the last septet -/
example : sampleDeliver.ud = 6 :: [8, 4, 1, 2, 2, 1, 0x32, 0x1B] ∧
    SameSeptets ((8 * (6 + 1) + 6) / 7) sampleDeliver.udl sampleDeliver.ud (6 :: [8, 4, 1, 2, 2, 1, 0x32, 0xDB]) :=
  ⟨rfl, rfl, by decide +kernel⟩
example : SameSeptets ((8 * (5 + 1) + 6) / 7) 9 [5, 0, 3, 1, 2, 1, 0x90, 0x65] [5, 0, 3, 1, 2, 1, 0x91, 0xE5] :=
  ⟨rfl, by decide +kernel⟩

end Verif.Props

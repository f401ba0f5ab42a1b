import Verif.Proofs.Deliver3
import Verif.Spec.Deliver
/-!
# Received PDUs field by field
-/
set_option autoImplicit false

namespace Verif.Deliver
open Verif.Spec Verif.Spec.Sms Verif.Spec.Time

theorem pduP_start {smsc : List Nat} (hs : SmscField smsc) (fo : Nat) (rest : List Nat) :
    pduP (smsc ++ fo :: rest) = (if fo &&& 0x03 = 0x02 then reportP rest
      else if fo &&& 0x03 = 0x01 then .error .valueError
      else deliverP fo rest).bind fun f => .ok fun s => f { s with csca := cscaOf smsc, mtype := some fo } := by
  cases hs with
  | none => rfl
  | some ty d =>
    have h1 : smscP (((d.length + 1) :: ty :: d) ++ fo :: rest) =
        .ok (cscaOf ((d.length + 1) :: ty :: d), fo :: rest) := by
      simp only [smscP, List.cons_append, pop0, Except.bind, Nat.add_sub_cancel, List.take_left', List.drop_left',
        gt_iff_lt, Nat.zero_lt_succ, if_true, cscaOf, recipientP]
    unfold pduP
    rw [h1]
    rfl

theorem fieldsP_ok {n ty pid dcs tz : Nat} {d stamp body : List Nat} {sender : Str}
    (hd : d.length = (n + 1) / 2) (hse : decodeSender ty d = .ok sender) (hst : stamp.length = 6) :
    fieldsP (n :: ty :: (d ++ pid :: dcs :: (stamp ++ tz :: body))) =
      (Cal.strptime (swapPairs (encodeStr stamp))).bind fun dt =>
        .ok (⟨sender, pid, dcs, Cal.subMinutes dt (zoneMinutes tz)⟩, body) := by
  unfold fieldsP
  simp only [pop0, Except.bind, semiLen_eq, ← hd, List.take_left', List.drop_left', hse, ← hst]

theorem setP_hex {o : List Nat} (h : ∀ x ∈ o, x < 256) (st : State) :
    setP (hexUpper o) st = (pduP o).bind fun f => .ok (f { st with pdu := some (hexUpper o) }) := by
  have hl : (hexUpper o).length % 2 = 0 := by rw [hexUpper_length]; omega
  have ht : trim st.strict (hexUpper o) = hexUpper o := by
    unfold trim; simp [hl]
  unfold setP
  rw [ht, if_neg (by omega), toArray_hexUpper h]
  rfl

theorem and3 : ∀ n : Nat, n &&& 3 = n % 4 := fun n => by
  rw [show (3 : Nat) = 2 ^ 2 - 1 from rfl, Nat.and_two_pow_sub_one_eq_mod]

/-- the octets of a DELIVER -/
theorem pduP_deliver {p : DeliverPdu} (h : p.Ok) : ∃ (n toa : Nat) (d : List Nat) (sender : Str) (stamp : List Nat) (z : Nat),
    p.oa = n :: toa :: d ∧ d.length = (n + 1) / 2 ∧ decodeSender toa d = .ok sender ∧ p.scts = stamp ++ [z] ∧
    stamp.length = 6 ∧ z < 256 ∧ (∀ x ∈ stamp, x < 256) ∧ (∀ x ∈ p.ud, x < 256) ∧
    pduP p.octets = ((Cal.strptime (swapPairs (encodeStr stamp))).bind fun dt =>
      (udP p.fo (fmtOfDcs p.dcs) (p.udl :: p.ud)).bind fun f => .ok fun s => f { s with
        csca := cscaOf p.smsc, mtype := some p.fo, number := some sender, pid := some p.pid, dcs := some p.dcs,
        fmt := some (fmtOfDcs p.dcs), date := some (Cal.subMinutes dt (zoneMinutes z)) }) := by
  obtain ⟨a, ha⟩ := h.smsc
  obtain ⟨n, toa, d, hoa, hd⟩ := h.oa
  have hlt := h.octets
  have hm := h.mti
  obtain ⟨stamp, z, hst, hsl⟩ : ∃ stamp z, p.scts = stamp ++ [z] ∧ stamp.length = 6 := by
    refine ⟨p.scts.take 6, p.scts[6]'(by rw [h.scts]; decide), ?_, ?_⟩
    · rw [List.take_append_getElem, List.take_of_length_le (by rw [h.scts])]
    · rw [List.length_take, h.scts]; rfl
  have hbytes : p.octets = p.smsc ++ p.fo :: (n :: toa :: (d ++ p.pid :: p.dcs ::
      (stamp ++ z :: (p.udl :: p.ud)))) := by
    rw [DeliverPdu.octets, hoa, hst]; simp [List.append_assoc]
  rw [hbytes] at hlt
  have hd256 : ∀ x ∈ d, x < 256 := fun x hx => hlt x (by simp [hx])
  obtain ⟨sender, hse⟩ := decodeSender_ok toa hd256
  refine ⟨n, toa, d, sender, stamp, z, hoa, hd, hse, hst, hsl, hlt z (by simp), fun x hx => hlt x (by simp [hx]),
    fun x hx => hlt x (by simp [hx]), ?_⟩
  rw [hbytes, pduP_start (smscField_of ha), and3, hm, if_neg (by decide), if_neg (by decide), deliverP, fieldsP_ok hd hse hsl]
  cases Cal.strptime (swapPairs (encodeStr stamp)) with
  | error e => rfl
  | ok dt =>
    simp only [Except.bind]
    cases udP p.fo (fmtOfDcs p.dcs) (p.udl :: p.ud) <;> rfl

/-! ## Septets do not depend on what follows -/

theorem digits_congr (b : Nat) : ∀ (k v w : Nat), v % b ^ k = w % b ^ k → digits b k v = digits b k w
  | 0, _, _, _ => rfl
  | k + 1, v, w, h => by
    have h0 : v % b = w % b := by
      have := congrArg (· % b) h
      simp only [pow_succ'] at this
      rwa [Nat.mod_mul_right_mod, Nat.mod_mul_right_mod] at this
    have h1 : v / b % b ^ k = w / b % b ^ k := by
      have := congrArg (· / b) h
      simp only [pow_succ'] at this
      rwa [Nat.mod_mul_right_div_self, Nat.mod_mul_right_div_self] at this
    rw [digits, digits, h0, digits_congr b k _ _ h1]

theorem unpack_prefix {o y : List Nat} (ho : ∀ x ∈ o, x < 256) (hy : ∀ x ∈ y, x < 256) {k : Nat}
    (hk : 7 * k ≤ 8 * o.length) : (unpackMsg2 (o ++ y)).take k = (unpackMsg2 o).take k := by
  have hoy : ∀ x ∈ o ++ y, x < 256 := fun x hx => (List.mem_append.1 hx).elim (ho x) (hy x)
  rw [unpackMsg2_eq hoy, unpackMsg2_eq ho, List.length_append]
  have hmin : ∀ (m v : Nat), (digits 128 m v).take k = digits 128 (min m k) v := by
    intro m v
    by_cases h : k ≤ m
    · rw [digits_take _ _ _ _ h, Nat.min_eq_right h]
    · rw [List.take_of_length_le, Nat.min_eq_left (by omega)]
      rw [digits_eq_map]; simp; omega
  rw [hmin, hmin]
  have e1 : min (min (8 * (o.length + y.length) / 7) 161) k = min 161 k := by omega
  have e2 : min (min (8 * o.length / 7) 161) k = min 161 k := by omega
  rw [e1, e2]
  apply digits_congr
  have hle : 7 * min 161 k ≤ 8 * o.length := by omega
  rw [leVal_append, show (128 : Nat) = 2 ^ 7 from rfl, show (256 : Nat) = 2 ^ 8 from rfl, ← pow_mul, ← pow_mul]
  obtain ⟨c, hc⟩ := Nat.exists_eq_add_of_le hle
  rw [hc, pow_add, mul_assoc, Nat.add_mul_mod_self_left]

end Verif.Deliver

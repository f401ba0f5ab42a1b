import Verif.Props.Failed
import Verif.Proofs.Deliver6
/-!
# C84: assignments of PDUs that are cut inside an address
-/
set_option autoImplicit false

namespace Verif.Props
open Verif Verif.Spec Verif.Spec.Sms
open Verif.Deliver (setPdu State)

theorem bcd_take : ∀ (k : Nat) (ds : List Nat), 2 * k ≤ ds.length → (bcd ds).take k = bcd (ds.take (2 * k))
  | 0, _, _ => rfl
  | k + 1, [], h => by simp at h
  | k + 1, [_], h => by simp at h; omega
  | k + 1, d :: e :: r, h => by
    simp only [List.length_cons] at h
    rw [bcd, List.take_succ_cons, bcd_take k r (by omega), show 2 * (k + 1) = 2 * k + 1 + 1 by omega,
      List.take_succ_cons, List.take_succ_cons, bcd]

/-- C84: a DELIVER that is cut after `k` octets of the number of the sender is refused, but afterwards the sender is shown
as the first `2 * k` digits of that number, of the text that was there before. -/
theorem C84_shortened (p : DeliverPdu) (h : p.Ok) (a : Address) (ha : readAddress p.oa = some (a, []))
    (hdig : ∀ x ∈ a.digits, x < 10) (ht : a.toa / 16 % 8 ≠ 5) (k : Nat) (hk : 2 * k ≤ a.digits.length) (st : State) :
    ∃ st', setPdu (hexUpper (p.octets.take (p.smsc.length + 3 + k))) st = .err .indexError st' ∧
      st'.number = some (display ⟨a.toa, a.digits.take (2 * k)⟩) ∧ st'.mtype = some p.fo ∧
      st'.text = st.text ∧ st'.date = st.date ∧ st'.pid = st.pid ∧ st'.dcs = st.dcs ∧ st'.fmt = st.fmt ∧
      st'.udh = st.udh ∧ st'.sr = st.sr ∧ st'.type = st.type := by
  obtain ⟨sm, hsm⟩ := h.smsc
  have hoa : ∀ x ∈ p.oa, x < 256 := fun x hx => h.octets x (by simp [DeliverPdu.octets, hx])
  have hb := (Submit.readAddress_bytes hoa ha).1
  rw [List.append_nil] at hb
  have hbl := bcd_take k a.digits hk
  have hlen : k ≤ (bcd a.digits).length := by rw [bcd_length]; omega
  have e : p.octets.take (p.smsc.length + 3 + k) =
      p.smsc ++ p.fo :: a.digits.length :: a.toa :: bcd (a.digits.take (2 * k)) := by
    rw [DeliverPdu.octets, hb, ← hbl]
    simp only [Submit.addrBytes, List.append_assoc, List.cons_append, List.nil_append]
    rw [Nat.add_assoc, List.take_length_add_append, show 3 + k = k + 1 + 1 + 1 by omega, List.take_succ_cons,
      List.take_succ_cons, List.take_succ_cons, List.take_append_of_le_length hlen]
  have hlt : ∀ x ∈ p.octets.take (p.smsc.length + 3 + k), x < 256 := fun x hx => h.octets x (List.mem_of_mem_take hx)
  have hl : (bcd (a.digits.take (2 * k))).length = k := by rw [← hbl, List.length_take]; omega
  rw [e] at hlt
  rw [e, Deliver.setPdu_start (Deliver.smscField_of hsm) hlt _ (toArray_hexUpper hlt) (by rw [hexUpper_length]; omega),
    Deliver.and3, h.mti, if_neg (by decide), if_neg (by decide)]
  have hs : Deliver.decodeSender a.toa (bcd (a.digits.take (2 * k))) = .ok (display ⟨a.toa, a.digits.take (2 * k)⟩) :=
    Deliver.decodeSender_numeric (a := ⟨a.toa, a.digits.take (2 * k)⟩) (fun d hd => hdig d (List.mem_of_mem_take hd)) ht
  have ht2 : (bcd (a.digits.take (2 * k))).length ≤ Deliver.semiLen a.digits.length := by
    rw [hl]; unfold Deliver.semiLen; split <;> omega
  unfold Deliver.decodeDeliver
  simp only [pop0]
  rw [M.bind_ok (M.lift_ok _ _), M.bind_ok (M.lift_ok _ _)]
  simp only
  rw [List.take_of_length_le ht2, List.drop_of_length_le ht2, hs, M.bind_ok (M.lift_ok _ _),
    M.bind_ok (M.modify_apply _ _)]
  exact ⟨_, rfl, rfl, rfl, rfl, rfl, rfl, rfl, rfl, rfl, rfl, rfl⟩

/-- the message from 1234 is cut in the middle of the number -/
example : sampleUcs2.Ok ∧ readAddress sampleUcs2.oa = some (⟨0x81, [1, 2, 3, 4]⟩, []) ∧
    display ⟨0x81, [1, 2, 3, 4].take (2 * 1)⟩ = py! "12" :=
  ⟨⟨by decide, ⟨none, rfl⟩, rfl, ⟨4, 0x81, [0x21, 0x43], rfl, rfl⟩, rfl⟩, by decide, by decide⟩

/-- C84: a PDU that is cut inside the number of the service centre is refused, but afterwards the service centre is shown
as the first digits of that number; nothing else changes but the PDU. -/
theorem C84_centre (a : Address) (hdig : ∀ x ∈ a.digits, x < 10) (hl : (a.digits.length + 1) / 2 < 255) (hta : a.toa < 256)
    (k : Nat) (hk : 2 * k ≤ a.digits.length) (st : State) :
    ∃ c, c = display ⟨a.toa, a.digits.take (2 * k)⟩ ∧
      setPdu (hexUpper (((a.digits.length + 1) / 2 + 1) :: a.toa :: bcd (a.digits.take (2 * k)))) st =
        .err .indexError { st with
          pdu := some (hexUpper (((a.digits.length + 1) / 2 + 1) :: a.toa :: bcd (a.digits.take (2 * k))))
          csca := some c } := by
  refine ⟨_, rfl, ?_⟩
  have hd' : ∀ x ∈ a.digits.take (2 * k), x < 10 := fun d hd => hdig d (List.mem_of_mem_take hd)
  have hlt : ∀ x ∈ ((a.digits.length + 1) / 2 + 1) :: a.toa :: bcd (a.digits.take (2 * k)), x < 256 := by
    intro x hx
    rcases List.mem_cons.1 hx with rfl | hx
    · omega
    rcases List.mem_cons.1 hx with rfl | hx
    · exact hta
    · exact bcd_lt _ hd' x hx
  have h2 : (hexUpper (((a.digits.length + 1) / 2 + 1) :: a.toa :: bcd (a.digits.take (2 * k)))).length % 2 = 0 := by
    rw [hexUpper_length]; omega
  have hbl : (bcd (a.digits.take (2 * k))).length ≤ (a.digits.length + 1) / 2 := by
    rw [bcd_length, List.length_take]; omega
  have e : (a.toa >>> 4) &&& 0x07 = a.toa / 16 % 8 := by
    rw [Nat.shiftRight_eq_div_pow, show (0x07 : Nat) = 2 ^ 3 - 1 from rfl, Nat.and_two_pow_sub_one_eq_mod]
  have ha := toArray_hexUpper hlt
  generalize hexUpper (((a.digits.length + 1) / 2 + 1) :: a.toa :: bcd (a.digits.take (2 * k))) = pdu at h2 ha
  have e1 : (if (!st.strict && decide (pdu.length % 2 ≠ 0)) = true then pdu.dropLast else pdu) = pdu := by
    rw [if_neg]; simp [h2]
  unfold setPdu
  rw [M.bind_ok (M.get_apply st)]
  simp only [e1]
  rw [if_neg (by simp [h2]), M.bind_ok (M.modify_apply _ _), ha, M.bind_ok (M.lift_ok _ _)]
  simp only [pop0]
  rw [M.bind_ok (M.lift_ok _ _)]
  simp only [gt_iff_lt, Nat.zero_lt_succ, if_true]
  rw [M.bind_ok (M.lift_ok _ _)]
  simp only [Nat.add_sub_cancel, List.take_of_length_le hbl, List.drop_of_length_le hbl, e, swapNumber_bcd _ hd']
  have : display ⟨a.toa, a.digits.take (2 * k)⟩ = if a.toa / 16 % 8 = 1 then 43 :: (a.digits.take (2 * k)).map (· + 48)
      else (a.digits.take (2 * k)).map (· + 48) := by
    unfold display; split <;> rfl
  rw [this]
  rfl

example : (∀ x ∈ (⟨0x91, [1, 2, 3, 4, 5]⟩ : Address).digits, x < 10) ∧ 2 * 2 ≤ (⟨0x91, [1, 2, 3, 4, 5]⟩ : Address).digits.length ∧
    display ⟨0x91, [1, 2, 3, 4, 5].take (2 * 2)⟩ = py! "+1234" := by decide

end Verif.Props

import Verif.Proofs.Submit2
import Verif.Model.Deliver
import Verif.Spec.Time
/-!
# Lemmas about decoding received PDUs
-/
set_option autoImplicit false

namespace Verif.Deliver
open Verif Verif.Spec Verif.Spec.Sms Verif.Spec.Gsm

/-- a length-prefixed service centre field -/
inductive SmscField : List Nat → Prop
  | none : SmscField [0]
  | some (ty : Nat) (d : List Nat) : SmscField ((d.length + 1) :: ty :: d)

/-- an address field -/
inductive OaField : List Nat → Prop
  | mk (n ty : Nat) (d : List Nat) : d.length = (n + 1) / 2 → OaField (n :: ty :: d)

theorem semiLen_eq (n : Nat) : semiLen n = (n + 1) / 2 := by
  unfold semiLen; split <;> omega

/-- `csca` attribute for a field -/
def cscaOf : List Nat → Option Str
  | _ :: ty :: d => some (if (ty >>> 4) &&& 0x07 = 1 then 43 :: swapNumber (encodeStr d) else swapNumber (encodeStr d))
  | _ => none

/-- the object after the fields up to the time stamp were decoded -/
def header (st : State) (pdu : Str) (smsc : List Nat) (fo : Nat) (sender : Str) (pid dcs : Nat) (date : DateTime) :
    State :=
  { st with pdu := some pdu, csca := cscaOf smsc, mtype := some fo, number := some sender, pid := some pid,
            dcs := some dcs, fmt := some (fmtOfDcs dcs), date := some date }

/-- steps shared by all PDUs -/
theorem setPdu_start {st : State} {smsc rest : List Nat} {fo : Nat} (hs : SmscField smsc)
    (hb : ∀ x ∈ smsc ++ fo :: rest, x < 256) (pdu : Str) (hp : toArray pdu = .ok (smsc ++ fo :: rest))
    (hl : pdu.length % 2 = 0) :
    setPdu pdu st = (if fo &&& 0x03 = 0x02 then decodeStatusReport rest
      else if fo &&& 0x03 = 0x01 then M.throw .valueError
      else decodeDeliver rest) { st with pdu := some pdu, csca := cscaOf smsc, mtype := some fo } := by
  have e1 : (if (!st.strict && decide (pdu.length % 2 ≠ 0)) = true then pdu.dropLast else pdu) = pdu := by
    rw [if_neg]; simp [hl]
  unfold setPdu
  rw [M.bind_ok (M.get_apply st)]
  simp only [e1]
  rw [if_neg (by simp [hl]), M.bind_ok (M.modify_apply _ _), hp, M.bind_ok (M.lift_ok _ _)]
  cases hs with
  | none =>
    simp only [List.cons_append, List.nil_append, pop0]
    rw [M.bind_ok (M.lift_ok _ _)]
    simp only [Nat.lt_irrefl, gt_iff_lt, if_false]
    rw [M.bind_ok (M.modify_apply _ _), M.bind_ok (M.pure_apply _ _), M.bind_ok (M.lift_ok _ _)]
    rfl
  | some ty d =>
    simp only [List.cons_append, pop0]
    rw [M.bind_ok (M.lift_ok _ _)]
    simp only [gt_iff_lt, Nat.zero_lt_succ, if_true]
    rw [M.bind_ok (M.lift_ok _ _)]
    simp only [Nat.add_sub_cancel, List.take_left, List.drop_left]
    rw [M.bind_ok (M.modify_apply _ _), M.bind_ok (M.pure_apply _ _), M.bind_ok (M.lift_ok _ _)]
    rfl

theorem decodeSender_ok (ty : Nat) {d : List Nat} (hd : ∀ x ∈ d, x < 256) : ∃ s, decodeSender ty d = .ok s := by
  unfold decodeSender
  simp only []
  split
  · have h7 : ∀ x ∈ unpackMsg2 d, x < 128 := by
      rw [unpackMsg2_eq hd]; exact digits_lt (by decide) _ _
    obtain ⟨t, ht, _⟩ := Gsm.decode_septets .strict _ (unpackMsg2 d) (le_refl _) h7
    exact ⟨t, ht⟩
  · exact ⟨_, rfl⟩

theorem decodeDeliver_ok {st : State} {n ty pid dcs tz : Nat} {d stamp body : List Nat} {sender : Str} {dt : DateTime}
    (hd : d.length = (n + 1) / 2) (hse : decodeSender ty d = .ok sender) (hst : stamp.length = 6)
    (hdt : Cal.strptime (swapPairs (encodeStr stamp)) = .ok dt) :
    decodeDeliver (n :: ty :: (d ++ pid :: dcs :: (stamp ++ tz :: body))) st =
      processMessage body { st with
        number := some sender, pid := some pid, dcs := some dcs, fmt := some (fmtOfDcs dcs),
        date := some (Cal.subMinutes dt (zoneMinutes tz)) } := by
  have ht : (d ++ pid :: dcs :: (stamp ++ tz :: body)).take (semiLen n) = d := by
    rw [semiLen_eq, ← hd, List.take_left]
  have hdr : (d ++ pid :: dcs :: (stamp ++ tz :: body)).drop (semiLen n) = pid :: dcs :: (stamp ++ tz :: body) := by
    rw [semiLen_eq, ← hd, List.drop_left]
  have ht6 : (stamp ++ tz :: body).take 6 = stamp := by rw [← hst, List.take_left]
  have hd6 : (stamp ++ tz :: body).drop 6 = tz :: body := by rw [← hst, List.drop_left]
  unfold decodeDeliver
  simp only [pop0]
  rw [M.bind_ok (M.lift_ok _ _)]
  simp only []
  rw [M.bind_ok (M.lift_ok _ _)]
  simp only [ht, hdr, hse]
  rw [M.bind_ok (M.lift_ok _ _), M.bind_ok (M.modify_apply _ _)]
  rw [M.bind_ok (M.lift_ok _ _)]
  simp only []
  rw [M.bind_ok (M.modify_apply _ _), M.bind_ok (M.lift_ok _ _)]
  simp only [ht6, hd6, hdt]
  rw [M.bind_ok (M.modify_apply _ _), M.bind_ok (M.lift_ok _ _)]
  simp only []
  rw [M.bind_ok (M.lift_ok _ _), M.bind_ok (M.modify_apply _ _)]

/-! ## User data -/

/-- the object after the user data was decoded -/
def withBody (st : State) (udh : Option Udh.UserDataHeader) (text : Str) : State := { st with udh := udh, text := some text }

theorem roundUp7_48 : roundUp7 6 48 = 49 := by decide

theorem fromBytes_concat (ref cnt seq : Nat) : Udh.fromBytes [0, 3, ref, cnt, seq] =
    .ok ⟨some ⟨ref, cnt, seq, true⟩, none, [(0, [ref, cnt, seq])]⟩ := rfl

theorem packed_take {udh g ud : List Nat} (hu : ∀ x ∈ udh, x < 256) (hl : udh.length = 6)
    (h : PackedWithHeader udh g ud) : ud.take 6 = udh ∧ 6 ≤ ud.length := by
  obtain ⟨h1, h2, h3⟩ := h
  rw [hl] at h1 h3
  have hlen : 6 ≤ ud.length := by omega
  refine ⟨?_, hlen⟩
  apply leVal_inj (b := 256)
  · rw [List.length_take]; omega
  · intro x hx; exact h2 x (List.mem_of_mem_take hx)
  · exact hu
  · have hsplit : leVal 256 ud = leVal 256 (ud.take 6) + 256 ^ 6 * leVal 256 (ud.drop 6) := by
      conv_lhs => rw [← List.take_append_drop 6 ud, leVal_append]
      rw [List.length_take, Nat.min_eq_left hlen]
    have hlt1 : leVal 256 (ud.take 6) < 256 ^ 6 := by
      have := leVal_lt (b := 256) (xs := ud.take 6) (fun x hx => h2 x (List.mem_of_mem_take hx))
      rwa [List.length_take, Nat.min_eq_left hlen] at this
    have hlt2 : leVal 256 udh < 256 ^ 6 := by
      have := leVal_lt hu
      rwa [hl] at this
    rw [hsplit] at h3
    norm_num at h3 hlt1 hlt2
    omega

theorem unpack_gsm {hdr g ud : List Nat} (hg : ∀ x ∈ g, x < 128) (hh : ∀ x ∈ hdr, x < 256)
    (h : PackedWithHeader hdr g ud) (hl : (8 * hdr.length + 6) / 7 + g.length ≤ 160) :
    ((unpackMsg2 ud).take ((8 * hdr.length + 6) / 7 + g.length)).drop ((8 * hdr.length + 6) / 7) = g := by
  obtain ⟨h1, h2, h3⟩ := h
  rw [unpackMsg2_eq h2, digits_take _ _ _ _ (by omega), digits_drop, h3]
  have hlt : leVal 256 hdr < 128 ^ ((8 * hdr.length + 6) / 7) := by
    have := leVal_lt hh
    refine lt_of_lt_of_le this ?_
    have e1 : (256 : Nat) = 2 ^ 8 := by norm_num
    have e2 : (128 : Nat) = 2 ^ 7 := by norm_num
    rw [e1, e2, ← pow_mul, ← pow_mul]
    apply Nat.pow_le_pow_right (by decide)
    omega
  rw [Nat.add_mul_div_left _ _ (Nat.pow_pos (by decide)), Nat.div_eq_of_lt hlt, Nat.zero_add, Nat.add_sub_cancel_left,
    digits_leVal hg]

theorem encodeStr_take_all {ud : List Nat} {n : Nat} (h : ud.length ≤ n) : ud.take n = ud := List.take_of_length_le h

/-- GSM alphabet, no header -/
theorem processMessage_gsm {st : State} {mt udl : Nat} {t ud : List Nat} (hf : st.fmt = some 0) (hm : st.mtype = some mt)
    (hmt : mt &&& 0x40 = 0) (h : Carries .gsm [] t udl ud) (hl : udl ≤ 160) :
    processMessage (udl :: ud) st = .ok () { st with text := some t } := by
  obtain ⟨g, hsp, hp, hudl⟩ := h
  have hg := Gsm.spells_lt hsp
  have hun := unpack_gsm hg (by simp) hp (by rw [hudl] at hl; exact hl)
  rw [← hudl] at hun
  simp only [List.length_nil, Nat.mul_zero, Nat.zero_add, Nat.reduceDiv] at hun hudl
  have hlen : ud.length ≤ udl := by
    have := hp.1; simp only [List.length_nil, Nat.mul_zero, Nat.zero_add, Nat.reduceDiv] at this; omega
  unfold processMessage
  simp only [pop0]
  rw [M.bind_ok (M.lift_ok _ _)]
  simp only []
  rw [M.bind_ok (M.get_apply _)]
  simp only [hf, hm, Option.getD_some, hmt, ne_eq, not_true_eq_false, if_false]
  rw [M.bind_ok (M.pure_apply _ _)]
  simp only [if_true, List.take_of_length_le hlen, unpackMsg_eq hp.2.1]
  rw [M.bind_ok (M.lift_ok _ _)]
  simp only [hun]
  rw [Gsm.decode_spells .strict hsp, M.bind_ok (M.lift_ok _ _), M.modify_apply, ← hf, ← hm]

/-- GSM alphabet with a concatenation header -/
theorem processMessage_gsm_concat {st : State} {mt udl ref cnt seq : Nat} {t ud : List Nat} (hf : st.fmt = some 0)
    (hm : st.mtype = some mt) (hmt : mt &&& 0x40 ≠ 0) (hr : ref < 256) (hc : cnt < 256) (hs : seq < 256)
    (h : Carries .gsm (concatUdh ref cnt seq) t udl ud) (hl : udl ≤ 160) :
    processMessage (udl :: ud) st = .ok () { st with
      udh := some ⟨some ⟨ref, cnt, seq, true⟩, none, [(0, [ref, cnt, seq])]⟩, text := some t } := by
  obtain ⟨g, hsp, hp, hudl⟩ := h
  have hg := Gsm.spells_lt hsp
  have hu : ∀ x ∈ concatUdh ref cnt seq, x < 256 := by
    intro x hx
    simp only [concatUdh, List.mem_cons, List.not_mem_nil, or_false] at hx
    rcases hx with rfl | rfl | rfl | rfl | rfl | rfl <;> omega
  have hun := unpack_gsm hg hu hp (by rw [hudl] at hl; exact hl)
  rw [← hudl] at hun
  have hh7 : (8 * (concatUdh ref cnt seq).length + 6) / 7 = 7 := by
    have : (concatUdh ref cnt seq).length = 6 := rfl
    rw [this]
  rw [hh7] at hun hudl
  have hlen : ud.length ≤ udl := by
    have := hp.1; simp only [hh7] at this; omega
  obtain ⟨htk, h6⟩ := packed_take hu rfl hp
  obtain ⟨r, hud⟩ : ∃ r, ud = 5 :: 0 :: 3 :: ref :: cnt :: seq :: r := by
    refine ⟨ud.drop 6, ?_⟩
    conv_lhs => rw [← List.take_append_drop 6 ud, htk]
    rfl
  unfold processMessage
  simp only [pop0]
  rw [M.bind_ok (M.lift_ok _ _)]
  simp only []
  rw [M.bind_ok (M.get_apply _)]
  simp only [hf, hm, Option.getD_some, ne_eq, hmt, not_false_eq_true, if_true]
  have hpop : pop0 ud = .ok (5, 0 :: 3 :: ref :: cnt :: seq :: r) := by rw [hud]; rfl
  refine (M.bind_ok (by exact (congrArg (fun x => M.lift x _) hpop).trans (M.lift_ok _ _))).trans ?_
  have htk5 : (0 :: 3 :: ref :: cnt :: seq :: r).take 5 = [0, 3, ref, cnt, seq] := rfl
  simp only [htk5, fromBytes_concat]
  rw [M.bind_ok (M.lift_ok _ _), M.bind_ok (M.modify_apply _ _), M.bind_ok (M.pure_apply _ _)]
  have h7 : roundUp7 6 ((5 + 1) * 8) / 7 = 7 := by decide
  simp only [h7, List.take_of_length_le hlen, unpackMsg_eq hp.2.1]
  rw [M.bind_ok (M.lift_ok _ _)]
  simp only [hun]
  rw [Gsm.decode_spells .strict hsp, M.bind_ok (M.lift_ok _ _), M.modify_apply, ← hf, ← hm]

theorem ucs2Chars_octets : ∀ t : List Nat, ucs2Chars (ucs2Octets t) = .ok t
  | [] => rfl
  | c :: t => by
    have ih := ucs2Chars_octets t
    simp only [ucs2Octets, List.flatMap_cons, List.cons_append, List.nil_append, ucs2Chars] at ih ⊢
    rw [ih]
    simp only [bind, Except.bind]
    congr 2; omega

/-- UCS2, no header -/
theorem processMessage_ucs2 {st : State} {mt udl : Nat} {t ud : List Nat} (hf : st.fmt = some 8) (hm : st.mtype = some mt)
    (hmt : mt &&& 0x40 = 0) (h : Carries .ucs2 [] t udl ud) :
    processMessage (udl :: ud) st = .ok () { st with text := some t } := by
  obtain ⟨_, hud, hudl⟩ := h
  rw [List.nil_append] at hud
  unfold processMessage
  simp only [pop0]
  rw [M.bind_ok (M.lift_ok _ _)]
  simp only []
  rw [M.bind_ok (M.get_apply _)]
  simp only [hf, hm, Option.getD_some, hmt, ne_eq, not_true_eq_false, if_false]
  rw [M.bind_ok (M.pure_apply _ _)]
  simp only [Nat.reduceEqDiff, if_false, if_true, List.drop_zero, OfNat.ofNat_ne_zero]
  rw [hud, ucs2Chars_octets, M.bind_ok (M.lift_ok _ _), M.modify_apply, ← hf, ← hm]

/-- UCS2 with a concatenation header -/
theorem processMessage_ucs2_concat {st : State} {mt udl ref cnt seq : Nat} {t ud : List Nat} (hf : st.fmt = some 8)
    (hm : st.mtype = some mt) (hmt : mt &&& 0x40 ≠ 0)
    (h : Carries .ucs2 (concatUdh ref cnt seq) t udl ud) :
    processMessage (udl :: ud) st = .ok () { st with
      udh := some ⟨some ⟨ref, cnt, seq, true⟩, none, [(0, [ref, cnt, seq])]⟩, text := some t } := by
  obtain ⟨_, hud, hudl⟩ := h
  have hud' : ud = 5 :: 0 :: 3 :: ref :: cnt :: seq :: ucs2Octets t := hud
  unfold processMessage
  simp only [pop0]
  rw [M.bind_ok (M.lift_ok _ _)]
  simp only []
  rw [M.bind_ok (M.get_apply _)]
  simp only [hf, hm, Option.getD_some, ne_eq, hmt, not_false_eq_true, if_true]
  rw [hud']
  simp only []
  rw [M.bind_ok (M.lift_ok _ _)]
  have htk5 : (0 :: 3 :: ref :: cnt :: seq :: ucs2Octets t).take 5 = [0, 3, ref, cnt, seq] := rfl
  have hdr5 : (0 :: 3 :: ref :: cnt :: seq :: ucs2Octets t).drop 5 = ucs2Octets t := rfl
  simp only [htk5, fromBytes_concat]
  rw [M.bind_ok (M.lift_ok _ _), M.bind_ok (M.modify_apply _ _), M.bind_ok (M.pure_apply _ _)]
  simp only [Nat.reduceEqDiff, if_false, hdr5, OfNat.ofNat_ne_zero]
  rw [ucs2Chars_octets, M.bind_ok (M.lift_ok _ _), M.modify_apply, ← hf, ← hm]

/-- 8-bit data, no header -/
theorem processMessage_bin {st : State} {mt udl : Nat} {t ud : List Nat} (hf : st.fmt = some 4) (hm : st.mtype = some mt)
    (hmt : mt &&& 0x40 = 0) (h : Carries .bin [] t udl ud) :
    processMessage (udl :: ud) st = .ok () { st with text := some t } := by
  obtain ⟨hud, hudl⟩ := h
  rw [List.nil_append] at hud
  unfold processMessage
  simp only [pop0]
  rw [M.bind_ok (M.lift_ok _ _)]
  simp only []
  rw [M.bind_ok (M.get_apply _)]
  simp only [hf, hm, Option.getD_some, hmt, ne_eq, not_true_eq_false, if_false]
  rw [M.bind_ok (M.pure_apply _ _)]
  simp only [Nat.reduceEqDiff, if_false, if_true, List.drop_zero, OfNat.ofNat_ne_zero]
  rw [hud, M.modify_apply, ← hf, ← hm]

end Verif.Deliver

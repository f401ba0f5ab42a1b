import Verif.Proofs.Stamp
import Verif.Proofs.Submit5
import Verif.Spec.Relay
/-!
# Lemmas about decoding relayed messages
-/
set_option autoImplicit false

namespace Verif.Deliver
open Verif Verif.Spec Verif.Spec.Sms Verif.Spec.Time Verif.Spec.Submit

theorem smscField_of {o : List Nat} {a : Option Address} (h : readSmsc o = some (a, [])) : SmscField o := by
  match o, h with
  | 0 :: r, h =>
    simp only [readSmsc, Option.some.injEq, Prod.mk.injEq] at h
    rw [h.2]; exact .none
  | [n + 1], h => simp [readSmsc] at h
  | (n + 1) :: toa :: r, h =>
    simp only [readSmsc, Nat.add_sub_cancel] at h
    split at h
    · cases h
    · rename_i hl
      simp only [Option.some.injEq, Prod.mk.injEq, List.drop_eq_nil_iff] at h
      have : n = r.length := by omega
      rw [this]; exact .some toa r

theorem foOctet (a b c d : Bool) :
    ((if a then 4 else 0) + (if b then 32 else 0) + (if c then 64 else 0) + (if d then 128 else 0) : Nat) &&& 3 = 0 ∧
    (((if a then 4 else 0) + (if b then 32 else 0) + (if c then 64 else 0) + (if d then 128 else 0) : Nat) &&& 64 ≠ 0 ↔
      c = true) ∧
    ((if a then 4 else 0) + (if b then 32 else 0) + (if c then 64 else 0) + (if d then 128 else 0) : Nat) < 256 := by
  cases a <;> cases b <;> cases c <;> cases d <;> decide

/-- first octet of the relayed message -/
def foOf (r : Relay) (t : Sms.Submit) : Nat :=
  (if r.nomore then 4 else 0) + (if r.sri then 32 else 0) + (if t.udhi then 64 else 0) + (if t.rp then 128 else 0)

theorem deliver_lt {r : Relay} (hr : r.Ok) {sub : Sms.Submit}
    (hb : ∀ x ∈ sub.pid :: sub.dcs :: sub.udl :: sub.ud, x < 256) : ∀ x ∈ r.deliver sub, x < 256 := by
  intro x hx
  have ho := hr.octets
  simp only [Relay.deliver, List.mem_append, List.mem_cons, List.not_mem_nil, or_false] at hx ho hb
  rcases hx with (((((h | h) | h) | h) | h) | h) | h
  · exact ho x (.inl (.inl h))
  · rw [h]; exact (foOctet r.nomore r.sri sub.udhi sub.rp).2.2
  · exact ho x (.inl (.inr h))
  · exact hb x (by rcases h with h | h <;> simp [h])
  · exact ho x (.inr h)
  · exact hb x (by simp [h])
  · exact hb x (by simp [h])

/-- everything but the user data -/
theorem setPdu_relay {r : Relay} (hr : r.Ok) {sub : Sms.Submit}
    (hb : ∀ x ∈ sub.pid :: sub.dcs :: sub.udl :: sub.ud, x < 256) :
    ∃ (n toa : Nat) (d : List Nat) (sender : Str) (t : Stamp), r.oa = n :: toa :: d ∧ d.length = (n + 1) / 2 ∧
      decodeSender toa d = .ok sender ∧ readStamp r.scts = some t ∧ t.civil.Valid ∧ ∀ st,
      setPdu (hexUpper (r.deliver sub)) st = processMessage (sub.udl :: sub.ud)
        (header st (hexUpper (r.deliver sub)) r.smsc (foOf r sub) sender sub.pid sub.dcs
          (Cal.subMinutes (Cal.ofCivil t.civil) (t.quarters * 15))) := by
  obtain ⟨a, ha⟩ := hr.smsc
  obtain ⟨n, toa, d, hoa, hd⟩ := hr.oa
  obtain ⟨t, ht, hv⟩ := hr.scts
  obtain ⟨stamp, z, hst, hsl, hci, hz⟩ := Cal.readStamp_civil ht hv
  have hlt := deliver_lt hr hb
  have ho := hr.octets
  have hd256 : ∀ x ∈ d, x < 256 := fun x hx => ho x (by rw [hoa]; simp [hx])
  have hs256 : ∀ x ∈ stamp, x < 256 := fun x hx => ho x (by rw [hst]; simp [hx])
  have hz256 : z < 256 := ho z (by rw [hst]; simp)
  obtain ⟨sender, hse⟩ := decodeSender_ok toa hd256
  refine ⟨n, toa, d, sender, t, hoa, hd, hse, ht, hv, fun st => ?_⟩
  have hbytes : r.deliver sub = r.smsc ++ foOf r sub :: (n :: toa :: (d ++ sub.pid :: sub.dcs ::
      (stamp ++ z :: (sub.udl :: sub.ud)))) := by
    rw [Relay.deliver, hoa, hst, foOf]; simp [List.append_assoc]
  have hfo := foOctet r.nomore r.sri sub.udhi sub.rp
  have hstr : Cal.strptime (swapPairs (encodeStr stamp)) = .ok (Cal.ofCivil t.civil) := by
    have h1 := (Cal.strptime_octets hs256).1 _ hci
    have h2 := Cal.swap_short hs256
    rwa [List.take_of_length_le (by omega)] at h1
  rw [setPdu_start (smscField_of ha) (by rw [← hbytes]; exact hlt) _
    (by rw [toArray_hexUpper hlt, hbytes]) (by rw [hexUpper_length]; omega)]
  have h3 : foOf r sub &&& 0x03 = 0 := hfo.1
  rw [if_neg (by rw [h3]; decide), if_neg (by rw [h3]; decide), decodeDeliver_ok hd hse hsl hstr,
    Cal.zoneMinutes_ok hz256 hz]
  rfl

theorem fmtOfDcs_octet (al : Alphabet) {k : Option Nat} (hk : ∀ c, k = some c → c ≤ 3) :
    fmtOfDcs (dcsOctet al k) = al.code ∧ dcsOctet al k < 256 := by
  cases k with
  | none => cases al <;> decide
  | some c =>
    have := hk c rfl
    have : c = 0 ∨ c = 1 ∨ c = 2 ∨ c = 3 := by omega
    rcases this with rfl | rfl | rfl | rfl <;> cases al <;> decide

/-- the user data header object for part `i` (from 0) of `n` -/
def udhOf (cr n i : Nat) : Option Udh.UserDataHeader :=
  if n = 1 then none else some ⟨some ⟨cr, n, i + 1, true⟩, none, [(0, [cr, n, i + 1])]⟩

/-- user data of the three alphabets -/
theorem processMessage_carries {st : State} {al : Alphabet} {mt udl cr n i : Nat} {t ud : List Nat}
    (hf : st.fmt = some al.code) (hm : st.mtype = some mt)
    (hmt : mt &&& 0x40 ≠ 0 ↔ n ≠ 1) (hr : cr < 256) (hn : n < 256) (hi : i < n) (hbin : al = .bin → n = 1)
    (h : Carries al (partHeader cr n i) t udl ud) (hl : ud.length ≤ 140) (hu : st.udh = none) :
    processMessage (udl :: ud) st = .ok () (withBody st (udhOf cr n i) t) := by
  by_cases h1 : n = 1
  · have hmt' : mt &&& 0x40 = 0 := by
      by_contra hc; exact hmt.1 hc h1
    rw [partHeader, if_pos h1] at h
    have hw : withBody st (udhOf cr n i) t = { st with text := some t } := by
      rw [withBody, udhOf, if_pos h1, ← hu]
    rw [hw]
    cases al with
    | gsm =>
      refine processMessage_gsm hf hm hmt' h ?_
      obtain ⟨g, _, ⟨hg, _⟩, hudl⟩ := h
      rw [← hudl] at hg
      omega
    | bin => exact processMessage_bin hf hm hmt' h
    | ucs2 => exact processMessage_ucs2 hf hm hmt' h
  · have hmt' := hmt.2 h1
    rw [partHeader, if_neg h1] at h
    rw [withBody, udhOf, if_neg h1]
    cases al with
    | gsm =>
      refine processMessage_gsm_concat hf hm hmt' hr hn (by omega) h ?_
      obtain ⟨g, _, ⟨hg, _⟩, hudl⟩ := h
      rw [← hudl] at hg
      omega
    | bin => exact absurd (hbin rfl) h1
    | ucs2 => exact processMessage_ucs2_concat hf hm hmt' h

theorem hexUpper_inj {a b : List Nat} (ha : ∀ x ∈ a, x < 256) (hb : ∀ x ∈ b, x < 256) (h : hexUpper a = hexUpper b) :
    a = b := by
  have h1 := toArray_hexUpper ha
  rw [h, toArray_hexUpper hb] at h1
  cases h1
  rfl

/-- octets of a submitted message are octets of what is read from it -/
theorem readSubmit_lt {rest : List Nat} {sub : Sms.Submit} (h : readSubmit rest = some sub) (hb : ∀ x ∈ rest, x < 256) :
    ∀ x ∈ sub.pid :: sub.dcs :: sub.udl :: sub.ud, x < 256 := by
  match rest, h with
  | fo :: mr :: r, h =>
    simp only [readSubmit] at h
    have hb' : ∀ x ∈ r, x < 256 := fun x hx => hb x (by simp [hx])
    split at h
    · rename_i da pid dcs r' hra
      obtain ⟨hr1, _⟩ := Verif.Submit.readAddress_bytes hb' hra
      have hb2 : ∀ x ∈ pid :: dcs :: r', x < 256 := fun x hx => hb' x (by rw [hr1]; exact List.mem_append_right _ hx)
      split at h
      · cases h
      · split at h
        · rename_i udl ud hdrop
          cases h
          have hb3 : ∀ x ∈ udl :: ud, x < 256 := fun x hx => hb2 x (by
            rw [← hdrop] at hx
            exact List.mem_cons_of_mem _ (List.mem_cons_of_mem _ (List.mem_of_mem_drop hx)))
          intro x hx
          simp only [List.mem_cons] at hx hb2 hb3
          rcases hx with h | h | h
          · exact hb2 x (by simp [h])
          · exact hb2 x (by simp [h])
          · exact hb3 x h
        · cases h
    · cases h

/-- the decoder returns what a conforming part carries -/
theorem relay_conforms {s : Verif.Submit.State} {al : Alphabet} {mr cr n i : Nat} {t : List Nat} {p : Verif.Submit.Pdu}
    (hk : ∀ k, s.klass = some k → k ≤ 3) (h : Conforms s al mr cr n i t p) (hcr : cr < 256) (hn : n < 256) (hi : i < n)
    (hbin : al = .bin → n = 1) {r : Relay} (hr : r.Ok) :
    (∃ q, Relays r p.pdu q) ∧ ∀ q, Relays r p.pdu q →
      ∃ (k toa : Nat) (o : List Nat) (sender : Str) (st : Stamp), r.oa = k :: toa :: o ∧ o.length = (k + 1) / 2 ∧
        decodeSender toa o = .ok sender ∧ readStamp r.scts = some st ∧ st.civil.Valid ∧
        ∃ d, smsDeliver q = .ok d ∧ d.text = some t ∧ d.udh = udhOf cr n i ∧ d.number = some sender ∧
          d.csca = cscaOf r.smsc ∧ d.date = some (Cal.subMinutes (Cal.ofCivil st.civil) (st.quarters * 15)) ∧
          (∃ pid : Nat, d.pid = some pid ∧ (pid : Int) = s.pid) ∧ d.dcs = some (dcsOctet al s.klass) ∧
          d.fmt = some al.code := by
  obtain ⟨udl, ud, ⟨bytes, sm, rest, sub, h1, h2, h3, _, _, _, _, h4, _, _, _, _, h5, _, _, _, h6, h7, _, h8, h9⟩, h10, h11⟩
    := h
  refine ⟨⟨_, bytes, sm, rest, sub, h1, h2, h3, h4, rfl⟩, ?_⟩
  rintro q ⟨bytes', sm', rest', sub', g1, g2, g3, g4, rfl⟩
  have e1 := hexUpper_inj h2 g2 (h1.symm.trans g1)
  subst e1
  rw [h3] at g3
  simp only [Option.some.injEq, Prod.mk.injEq] at g3
  obtain ⟨_, e2⟩ := g3
  subst e2
  rw [h4] at g4
  have e3 := Option.some.inj g4
  subst e3
  have hrest : ∀ x ∈ rest, x < 256 := by
    intro x hx
    refine h2 x ?_
    match bytes, h3 with
    | 0 :: r, h3 =>
      simp only [readSmsc, Option.some.injEq, Prod.mk.injEq] at h3
      rw [h3.2]; exact List.mem_cons_of_mem _ hx
    | [n + 1], h => simp [readSmsc] at h
    | (n + 1) :: toa :: r, h3 =>
      simp only [readSmsc] at h3
      split at h3
      · cases h3
      · simp only [Option.some.injEq, Prod.mk.injEq] at h3
        rw [← h3.2] at hx
        exact List.mem_cons_of_mem _ (List.mem_cons_of_mem _ (List.mem_of_mem_drop hx))
  obtain ⟨k, toa, o, sender, st, a1, a2, a3, a4, a5, a6⟩ := setPdu_relay hr (readSubmit_lt h4 hrest)
  refine ⟨k, toa, o, sender, st, a1, a2, a3, a4, a5, ?_⟩
  have hfm := fmtOfDcs_octet al hk
  have hpm := processMessage_carries (al := al) (mt := foOf r sub) (st := header (State.fresh true) (hexUpper (r.deliver sub))
      r.smsc (foOf r sub) sender sub.pid sub.dcs (Cal.subMinutes (Cal.ofCivil st.civil) (st.quarters * 15)))
    (by simp only [header, h7, hfm.1]) rfl (by
      rw [← h5]; exact (foOctet r.nomore r.sri sub.udhi sub.rp).2.1) hcr hn hi hbin h11 h10 rfl
  have hd : smsDeliver (hexUpper (r.deliver sub)) = .ok (withBody (header (State.fresh true) (hexUpper (r.deliver sub))
      r.smsc (foOf r sub) sender sub.pid sub.dcs (Cal.subMinutes (Cal.ofCivil st.civil) (st.quarters * 15)))
      (udhOf cr n i) t) := by
    unfold smsDeliver
    rw [a6, h8, h9, hpm]
  exact ⟨_, hd, rfl, rfl, rfl, rfl, rfl, ⟨sub.pid, rfl, h6⟩, congrArg some h7,
    congrArg some (by rw [h7]; exact hfm.1)⟩

end Verif.Deliver

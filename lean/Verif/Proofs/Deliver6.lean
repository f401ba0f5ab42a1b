import Verif.Proofs.Deliver5
import Verif.Spec.Sender
/-!
# User data with any header; alphanumeric senders
-/
set_option autoImplicit false

namespace Verif.Deliver
open Verif.Spec Verif.Spec.Sms Verif.Spec.Time

theorem roundUp7_eq (h : Nat) : roundUp7 6 h / 7 = (h + 6) / 7 := by
  simp only [roundUp7]
  repeat' split
  all_goals omega

theorem header_take {hdr g ud : List Nat} (hu : ∀ x ∈ hdr, x < 256) (h : PackedWithHeader hdr g ud) :
    ∃ r, ud = hdr ++ r := by
  obtain ⟨h1, h2, h3⟩ := h
  have hlen : hdr.length ≤ ud.length := by omega
  refine ⟨ud.drop hdr.length, ?_⟩
  conv_lhs => rw [← List.take_append_drop hdr.length ud]
  congr 1
  apply leVal_inj (b := 256)
  · rw [List.length_take]; omega
  · intro x hx; exact h2 x (List.mem_of_mem_take hx)
  · exact hu
  · have hsplit : leVal 256 ud = leVal 256 (ud.take hdr.length) + 256 ^ hdr.length * leVal 256 (ud.drop hdr.length) := by
      conv_lhs => rw [← List.take_append_drop hdr.length ud, leVal_append]
      rw [List.length_take, Nat.min_eq_left hlen]
    have hlt1 : leVal 256 (ud.take hdr.length) < 256 ^ hdr.length := by
      have := leVal_lt (b := 256) (xs := ud.take hdr.length) (fun x hx => h2 x (List.mem_of_mem_take hx))
      rwa [List.length_take, Nat.min_eq_left hlen] at this
    have hlt2 : leVal 256 hdr < 256 ^ hdr.length := leVal_lt hu
    have hpow : (128 : Nat) ^ ((8 * hdr.length + 6) / 7) =
        256 ^ hdr.length * 2 ^ (7 * ((8 * hdr.length + 6) / 7) - 8 * hdr.length) := by
      rw [show (128 : Nat) = 2 ^ 7 from rfl, show (256 : Nat) = 2 ^ 8 from rfl, ← pow_mul, ← pow_mul, ← pow_add]
      congr 1; omega
    rw [hsplit, hpow, mul_assoc] at h3
    have := congrArg (· % 256 ^ hdr.length) h3
    simp only [Nat.add_mul_mod_self_left] at this
    rwa [Nat.mod_eq_of_lt hlt1, Nat.mod_eq_of_lt hlt2] at this

theorem and64_table : ∀ n ∈ List.range 256, (n &&& 0x40 ≠ 0 ↔ n / 64 % 2 = 1) := by decide +kernel

theorem and64 {n : Nat} (h : n < 256) : n &&& 0x40 ≠ 0 ↔ n / 64 % 2 = 1 := and64_table n (List.mem_range.2 h)

/-- text after a header, in any coding -/
theorem textP_carries {al : Alphabet} {els : List Element} {t ud : List Nat} {udl : Nat}
    (ho : ∀ x ∈ elementOctets els, x < 256) (hb : ∀ x ∈ ud, x < 256) (hl : ud.length ≤ 140)
    (h : Carries al ((elementOctets els).length :: elementOctets els) t udl ud) :
    ∃ r, ud = (elementOctets els).length :: (elementOctets els ++ r) ∧
    textP al.code udl (headLen al.code (elementOctets els).length) (elementOctets els).length (encodeStr (ud.take udl))
      (elementOctets els ++ r) = .ok fun s => { s with text := some t } := by
  cases al with
  | gsm =>
    obtain ⟨g, hsp, hp, hudl⟩ := h
    have hg := Gsm.spells_lt hsp
    have hp1 := hp.1
    simp only [List.length_cons] at hp1 hudl
    have hu : ∀ x ∈ (elementOctets els).length :: elementOctets els, x < 256 := by
      intro x hx
      rcases List.mem_cons.1 hx with rfl | hx
      · omega
      · exact ho x hx
    obtain ⟨r, hr⟩ := header_take hu hp
    have hun := unpack_gsm hg hu hp (by simp only [List.length_cons]; omega)
    simp only [List.length_cons] at hun
    rw [← hudl] at hun
    refine ⟨r, by rw [hr]; rfl, ?_⟩
    unfold textP headLen
    rw [show Alphabet.gsm.code = 0 from rfl]
    rw [if_pos rfl, if_pos rfl, roundUp7_eq, List.take_of_length_le (by omega), unpackMsg_eq hb]
    simp only [Except.bind]
    rw [show ((elementOctets els).length + 1) * 8 + 6 = 8 * ((elementOctets els).length + 1) + 6 by omega, hun,
      Gsm.decode_spells .strict hsp]
  | bin =>
    obtain ⟨hud, hudl⟩ := h
    refine ⟨t, hud, ?_⟩
    unfold textP
    rw [show Alphabet.bin.code = 4 from rfl, if_neg (by decide), if_pos rfl, List.drop_left]
  | ucs2 =>
    obtain ⟨_, hud, hudl⟩ := h
    refine ⟨ucs2Octets t, hud, ?_⟩
    unfold textP
    rw [show Alphabet.ucs2.code = 8 from rfl, if_neg (by decide), if_neg (by decide), if_pos rfl, List.drop_left,
      ucs2Chars_octets]
    rfl

/-- text without header -/
theorem textP_plain {al : Alphabet} {t ud : List Nat} {udl : Nat} (hb : ∀ x ∈ ud, x < 256) (hl : ud.length ≤ 140)
    (h : Carries al [] t udl ud) :
    textP al.code udl 0 0 (encodeStr (ud.take udl)) ud = .ok fun s => { s with text := some t } := by
  cases al with
  | gsm =>
    obtain ⟨g, hsp, hp, hudl⟩ := h
    have hg := Gsm.spells_lt hsp
    have hp1 := hp.1
    simp only [List.length_nil, Nat.mul_zero, Nat.zero_add, Nat.reduceDiv] at hp1 hudl
    have hun := unpack_gsm hg (by simp) hp (by simp only [List.length_nil]; omega)
    simp only [List.length_nil, Nat.mul_zero, Nat.zero_add, Nat.reduceDiv] at hun
    rw [← hudl] at hun
    unfold textP
    rw [show Alphabet.gsm.code = 0 from rfl, if_pos rfl, List.take_of_length_le (by omega), unpackMsg_eq hb]
    simp only [Except.bind]
    rw [hun, Gsm.decode_spells .strict hsp]
  | bin =>
    obtain ⟨hud, hudl⟩ := h
    unfold textP
    rw [show Alphabet.bin.code = 4 from rfl, if_neg (by decide), if_pos rfl, List.drop_zero, hud]
    rfl
  | ucs2 =>
    obtain ⟨_, hud, hudl⟩ := h
    unfold textP
    rw [show Alphabet.ucs2.code = 8 from rfl, if_neg (by decide), if_neg (by decide), if_pos rfl, List.drop_zero, hud,
      List.nil_append, ucs2Chars_octets]
    rfl

/-- the header the decoder reads -/
def headerP (fo : Nat) (els : List Element) (u : Option Udh.UserDataHeader) : Option Udh.UserDataHeader :=
  if fo &&& 0x40 ≠ 0 then some (els.foldl ieStep Udh.UserDataHeader.empty) else u

/-- user data with any header, in any coding -/
theorem udP_carries {fo : Nat} {al : Alphabet} {els : List Element} {hdr t ud : List Nat} {udl : Nat}
    (hfo8 : fo < 256) (hok : ∀ e ∈ els, e.Ok) (hh : HeaderOf fo els hdr) (hb : ∀ x ∈ ud, x < 256) (hl : ud.length ≤ 140)
    (ho : ∀ x ∈ elementOctets els, x < 256) (h : Carries al hdr t udl ud) :
    udP fo al.code (udl :: ud) = .ok fun s => { s with udh := headerP fo els s.udh, text := some t } := by
  unfold udP
  simp only [pop0, Except.bind]
  rcases hh with ⟨hfo, rfl⟩ | ⟨hfo, rfl, rfl⟩
  · have hfo' := (and64 hfo8).2 hfo
    obtain ⟨r, hud, ht⟩ := textP_carries ho hb hl h
    have hpay : ∀ e ∈ els, ∀ x ∈ e.payload, x < 256 := fun e he x hx =>
      ho x (List.mem_flatMap.2 ⟨e, he, by simp [hx]⟩)
    obtain ⟨fuel, _, h1⟩ := fromBytes_els els [] hok hpay
    rw [List.append_nil] at h1
    rw [if_pos hfo']
    rw [hud] at ht ⊢
    simp only [List.take_left, h1, ht]
    rw [Udh.fromBytesLoop]
    simp only [headerP, if_pos hfo']
  · have hfo' : ¬ fo &&& 0x40 ≠ 0 := by rw [and64 hfo8]; omega
    rw [if_neg hfo', textP_plain hb hl h]
    simp only [headerP, if_neg hfo']

/-! ## Senders -/

/-- all octets are unpacked, so seven unused bits are a character -/
theorem unpack_sender {g o : List Nat} (hg : ∀ x ∈ g, x < 128) (h : PackedSeptets g o) (hl : g.length ≤ 160) :
    unpackMsg2 o = g ++ (if g.length % 8 = 7 then [0] else []) := by
  obtain ⟨h1, h2, h3⟩ := h
  rw [unpackMsg2_eq h2, h3]
  have hq : o.length = 7 * (g.length / 8) + g.length % 8 := by omega
  have hr : g.length % 8 < 8 := Nat.mod_lt _ (by decide)
  have hg8 : 8 * (g.length / 8) + g.length % 8 = g.length := Nat.div_add_mod _ _
  generalize g.length / 8 = q at hq hg8
  generalize hrr : g.length % 8 = r at hq hr hg8
  split
  · rename_i h7
    have hk : min (8 * o.length / 7) 161 = (g ++ [0]).length := by
      rw [List.length_append, List.length_singleton]; omega
    have hv : leVal 128 g = leVal 128 (g ++ [0]) := by
      rw [leVal_append]; simp [leVal]
    rw [hk, hv, digits_leVal]
    intro x hx
    rcases List.mem_append.1 hx with hx | hx
    · exact hg x hx
    · rw [List.mem_singleton.1 hx]; decide
  · have hk : min (8 * o.length / 7) 161 = g.length := by omega
    rw [hk, digits_leVal hg, List.append_nil]

theorem spells_at : Gsm.Spells [64] [0] :=
  ⟨[[0]], .cons (.inl ⟨0, by decide, by decide, rfl⟩) .nil, rfl⟩

theorem spells_append {a b c d : List Nat} (h : Gsm.Spells a c) (h' : Gsm.Spells b d) : Gsm.Spells (a ++ b) (c ++ d) := by
  obtain ⟨p, hp, rfl⟩ := h
  obtain ⟨q, hq, rfl⟩ := h'
  exact ⟨p ++ q, List.rel_append hp hq, by rw [List.flatten_append]⟩

theorem decodeSender_alpha {oa s g : List Nat} (h : AlphanumericAddress oa s g) (hl : g.length ≤ 160) :
    ∃ n toa o, oa = n :: toa :: o ∧ o.length = (n + 1) / 2 ∧
      decodeSender toa o = .ok (s ++ (if g.length % 8 = 7 then [64] else [])) := by
  obtain ⟨toa, o, rfl, ht, hs, hp⟩ := h
  refine ⟨_, toa, o, rfl, by have := hp.1; omega, ?_⟩
  unfold decodeSender
  have e : (toa >>> 4) &&& 0x07 = toa / 16 % 8 := by
    rw [Nat.shiftRight_eq_div_pow, show (0x07 : Nat) = 2 ^ 3 - 1 from rfl, Nat.and_two_pow_sub_one_eq_mod]
  simp only [e, ht, if_true]
  rw [unpack_sender (Gsm.spells_lt hs) hp hl]
  split
  · exact Gsm.decode_spells .strict (spells_append hs spells_at)
  · rw [List.append_nil, List.append_nil]; exact Gsm.decode_spells .strict hs

theorem hex02_semi {d e : Nat} (hd : d < 16) (he : e < 16) : hex02 (d + 16 * e) = [hexDig e, hexDig d] := by
  unfold hex02
  rw [if_pos (by omega), show (d + 16 * e) / 16 = e by omega, show (d + 16 * e) % 16 = d by omega]

theorem hexDig_ne : ∀ d ∈ List.range 15, hexDig d ≠ 102 := by decide

theorem swapNumber_hex : ∀ ds : List Nat, (∀ d ∈ ds, d < 15) → swapNumber (encodeStr (bcd ds)) = ds.map hexDig
  | [], _ => rfl
  | [d], h => by
    have h1 := h d (by simp)
    have hne := hexDig_ne d (List.mem_range.2 h1)
    have hf : hexDig 15 = 102 := rfl
    simp [bcd, encodeStr, hex02_semi (d := d) (e := 15) (by omega) (by decide), swapNumber, hne, hf, swapPairs]
  | d :: e :: r, h => by
    have h1 := h d (by simp)
    have h2 := h e (by simp)
    have ih := swapNumber_hex r (fun y hy => h y (by simp [hy]))
    have hne1 := hexDig_ne d (List.mem_range.2 h1)
    have hne2 := hexDig_ne e (List.mem_range.2 h2)
    unfold swapNumber at ih ⊢
    simp only [bcd, encodeStr_cons, hex02_semi (d := d) (e := e) (by omega) (by omega), List.cons_append, List.nil_append]
    rw [List.filter_cons_of_pos (by simpa using hne2), List.filter_cons_of_pos (by simpa using hne1)]
    simp only [swapPairs, ih, List.map_cons]

theorem decodeSender_numeric {a : Address} (hd : ∀ d ∈ a.digits, d < 10) (ht : a.toa / 16 % 8 ≠ 5) :
    decodeSender a.toa (bcd a.digits) = .ok (display a) := by
  have e : (a.toa >>> 4) &&& 0x07 = a.toa / 16 % 8 := by
    rw [Nat.shiftRight_eq_div_pow, show (0x07 : Nat) = 2 ^ 3 - 1 from rfl, Nat.and_two_pow_sub_one_eq_mod]
  unfold decodeSender
  simp only [e, ht, if_false, swapNumber_bcd a.digits hd, display]
  split <;> rfl

theorem csca_display {smsc : List Nat} {sm : Option Address} (hb : ∀ x ∈ smsc, x < 256)
    (h : readSmsc smsc = some (sm, [])) (hd : ∀ b, sm = some b → ∀ d ∈ b.digits, d < 10) :
    cscaOf smsc = sm.map display := by
  rw [Submit.readSmsc_bytes hb h hd, List.append_nil]
  cases sm with
  | none => rfl
  | some a =>
    have e : (a.toa >>> 4) &&& 0x07 = a.toa / 16 % 8 := by
      rw [Nat.shiftRight_eq_div_pow, show (0x07 : Nat) = 2 ^ 3 - 1 from rfl, Nat.and_two_pow_sub_one_eq_mod]
    simp only [Submit.smscBytes, cscaOf, e, swapNumber_bcd a.digits (hd a rfl), display, Option.map_some]
    split <;> rfl

theorem stamp_seven {o : List Nat} {t : Stamp} (h : readStamp o = some t) (hv : t.civil.Valid) :
    o.length = 7 ∧ ∃ stamp z, o = stamp ++ [z] ∧ stamp.length = 6 ∧ readCivil stamp = some t.civil := by
  obtain ⟨stamp, z, e1, e2, e3, _⟩ := Cal.readStamp_civil h hv
  exact ⟨by rw [e1, List.length_append, e2]; rfl, stamp, z, e1, e2, e3⟩

theorem stamp_parses {o stamp : List Nat} {z : Nat} {t : Stamp} (h : readStamp o = some t) (hv : t.civil.Valid)
    (h1 : o = stamp ++ [z]) (h2 : stamp.length = 6) (h4 : ∀ x ∈ stamp, x < 256) :
    ∃ dt, Cal.strptime (swapPairs (encodeStr stamp)) = .ok dt := by
  obtain ⟨_, stamp', z', e1, e2, e3⟩ := stamp_seven h hv
  rw [h1] at e1
  obtain ⟨rfl, _⟩ := List.append_inj e1 (h2.trans e2.symm)
  have hs := (Cal.strptime_octets h4).1 _ e3
  rw [List.take_of_length_le (by rw [Cal.swap_short h4]; omega)] at hs
  exact ⟨_, hs⟩

theorem decodeSender_hex {a : Address} (hd : ∀ d ∈ a.digits, d < 15) (ht : a.toa / 16 % 8 ≠ 5) :
    decodeSender a.toa (bcd a.digits) = .ok ((if a.toa / 16 % 8 = 1 then [43] else []) ++ a.digits.map hexDig) := by
  have e : (a.toa >>> 4) &&& 0x07 = a.toa / 16 % 8 := by
    rw [Nat.shiftRight_eq_div_pow, show (0x07 : Nat) = 2 ^ 3 - 1 from rfl, Nat.and_two_pow_sub_one_eq_mod]
  unfold decodeSender
  simp only [e, ht, if_false, swapNumber_hex a.digits hd]
  split <;> rfl

theorem hexDig_table : ∀ d ∈ List.range 15, (py! "0123456789abcde")[d]? = some (hexDig d) := by decide +kernel

theorem hexDigits_mapM (ds : List Nat) (hd : ∀ d ∈ ds, d < 15) :
    ds.mapM (fun x => (py! "0123456789abcde")[x]?) = some (ds.map hexDig) := by
  induction ds with
  | nil => rfl
  | cons d ds ih =>
    rw [List.mapM_cons, hexDig_table d (List.mem_range.2 (hd d (by simp))), ih fun x hx => hd x (by simp [hx])]
    rfl

end Verif.Deliver

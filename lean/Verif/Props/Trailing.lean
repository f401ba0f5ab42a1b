import Verif.Props.Deliver
/-!
# C32: octets after the announced user data, in the codings where they are not ignored
-/
set_option autoImplicit false

namespace Verif.Props
open Verif Verif.Spec Verif.Spec.Sms Verif.Spec.Time
open Verif.Deliver (smsDeliver State)

theorem ucs2_append : ∀ (l y : List Nat) (a : Str), Deliver.ucs2Chars l = .ok a →
    Deliver.ucs2Chars (l ++ y) = (Deliver.ucs2Chars y).bind fun b => .ok (a ++ b)
  | [], y, a, h => by
    cases h
    simp only [List.nil_append]
    cases Deliver.ucs2Chars y <;> rfl
  | [_], y, a, h => by cases h
  | x :: z :: l, y, a, h => by
    unfold Deliver.ucs2Chars at h
    obtain ⟨a', ha', h⟩ := Deliver.ebind_ok h
    cases h
    rw [List.cons_append, List.cons_append, Deliver.ucs2Chars.eq_3, ucs2_append l y a' ha']
    cases Deliver.ucs2Chars y <;> rfl

theorem ucs2_odd : ∀ l : List Nat, l.length % 2 = 1 → Deliver.ucs2Chars l = .error .indexError
  | [], h => by cases h
  | [_], _ => rfl
  | x :: z :: l, h => by
    unfold Deliver.ucs2Chars
    rw [ucs2_odd l (by simp only [List.length_cons] at h; omega)]
    rfl

/-- what the octets after the user data add to the text -/
def tailText (fmt : Nat) (x : List Nat) : Py Str := if fmt = 4 then .ok x else Deliver.ucs2Chars x

theorem textP_tail {fmt n k l : Nat} {msg msg' : Str} {data x : List Nat} {f : State → State} (hf : fmt = 4 ∨ fmt = 8)
    (hl : l ≤ data.length) (h : Deliver.textP fmt n k l msg data = .ok f) :
    ∃ t, (f = fun s => { s with text := some t }) ∧ Deliver.textP fmt n k l msg' (data ++ x) =
      (tailText fmt x).bind fun y => .ok fun s => { s with text := some (t ++ y) } := by
  unfold Deliver.textP tailText at *
  rcases hf with rfl | rfl
  · simp only [Nat.reduceEqDiff, if_false, if_true] at h ⊢
    cases h
    exact ⟨_, rfl, by rw [List.drop_append_of_le_length hl]; rfl⟩
  · simp only [Nat.reduceEqDiff, if_false, if_true] at h ⊢
    obtain ⟨t, ht, h⟩ := Deliver.ebind_ok h
    cases h
    refine ⟨t, rfl, ?_⟩
    rw [List.drop_append_of_le_length hl, ucs2_append _ _ _ ht]
    cases Deliver.ucs2Chars x <;> rfl

theorem bit64 {n : Nat} (hne : n &&& 0x40 ≠ 0) : n / 64 % 2 = 1 := by
  by_contra hc
  apply hne
  apply Nat.eq_of_testBit_eq
  intro i
  rw [Nat.testBit_and, Nat.zero_testBit]
  by_cases hi : i = 6
  · subst hi
    have : n.testBit 6 = false := by
      rw [Nat.testBit_eq_decide_div_mod_eq]; simpa using hc
    rw [this]; rfl
  · rw [show (64 : Nat) = 2 ^ 6 from rfl, Nat.testBit_two_pow_of_ne (Ne.symm hi), Bool.and_false]

theorem udP_tail {fo fmt udl : Nat} {ud x : List Nat} {f : State → State} (hf : fmt = 4 ∨ fmt = 8)
    (hh : fo / 64 % 2 = 1 → ∃ n r, ud = n :: r ∧ n ≤ r.length) (h : Deliver.udP fo fmt (udl :: ud) = .ok f) :
    ∃ (t : Str) (k : State → State), (f = fun s => { k s with text := some t }) ∧
      Deliver.udP fo fmt (udl :: (ud ++ x)) =
        (tailText fmt x).bind fun y => .ok fun s => { k s with text := some (t ++ y) } := by
  unfold Deliver.udP at *
  simp only [pop0, Except.bind] at h ⊢
  by_cases hm : fo &&& 0x40 ≠ 0
  · obtain ⟨n, r, hn, hnl⟩ := hh (bit64 hm)
    rw [if_pos hm] at h ⊢
    rw [hn] at h ⊢
    simp only [List.cons_append, List.take_append_of_le_length hnl] at h ⊢
    cases hu : Udh.fromBytes (r.take n) with
    | error e => rw [hu] at h; cases h
    | ok u =>
      rw [hu] at h
      simp only at h ⊢
      obtain ⟨g, hg, h⟩ := Deliver.ebind_ok h
      cases h
      obtain ⟨t, rfl, ht⟩ := textP_tail (x := x) (msg' := encodeStr ((n :: (r ++ x)).take udl)) hf hnl hg
      refine ⟨t, fun s => { s with udh := some u }, rfl, ?_⟩
      rw [ht]
      cases tailText fmt x <;> rfl
  · rw [if_neg hm] at h ⊢
    obtain ⟨t, rfl, ht⟩ := textP_tail (x := x) (msg' := encodeStr ((ud ++ x).take udl)) hf (Nat.zero_le _) h
    exact ⟨t, id, rfl, ht⟩

/-- 8-bit and UCS2: whatever length is announced, the octets that follow are read as text too -/
theorem deliver_tail {p : DeliverPdu} {x : List Nat} {strict : Bool} {d : State} {fmt : Nat} (h : p.Ok)
    (hx : ∀ y ∈ x, y < 256) (hd : smsDeliver (hexUpper p.octets) strict = .ok d) (hf : d.fmt = some fmt)
    (hc : fmt = 4 ∨ fmt = 8) (hh : p.fo / 64 % 2 = 1 → ∃ n r, p.ud = n :: r ∧ n ≤ r.length) :
    ∃ t, d.text = some t ∧ smsDeliver (hexUpper (p.octets ++ x)) strict = (tailText fmt x).bind fun y =>
      .ok { d with pdu := some (hexUpper (p.octets ++ x)), text := some (t ++ y) } := by
  have hfmt : Deliver.fmtOfDcs p.dcs = fmt := by
    obtain ⟨_, _, _, _, _, _, _, _, _, h6⟩ := date_set h hd
    rw [hf] at h6
    exact (Option.some.inj h6).symm
  have hq : ({ p with ud := p.ud ++ x } : DeliverPdu).octets = p.octets ++ x := by simp [DeliverPdu.octets]
  have hlt : ∀ y ∈ p.octets ++ x, y < 256 := fun y hy => (List.mem_append.1 hy).elim (h.octets y) (hx y)
  have hqok : ({ p with ud := p.ud ++ x } : DeliverPdu).Ok :=
    ⟨by rw [hq]; exact hlt, h.smsc, h.mti, h.oa, h.scts⟩
  obtain ⟨n, toa, o, sender, stamp, z, e1, e2, e3, e4, e5, _, _, _, e6⟩ := Deliver.pduP_deliver h
  obtain ⟨n', toa', o', sender', stamp', z', g1, g2, g3, g4, g5, _, _, _, g6⟩ := Deliver.pduP_deliver hqok
  simp only at g1 g4 g6
  rw [e1] at g1
  simp only [List.cons.injEq] at g1
  obtain ⟨rfl, rfl, rfl⟩ := g1
  rw [e3] at g3
  cases g3
  rw [e4] at g4
  obtain ⟨rfl, g7⟩ := List.append_inj g4 (e5.trans g5.symm)
  cases g7
  rw [hfmt] at e6 g6
  rw [Deliver.smsDeliver_eq, Deliver.setP_hex h.octets, e6] at hd
  rw [Deliver.smsDeliver_eq, Deliver.setP_hex hlt, ← hq, g6]
  obtain ⟨f, hf', hd⟩ := Deliver.ebind_ok hd
  obtain ⟨dt, hdt, hf'⟩ := Deliver.ebind_ok hf'
  obtain ⟨g, hg, hf'⟩ := Deliver.ebind_ok hf'
  have a0 := Deliver.pduP_pdu (f := f) (data := p.octets) (by rw [e6, hdt]; simp only [Except.bind, hg]; exact hf')
    (State.fresh strict)
  cases hf'
  cases hd
  obtain ⟨t, k, rfl, ht⟩ := udP_tail (x := x) hc hh hg
  refine ⟨t, rfl, ?_⟩
  rw [hdt]
  simp only [Except.bind]
  rw [ht]
  have a1 := a0 (some (hexUpper p.octets))
  have a2 := a0 (some (hexUpper ({ p with ud := p.ud ++ x } : DeliverPdu).octets))
  cases tailText fmt x with
  | error e => rfl
  | ok y =>
    simp only [Except.bind]
    congr 1
    have b1 := congrArg (fun s : State => { s with
      pdu := some (hexUpper ({ p with ud := p.ud ++ x } : DeliverPdu).octets), text := some (t ++ y) }) a1
    have b2 := congrArg (fun s : State => { s with text := some (t ++ y) }) a2
    exact b2.trans b1.symm

/-- C32, 8-bit: octets that follow the user data become part of the text, whatever length was announced; nothing else
changes. -/
theorem C32_bin (p : DeliverPdu) (x : List Nat) (strict : Bool) (d : State) (h : p.Ok) (hx : ∀ y ∈ x, y < 256)
    (hd : smsDeliver (hexUpper p.octets) strict = .ok d) (hf : d.fmt = some 4)
    (hh : p.fo / 64 % 2 = 1 → ∃ n r, p.ud = n :: r ∧ n ≤ r.length) :
    ∃ t, d.text = some t ∧ smsDeliver (hexUpper (p.octets ++ x)) strict =
      .ok { d with pdu := some (hexUpper (p.octets ++ x)), text := some (t ++ x) } :=
  deliver_tail h hx hd hf (.inl rfl) hh

/-- C32, UCS2: pairs of octets that follow become characters of the text, and an odd number of them raises IndexError. -/
theorem C32_ucs2 (p : DeliverPdu) (strict : Bool) (d : State) (h : p.Ok)
    (hd : smsDeliver (hexUpper p.octets) strict = .ok d) (hf : d.fmt = some 8)
    (hh : p.fo / 64 % 2 = 1 → ∃ n r, p.ud = n :: r ∧ n ≤ r.length) :
    ∃ t, d.text = some t ∧
      (∀ cs : Str, (∀ c ∈ cs, c < 65536) → smsDeliver (hexUpper (p.octets ++ ucs2Octets cs)) strict =
        .ok { d with pdu := some (hexUpper (p.octets ++ ucs2Octets cs)), text := some (t ++ cs) }) ∧
      (∀ x : List Nat, (∀ y ∈ x, y < 256) → x.length % 2 = 1 →
        smsDeliver (hexUpper (p.octets ++ x)) strict = .error .indexError) := by
  obtain ⟨t, ht, _⟩ := deliver_tail (x := []) h (fun y hy => by cases hy) hd hf (.inr rfl) hh
  refine ⟨t, ht, fun cs hcs => ?_, fun x hx ho => ?_⟩
  · obtain ⟨t', ht', e⟩ := deliver_tail (x := ucs2Octets cs) h
      (fun y hy => by
        obtain ⟨c, hc, hy⟩ := List.mem_flatMap.1 hy
        have := hcs c hc
        simp only [List.mem_cons, List.not_mem_nil, or_false] at hy
        omega) hd hf (.inr rfl) hh
    rw [ht] at ht'
    cases ht'
    rw [e]
    simp only [tailText, Nat.reduceEqDiff, if_false, Deliver.ucs2Chars_octets]
    rfl
  · obtain ⟨t', _, e⟩ := deliver_tail h hx hd hf (.inr rfl) hh
    rw [e]
    simp only [tailText, Nat.reduceEqDiff, if_false, ucs2_odd x ho]
    rfl

/-- C32, exactly: when the announced user data is there, the octets that follow leave the text alone if and only if the
alphabet is the 7-bit one (or there are none). -/
theorem C32_iff (p : DeliverPdu) (x : List Nat) (strict : Bool) (d : State) (h : p.Ok) (hx : ∀ y ∈ x, y < 256)
    (hd : smsDeliver (hexUpper p.octets) strict = .ok d) (hl : d.fmt = some 0 → udOctets .gsm p.udl ≤ p.ud.length)
    (hh : p.fo / 64 % 2 = 1 → ∃ n r, p.ud = n :: r ∧ n ≤ r.length) :
    (∃ d', smsDeliver (hexUpper (p.octets ++ x)) strict = .ok d' ∧ d'.text = d.text) ↔ x = [] ∨ d.fmt = some 0 := by
  constructor
  · rintro ⟨d', h', ht⟩
    obtain ⟨_, _, _, _, _, _, _, _, _, h6⟩ := date_set h hd
    rcases Deliver.fmtOfDcs_cases p.dcs with h0 | hc
    · exact .inr (h6.trans (congrArg some h0))
    · left
      obtain ⟨t, h1, e⟩ := deliver_tail h hx hd h6 hc hh
      rw [e] at h'
      obtain ⟨y, hy, h'⟩ := Deliver.ebind_ok h'
      cases h'
      rw [h1] at ht
      simp only [Option.some.injEq, List.append_right_eq_self] at ht
      subst ht
      rcases hc with hc | hc
      · rw [hc] at hy
        cases hy
        rfl
      · rw [hc] at hy
        simp only [tailText, Nat.reduceEqDiff, if_false] at hy
        match x, hy with
        | [], _ => rfl
        | a :: b :: r, hy =>
          unfold Deliver.ucs2Chars at hy
          obtain ⟨_, _, hy⟩ := Deliver.ebind_ok hy
          cases hy
  · rintro (rfl | h0)
    · exact ⟨d, by rw [List.append_nil]; exact hd, rfl⟩
    · exact ⟨_, C32_partial p x strict d h hx hd h0 (hl h0) hh, rfl⟩

/-- a class 1 8-bit message "a", and a UCS2 message -/
example : ∃ p : DeliverPdu, ∃ d, p.Ok ∧ smsDeliver (hexUpper p.octets) true = .ok d ∧ d.fmt = some 4 ∧
    d.text = some (py! "a") ∧ p.fo / 64 % 2 = 0 :=
  ⟨{ sampleDeliver with fo := 4, dcs := 4, udl := 1, ud := [97] }, _,
    ⟨by decide, sampleDeliver_ok.smsc, by decide, sampleDeliver_ok.oa, by decide⟩, rfl, rfl, rfl, by decide⟩

example : ∃ p : DeliverPdu, ∃ d, p.Ok ∧ smsDeliver (hexUpper p.octets) true = .ok d ∧ d.fmt = some 8 ∧
    d.text = some [0x4E2D] ∧ p.fo / 64 % 2 = 0 :=
  ⟨{ sampleDeliver with fo := 4, dcs := 8, udl := 2, ud := [0x4E, 0x2D] }, _,
    ⟨by decide, sampleDeliver_ok.smsc, by decide, sampleDeliver_ok.oa, by decide⟩, rfl, rfl, rfl, by decide⟩

end Verif.Props

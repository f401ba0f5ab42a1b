import Verif.Props.Cut
import Verif.Props.Accepted
import Verif.Spec.CutSms
/-!
# C74: exactly which beginnings of a received SMS are accepted
-/
set_option autoImplicit false

namespace Verif.Props
open Verif Verif.Spec Verif.Spec.Sms Verif.Spec.Time Verif.Spec.Accepted
open Verif.Deliver (smsDeliver State)

theorem frame_smsc {smsc : List Nat} {a : Option Address} (h : readSmsc smsc = some (a, [])) (fo : Nat) (t : List Nat) :
    Frame (smsc ++ fo :: t) ↔ Tpdu fo t := by
  match smsc, h with
  | [], h => cases h
  | 0 :: r, h =>
    simp only [readSmsc, Option.some.injEq, Prod.mk.injEq] at h
    obtain ⟨_, rfl⟩ := h
    constructor
    · intro h
      generalize hx : [0] ++ fo :: t = x at h
      cases h with
      | none fo' t' h' => simp at hx; obtain ⟨rfl, rfl⟩ := hx; exact h'
      | some toa sc fo' t' h' => simp at hx
    · exact fun h => .none fo t h
  | [n + 1], h => cases h
  | (n + 1) :: toa :: r, h =>
    simp only [readSmsc] at h
    split at h
    · cases h
    rename_i hl
    simp only [Option.some.injEq, Prod.mk.injEq, List.drop_eq_nil_iff] at h
    have hr : r.length = n := by omega
    subst hr
    constructor
    · intro h
      generalize hx : (r.length + 1) :: toa :: r ++ fo :: t = x at h
      cases h with
      | none fo' t' h' => simp at hx
      | some toa' sc fo' t' h' =>
        simp only [List.cons_append, List.cons.injEq, Nat.add_right_cancel_iff] at hx
        obtain ⟨e1, rfl, e2⟩ := hx
        obtain ⟨_, e3⟩ := List.append_inj e2 e1
        cases e3
        exact h'
    · exact fun h => .some toa r fo t h

theorem tpdu_fields {fo n toa : Nat} {d : List Nat} {pid dcs : Nat} {scts : List Nat} {udl : Nat} (ud : List Nat)
    (hf : fo % 4 = 0) (hd : d.length = (n + 1) / 2) (hs : scts.length = 7) :
    Tpdu fo (n :: toa :: (d ++ pid :: dcs :: (scts ++ udl :: ud))) ↔
      (∃ c, readCivil scts = some c) ∧ UserData (fo / 64 % 2 = 1) (dcs / 4 % 4 = 2) ud := by
  obtain ⟨s0, s1, s2, s3, s4, s5, z, rfl⟩ : ∃ s0 s1 s2 s3 s4 s5 z, scts = [s0, s1, s2, s3, s4, s5, z] := by
    match scts, hs with
    | [s0, s1, s2, s3, s4, s5, z], _ => exact ⟨s0, s1, s2, s3, s4, s5, z, rfl⟩
  constructor
  · intro h
    generalize hx : n :: toa :: (d ++ pid :: dcs :: ([s0, s1, s2, s3, s4, s5, z] ++ udl :: ud)) = x at h
    cases h with
    | report mr n' toa' rest h' => omega
    | deliver n' toa' oa pid' dcs' stamp zone udl' ud' c h1 h2 h3 h4 h5 =>
      simp only [List.cons.injEq] at hx
      obtain ⟨rfl, rfl, hx⟩ := hx
      obtain ⟨rfl, hy⟩ := List.append_inj hx (by omega)
      clear hx
      simp only [List.cons.injEq] at hy
      obtain ⟨rfl, rfl, hy⟩ := hy
      match stamp, h3 with
      | [t0, t1, t2, t3, t4, t5], _ =>
        simp only [List.cons_append, List.nil_append, List.cons.injEq] at hy
        obtain ⟨rfl, rfl, rfl, rfl, rfl, rfl, rfl, rfl, rfl⟩ := hy
        exact ⟨⟨c, h4⟩, h5⟩
  · rintro ⟨⟨c, hc⟩, h⟩
    exact .deliver n toa d pid dcs [s0, s1, s2, s3, s4, s5] z udl ud c (.inl hf) hd rfl hc h

theorem frame_deliver (p : DeliverPdu) (h : p.Ok) (ud : List Nat) :
    Frame (deliverHead p ++ ud) ↔
      (∃ c, readCivil p.scts = some c) ∧ UserData (p.fo / 64 % 2 = 1) (p.dcs / 4 % 4 = 2) ud := by
  obtain ⟨k, toa, a, hoa, hal⟩ := h.oa
  obtain ⟨sm, hsm⟩ := h.smsc
  have e : deliverHead p ++ ud = p.smsc ++ p.fo :: (k :: toa :: (a ++ p.pid :: p.dcs :: (p.scts ++ p.udl :: ud))) := by
    rw [deliverHead, hoa]; simp
  rw [e, frame_smsc hsm, tpdu_fields ud h.mti hal h.scts]

theorem header_cons {i m : Nat} {t : List Nat} :
    Header (i :: m :: t) ↔ (m ≤ t.length ∧ Contents i (t.take m) ∧ Header (t.drop m)) ∨ (t.length < m ∧ Contents i t) := by
  constructor
  · intro h
    generalize hx : i :: m :: t = x at h
    cases h with
    | nil => cases hx
    | cons id pl rest h1 h2 =>
      simp only [List.cons.injEq] at hx
      obtain ⟨rfl, rfl, rfl⟩ := hx
      left
      simp [h1, h2]
    | cut id n pl h1 h2 =>
      simp only [List.cons.injEq] at hx
      obtain ⟨rfl, rfl, rfl⟩ := hx
      exact .inr ⟨h1, h2⟩
  · rintro (⟨h1, h2, h3⟩ | ⟨h1, h2⟩)
    · have e : (t.take m).length = m := by rw [List.length_take]; omega
      have := Header.cons i (t.take m) (t.drop m) h2 h3
      rwa [e, List.take_append_drop] at this
    · exact .cut i m t h1 h2

theorem sms_header_take : ∀ (l : List CutSms.Element) (k : Nat), (∀ e ∈ l, Contents e.id e.data) → k ≤ (CutSms.octets l).length →
    (Header ((CutSms.octets l).take k) ↔ CutSms.Between l k)
  | l, 0, _, _ => ⟨fun _ => .here l, fun _ => by rw [List.take_zero]; exact .nil⟩
  | [], k + 1, _, hk => by simp [CutSms.octets] at hk
  | e :: r, 1, _, _ => by
    constructor
    · intro h
      simp only [CutSms.octets, List.take_succ_cons, List.take_zero] at h
      cases h
    · intro h
      generalize hx : 1 = x at h
      cases h with
      | here => cases hx
      | inside => omega
      | later => omega
  | e :: r, k + 2, hc, hk => by
    simp only [CutSms.octets, List.take_succ_cons, List.length_cons, List.length_append] at hk ⊢
    have ce := hc e (by simp)
    rw [header_cons]
    by_cases hl : e.data.length ≤ k
    · obtain ⟨m, rfl⟩ := Nat.exists_eq_add_of_le hl
      have ih := sms_header_take r m (fun x hx => hc x (by simp [hx])) (by omega)
      have e1 : (e.data ++ CutSms.octets r).take (e.data.length + m) = e.data ++ (CutSms.octets r).take m := by
        rw [List.take_length_add_append]
      rw [e1]
      constructor
      · rintro (⟨_, _, h⟩ | ⟨h, _⟩)
        · rw [List.drop_left, ih] at h
          have := CutSms.Between.later e r m h
          rwa [show e.data.length + m + 2 = e.data.length + 2 + m by omega]
        · simp at h
      · intro h
        left
        refine ⟨by simp, by rwa [List.take_left], ?_⟩
        rw [List.drop_left, ih]
        generalize hx : e.data.length + m + 2 = x at h
        cases h with
        | here => omega
        | inside _ _ k' h' => omega
        | later _ _ k' h' =>
          obtain rfl : m = k' := by omega
          exact h'
    · have e1 : (e.data ++ CutSms.octets r).take k = e.data.take k := List.take_append_of_le_length (by omega)
      have e2 : (e.data.take k).length = k := by rw [List.length_take]; omega
      rw [e1, e2]
      constructor
      · rintro (⟨h, _⟩ | ⟨_, h⟩)
        · omega
        · unfold Contents at h ce
          rw [e2] at h
          refine .inside e r k (by omega) (fun h0 => ?_) (fun h4 => ?_) (fun h58 => ?_)
          · have := h.1 h0; have := ce.1 h0; omega
          · have := h.2.1 h4; have := ce.2.1 h4; omega
          · rcases h58 with h5 | h8
            · exact h.2.2.1 h5
            · exact h.2.2.2 h8
      · intro h
        right
        refine ⟨by omega, ?_⟩
        generalize hx : k + 2 = x at h
        cases h with
        | here => omega
        | inside _ _ k' h1 h2 h3 h4 =>
          obtain rfl : k = k' := by omega
          unfold Contents
          rw [e2]
          exact ⟨fun h => absurd h h2, fun h => absurd h h3, fun h => h4 (.inl h), fun h => h4 (.inr h)⟩
        | later _ _ k' h' => omega
termination_by l => l.length

theorem between_all : ∀ l : List CutSms.Element, CutSms.Between l (CutSms.octets l).length
  | [] => .here []
  | e :: r => by
    have := CutSms.Between.later e r _ (between_all r)
    simp only [CutSms.octets, List.length_cons, List.length_append]
    rwa [show e.data.length + (CutSms.octets r).length + 1 + 1 = e.data.length + 2 + (CutSms.octets r).length by omega]

theorem take_head (p : DeliverPdu) (n : Nat) (h : (deliverHead p).length ≤ n) :
    p.octets.take n = deliverHead p ++ p.ud.take (n - (deliverHead p).length) := by
  have e : p.octets = deliverHead p ++ p.ud := rfl
  rw [e, List.take_append, List.take_of_length_le h]

theorem cut_accepted (p : DeliverPdu) (h : p.Ok) (strict : Bool) (hok : ∃ d, smsDeliver (hexUpper p.octets) strict = .ok d)
    (n : Nat) : (∃ d, smsDeliver (hexUpper (p.octets.take n)) strict = .ok d) ↔
      (deliverHead p).length ≤ n ∧
        UserData (p.fo / 64 % 2 = 1) (p.dcs / 4 % 4 = 2) (p.ud.take (n - (deliverHead p).length)) := by
  have hw := (C83_accepted p.octets h.octets strict).1 hok
  have e : p.octets = deliverHead p ++ p.ud := rfl
  rw [e, frame_deliver p h] at hw
  by_cases hn : (deliverHead p).length ≤ n
  · rw [C83_accepted _ (fun x hx => h.octets x (List.mem_of_mem_take hx)), take_head p n hn, frame_deliver p h]
    exact ⟨fun h => ⟨hn, h.2⟩, fun h => ⟨hw.1, h.2⟩⟩
  · obtain ⟨er, he⟩ := C74_header_partial p h n (by omega) strict
    rw [he]
    constructor
    · rintro ⟨_, h⟩; cases h
    · rintro ⟨h, _⟩; exact absurd h hn

/-- a DELIVER without user data header, cut after `n` octets: accepted exactly if the cut is in the user data and, with
two octets per character, between two characters -/
theorem C74_text_iff (p : DeliverPdu) (h : p.Ok) (strict : Bool) (hok : ∃ d, smsDeliver (hexUpper p.octets) strict = .ok d)
    (hu : p.fo / 64 % 2 = 0) (n : Nat) (hn : n ≤ p.octets.length) :
    (∃ d, smsDeliver (hexUpper (p.octets.take n)) strict = .ok d) ↔
      (deliverHead p).length ≤ n ∧ (p.dcs / 4 % 4 = 2 → (n - (deliverHead p).length) % 2 = 0) := by
  rw [cut_accepted p h strict hok]
  have e : p.octets.length = (deliverHead p).length + p.ud.length := List.length_append
  have e1 : (p.ud.take (n - (deliverHead p).length)).length = n - (deliverHead p).length := by
    rw [List.length_take]; omega
  unfold UserData
  rw [e1]
  simp [hu]

/-- a DELIVER with user data header, cut after `n` octets: accepted exactly if the cut is in the user data, after the
length of the header, and either in the header at a place where it is not noticed, or in the text and, with two octets
per character, between two characters -/
theorem C74_header_iff (p : DeliverPdu) (h : p.Ok) (strict : Bool) (hok : ∃ d, smsDeliver (hexUpper p.octets) strict = .ok d)
    (hu : p.fo / 64 % 2 = 1) (l : List CutSms.Element) (text : List Nat)
    (hud : p.ud = (CutSms.octets l).length :: (CutSms.octets l ++ text)) (hl : ∀ e ∈ l, Contents e.id e.data)
    (n : Nat) (hn : n ≤ p.octets.length) :
    (∃ d, smsDeliver (hexUpper (p.octets.take n)) strict = .ok d) ↔
      (deliverHead p).length ≤ n ∧ CutSms.Unnoticed l (p.dcs / 4 % 4 = 2) (n - (deliverHead p).length) := by
  rw [cut_accepted p h strict hok]
  have e : p.octets.length = (deliverHead p).length + p.ud.length := List.length_append
  apply and_congr_right
  intro hge
  obtain ⟨k, rfl⟩ := Nat.exists_eq_add_of_le hge
  rw [Nat.add_sub_cancel_left]
  have hk : k ≤ 1 + (CutSms.octets l).length + text.length := by
    have : p.ud.length = 1 + (CutSms.octets l).length + text.length := by rw [hud]; simp; omega
    omega
  clear hn e hge
  rw [hud]
  unfold UserData CutSms.Unnoticed
  simp only [hu, decide_true, if_true]
  generalize decide (p.dcs / 4 % 4 = 2) = u2
  cases k with
  | zero => simp
  | succ k =>
    simp only [List.take_succ_cons, Nat.add_sub_cancel]
    by_cases hc : k ≤ (CutSms.octets l).length
    · have hb := sms_header_take l k hl hc
      have e1 : (CutSms.octets l ++ text).take k = (CutSms.octets l).take k := List.take_append_of_le_length hc
      rw [e1]
      have e2 : ((CutSms.octets l).take k).take (CutSms.octets l).length = (CutSms.octets l).take k :=
        List.take_of_length_le (by rw [List.length_take]; omega)
      have e3 : ((CutSms.octets l).take k).drop (CutSms.octets l).length = [] :=
        List.drop_of_length_le (by rw [List.length_take]; omega)
      constructor
      · rintro ⟨m, r, hr, h1, _⟩
        cases hr
        rw [e2, hb] at h1
        exact ⟨by omega, .inl h1⟩
      · rintro ⟨_, h1 | ⟨h1, _⟩⟩
        · exact ⟨_, _, rfl, by rw [e2, hb]; exact h1, by rw [e3]; simp⟩
        · obtain rfl : k = (CutSms.octets l).length := by omega
          refine ⟨_, _, rfl, ?_, by rw [e3]; simp⟩
          rw [e2, hb]
          exact between_all l
    · obtain ⟨m, rfl⟩ := Nat.exists_eq_add_of_le (Nat.le_of_lt (Nat.lt_of_not_le hc))
      have hh := sms_header_take l _ hl (Nat.le_refl _)
      rw [List.take_length] at hh
      have hall := between_all l
      have hlong : ¬ CutSms.Between l ((CutSms.octets l).length + m) := by
        have hm : 0 < m := by omega
        clear hh hall hc hk hud
        induction l with
        | nil =>
          intro h
          generalize hx : (CutSms.octets []).length + m = x at h
          cases h with
          | here => omega
        | cons e r ih =>
          intro h
          generalize hx : (CutSms.octets (e :: r)).length + m = x at h
          simp only [CutSms.octets, List.length_cons, List.length_append] at hx
          cases h with
          | here => omega
          | inside _ _ k' h' => omega
          | later _ _ k' h' =>
            obtain rfl : k' = (CutSms.octets r).length + m := by omega
            exact ih (fun x hx => hl x (by simp [hx])) h'
      have e1 : (CutSms.octets l ++ text).take ((CutSms.octets l).length + m) = CutSms.octets l ++ text.take m := by
        rw [List.take_length_add_append]
      have e4 : (text.take m).length = m := by rw [List.length_take]; omega
      rw [e1]
      constructor
      · rintro ⟨a, r, hr, _, h2⟩
        cases hr
        rw [List.drop_left, e4] at h2
        exact ⟨by omega, .inr ⟨by omega, by rw [Nat.add_sub_cancel_left]; exact h2⟩⟩
      · rintro ⟨_, h1 | ⟨_, h1⟩⟩
        · exact absurd h1 hlong
        · rw [Nat.add_sub_cancel_left] at h1
          exact ⟨_, _, rfl, by rw [List.take_left]; exact hh.2 hall, by rw [List.drop_left, e4]; exact h1⟩

/-- an SMS in two parts, with a header of two elements -/
def sampleCutHeader : DeliverPdu :=
  { smsc := [0], fo := 0x44, oa := [0x04, 0x91, 0x21, 0x43], pid := 0, dcs := 8,
    scts := [0x11, 0x30, 0x13, 0x21, 0x43, 0x65, 0x80], udl := 13,
    ud := [9, 0x24, 2, 7, 7, 0, 3, 1, 2, 1, 0, 65, 0, 66] }

/-- cut inside the text between two characters: accepted; inside the concatenation element: refused -/
example : sampleCutHeader.Ok ∧ (∃ d, smsDeliver (hexUpper sampleCutHeader.octets) = .ok d) ∧
    sampleCutHeader.fo / 64 % 2 = 1 ∧
    sampleCutHeader.ud = 9 :: (CutSms.octets [⟨0x24, [7, 7]⟩, ⟨0, [1, 2, 1]⟩] ++ [0, 65, 0, 66]) ∧
    (∀ e ∈ [(⟨0x24, [7, 7]⟩ : CutSms.Element), ⟨0, [1, 2, 1]⟩], Contents e.id e.data) ∧
    CutSms.Unnoticed [⟨0x24, [7, 7]⟩, ⟨0, [1, 2, 1]⟩] true 12 ∧
    CutSms.Unnoticed [⟨0x24, [7, 7]⟩, ⟨0, [1, 2, 1]⟩] true 4 ∧
    ¬ CutSms.Unnoticed [⟨0x24, [7, 7]⟩, ⟨0, [1, 2, 1]⟩] true 8 := by
  refine ⟨⟨by decide, ⟨none, by decide⟩, by decide, ⟨4, 0x91, [0x21, 0x43], rfl, by decide⟩, by decide⟩, ⟨_, rfl⟩, by decide,
    rfl, ?_, ⟨by decide, .inr ⟨by decide, by decide⟩⟩,
    ⟨by decide, .inl (.inside _ _ 1 (by decide) (by decide) (by decide) (by decide))⟩, ?_⟩
  · simp [Contents]
  · rintro ⟨_, h | ⟨h, _⟩⟩
    · generalize hx : 8 - 1 = x at h
      cases h with
      | here => omega
      | inside e r k h => simp at h; omega
      | later e r k h =>
        simp at hx
        obtain rfl : k = 3 := by omega
        generalize hy : 3 = y at h
        cases h with
        | here => omega
        | inside e r k h h0 => simp at h0
        | later e r k h => simp at hy; omega
    · simp [CutSms.octets] at h

/-- a status report cut after `n` octets: accepted as soon as reference and the first two octets of the recipient are
there -/
theorem C74_report_iff (p : ReportPdu) (a : Address) (h : p.Ok a) (strict : Bool) (n : Nat) (hn : n ≤ p.octets.length) :
    (∃ d, smsDeliver (hexUpper (p.octets.take n)) strict = .ok d) ↔ p.smsc.length + 4 ≤ n := by
  obtain ⟨sm, hsm⟩ := h.smsc
  have hlt : ∀ x ∈ p.octets.take n, x < 256 := fun x hx => h.octets x (List.mem_of_mem_take hx)
  rw [C83_accepted _ hlt]
  have e : p.octets = p.smsc ++ p.fo :: p.mr :: (p.ra ++ p.rest) := by simp [ReportPdu.octets]
  have hra : 2 ≤ p.ra.length := by
    have := h.ra
    match hp : p.ra, this with
    | [], h => cases h
    | [_], h => cases h
    | _ :: _ :: _, _ => simp
  by_cases hk : p.smsc.length < n
  · obtain ⟨k, rfl⟩ := Nat.exists_eq_add_of_lt hk
    have e1 : p.octets.take (p.smsc.length + k + 1) = p.smsc ++ p.fo :: (p.mr :: (p.ra ++ p.rest)).take k := by
      rw [e, Nat.add_assoc, List.take_length_add_append, List.take_succ_cons]
    rw [e1, frame_smsc hsm]
    have hlen : ((p.mr :: (p.ra ++ p.rest)).take k).length = k := by
      rw [e] at hn
      simp only [List.length_append, List.length_cons] at hn
      simp only [List.length_take, List.length_append, List.length_cons]
      omega
    generalize (p.mr :: (p.ra ++ p.rest)).take k = t at hlen
    constructor
    · intro h1
      cases h1 with
      | deliver _ _ _ _ _ _ _ _ _ _ hm => have := h.mti; omega
      | report mr n toa rest _ => simp at hlen; omega
    · intro hk
      match t, hlen with
      | [], hl => simp at hl; omega
      | [_], hl => simp at hl; omega
      | [_, _], hl => simp at hl; omega
      | _ :: _ :: _ :: _, _ => exact .report _ _ _ _ h.mti
  · constructor
    · intro h1
      exfalso
      have e1 : p.octets.take n = p.smsc.take n := by rw [e]; exact List.take_append_of_le_length (by omega)
      rw [e1] at h1
      generalize hx : p.smsc.take n = x at h1
      have hxl : x.length ≤ p.smsc.length := by rw [← hx, List.length_take]; omega
      have hs : ∀ y ys, p.smsc = y :: ys → ys.length = y := by
        intro y ys hy
        rw [hy] at hsm
        match y, ys, hsm with
        | 0, r, h => simp [readSmsc] at h; simp [h.2]
        | m + 1, [], h => cases h
        | m + 1, _ :: r, h =>
          simp only [readSmsc] at h
          split at h
          · cases h
          · simp only [Option.some.injEq, Prod.mk.injEq, List.drop_eq_nil_iff] at h
            simp; omega
      cases hp : p.smsc with
      | nil => rw [hp] at hsm; cases hsm
      | cons y ys =>
        have hy := hs y ys hp
        rw [hp] at hx hxl
        cases n with
        | zero => rw [List.take_zero] at hx; rw [← hx] at h1; cases h1
        | succ n =>
          rw [List.take_succ_cons] at hx
          cases h1 with
          | none fo t _ => simp at hx; simp at hxl; omega
          | some toa sc fo t _ => simp at hx; simp at hxl; omega
    · intro h; omega

example : sampleReport.smsc.length + 4 ≤ 12 ∧ 12 < sampleReport.octets.length ∧
    ∃ d, smsDeliver (hexUpper (sampleReport.octets.take 12)) = .ok d := ⟨by decide, by decide, _, rfl⟩

end Verif.Props

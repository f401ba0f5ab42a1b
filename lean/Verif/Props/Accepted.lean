import Verif.Spec.Accepted
import Verif.Props.Deliver
import Verif.Proofs.Deliver6
/-!
# C83: exactly which PDUs are accepted
-/
set_option autoImplicit false

namespace Verif.Props
open Verif Verif.Spec Verif.Spec.Sms Verif.Spec.Time Verif.Spec.Accepted
open Verif.Deliver (smsDeliver State)

theorem bind_accepts {α β : Type} {x : Py α} {f : α → Py β} :
    (∃ b, x.bind f = .ok b) ↔ ∃ a, x = .ok a ∧ ∃ b, f a = .ok b := by
  constructor
  · rintro ⟨b, h⟩
    obtain ⟨a, h1, h2⟩ := Deliver.ebind_ok h
    exact ⟨a, h1, b, h2⟩
  · rintro ⟨a, rfl, b, h⟩
    exact ⟨b, h⟩

theorem pop0_accepts {l : List Nat} {x : Nat × List Nat} : pop0 l = .ok x ↔ l = x.1 :: x.2 :=
  ⟨Deliver.pop0_ok, fun h => by rw [h]; rfl⟩

theorem pyIdx_accepts (l : List Nat) (i : Nat) : (∃ x, pyIdx l i = .ok x) ↔ i < l.length := by
  unfold pyIdx
  constructor
  · rintro ⟨x, h⟩
    by_contra hc
    rw [List.getElem?_eq_none (by omega)] at h
    cases h
  · intro h
    rw [List.getElem?_eq_getElem h]
    exact ⟨_, rfl⟩

/-- one element -/
theorem applyIe_accepts (u : Udh.UserDataHeader) (id : Nat) (d : List Nat) :
    (∃ u', Udh.applyIe u id d = .ok u') ↔ Contents id d := by
  unfold Contents
  by_cases h0 : id = 0
  · subst h0
    unfold Udh.applyIe
    match d with
    | [] => simp [bind, Except.bind]
    | [_] => simp [bind, Except.bind]
    | [_, _] => simp [bind, Except.bind]
    | [_, _, _] => simp [bind, Except.bind]
    | _ :: _ :: _ :: _ :: _ => simp [bind, Except.bind]
  by_cases h4 : id = 4
  · subst h4
    unfold Udh.applyIe
    match d with
    | [] => simp [bind, Except.bind]
    | [_] => simp [bind, Except.bind]
    | [_, _] => simp [bind, Except.bind]
    | _ :: _ :: _ :: _ => simp [bind, Except.bind]
  by_cases h5 : id = 5
  · subst h5
    unfold Udh.applyIe
    match d with
    | [] => simp [bind, Except.bind, pyIdx]
    | [_] => simp [bind, Except.bind, pyIdx]
    | [_, _] => simp [bind, Except.bind, pyIdx]
    | [_, _, _] => simp [bind, Except.bind, pyIdx]
    | _ :: _ :: _ :: _ :: _ => simp [bind, Except.bind, pyIdx]
  by_cases h8 : id = 8
  · subst h8
    unfold Udh.applyIe
    match d with
    | [] => simp [bind, Except.bind, pyIdx]
    | [_] => simp [bind, Except.bind, pyIdx]
    | [_, _] => simp [bind, Except.bind, pyIdx]
    | [_, _, _] => simp [bind, Except.bind, pyIdx]
    | _ :: _ :: _ :: _ :: _ => simp [bind, Except.bind, pyIdx]
  unfold Udh.applyIe
  simp [bind, Except.bind, h0, h4, h5, h8]

theorem fromBytesLoop_accepts : ∀ (fuel : Nat) (u : Udh.UserDataHeader) (l : List Nat), l.length ≤ fuel →
    ((∃ u', Udh.fromBytesLoop fuel u l = .ok u') ↔ Header l)
  | _, u, [], _ => by
    unfold Udh.fromBytesLoop
    exact ⟨fun _ => .nil, fun _ => ⟨u, rfl⟩⟩
  | 0, _, _ :: _, h => by simp at h
  | fuel + 1, u, [a], _ => by
    unfold Udh.fromBytesLoop
    constructor
    · rintro ⟨_, h⟩; cases h
    · intro h; cases h
  | fuel + 1, u, id :: n :: data, h => by
    unfold Udh.fromBytesLoop
    rw [show (∃ u', (Udh.applyIe u id (data.take n) >>= fun udh => Udh.fromBytesLoop fuel udh (data.drop n)) = .ok u') ↔
      _ from bind_accepts]
    have hl : ∀ v, (∃ b, Udh.fromBytesLoop fuel v (data.drop n) = .ok b) ↔ Header (data.drop n) := fun v =>
      fromBytesLoop_accepts fuel v _ (by rw [List.length_drop]; simp only [List.length_cons] at h; omega)
    have : (∃ a, Udh.applyIe u id (data.take n) = .ok a ∧ ∃ b, Udh.fromBytesLoop fuel a (data.drop n) = .ok b) ↔
        Contents id (data.take n) ∧ Header (data.drop n) := by
      rw [← applyIe_accepts u]
      constructor
      · rintro ⟨a, h1, h2⟩
        exact ⟨⟨a, h1⟩, (hl a).1 h2⟩
      · rintro ⟨⟨a, h1⟩, h2⟩
        exact ⟨a, h1, (hl a).2 h2⟩
    rw [this]
    constructor
    · rintro ⟨h1, h2⟩
      by_cases hn : n ≤ data.length
      · have e : n = (data.take n).length := by rw [List.length_take]; omega
        have := Header.cons id _ _ h1 h2
        rwa [List.take_append_drop, ← e] at this
      · rw [List.take_of_length_le (by omega)] at h1
        exact .cut id n data (by omega) h1
    · intro hh
      cases hh with
      | cons _ p r h1 h2 =>
        rw [List.take_left' rfl, List.drop_left' rfl]
        exact ⟨h1, h2⟩
      | cut _ _ _ h1 h2 =>
        rw [List.take_of_length_le (by omega), List.drop_of_length_le (by omega)]
        exact ⟨h2, .nil⟩

theorem ucs2Chars_accepts : ∀ l : List Nat, (∃ t, Deliver.ucs2Chars l = .ok t) ↔ l.length % 2 = 0
  | [] => by simp [Deliver.ucs2Chars]
  | [_] => by simp [Deliver.ucs2Chars]
  | a :: b :: r => by
    unfold Deliver.ucs2Chars
    rw [show (∃ t, (Deliver.ucs2Chars r >>= fun r => .ok ((a * 256 + b) :: r)) = .ok t) ↔ _ from bind_accepts]
    have := ucs2Chars_accepts r
    simp only [List.length_cons]
    rw [show (r.length + 1 + 1) % 2 = r.length % 2 by omega, ← this]
    constructor
    · rintro ⟨t, h, _⟩; exact ⟨t, h⟩
    · rintro ⟨t, h⟩; exact ⟨t, h, _, rfl⟩

theorem fmt_ucs2 {dcs : Nat} (h : dcs < 256) : Deliver.fmtOfDcs dcs = 8 ↔ dcs / 4 % 4 = 2 := by
  have : ∀ n ∈ List.range 256, (Deliver.fmtOfDcs n = 8 ↔ n / 4 % 4 = 2) := by decide +kernel
  exact this dcs (List.mem_range.2 h)

theorem textP_accepts {fmt msgl headlen udLen : Nat} {o data : List Nat} (ho : ∀ x ∈ o, x < 256) :
    (∃ f, Deliver.textP fmt msgl headlen udLen (encodeStr o) data = .ok f) ↔ (fmt = 8 → (data.drop udLen).length % 2 = 0) := by
  unfold Deliver.textP
  split
  · next h0 =>
    subst h0
    refine ⟨fun _ h => absurd h (by decide), fun _ => ?_⟩
    have h7 : ∀ x ∈ ((unpackMsg2 o).take msgl).drop headlen, x < 128 := by
      intro x hx
      have hx' := List.mem_of_mem_take (List.mem_of_mem_drop hx)
      rw [unpackMsg2_eq ho] at hx'
      exact digits_lt (by decide) _ _ x hx'
    obtain ⟨t, ht, _⟩ := Gsm.decode_septets .strict _ _ (le_refl _) h7
    rw [unpackMsg_eq ho]
    simp only [Except.bind, ht]
    exact ⟨_, rfl⟩
  · split
    · next h4 => subst h4; simp
    · split
      · next h8 =>
        subst h8
        rw [bind_accepts]
        rw [← ucs2Chars_accepts]
        constructor
        · rintro ⟨t, h, _⟩ _; exact ⟨t, h⟩
        · intro h
          obtain ⟨t, h⟩ := h rfl
          exact ⟨t, h, _, rfl⟩
      · next h8 => simp [h8]

theorem udP_accepts {mt dcs udl : Nat} {ud : List Nat} (hm : mt < 256) (hd : dcs < 256) (ho : ∀ x ∈ ud, x < 256) :
    (∃ f, Deliver.udP mt (Deliver.fmtOfDcs dcs) (udl :: ud) = .ok f) ↔ UserData (mt / 64 % 2 = 1) (dcs / 4 % 4 = 2) ud := by
  have ht : ∀ x ∈ ud.take udl, x < 256 := fun x hx => ho x (List.mem_of_mem_take hx)
  unfold Deliver.udP UserData
  simp only [pop0, Except.bind]
  by_cases h64 : mt / 64 % 2 = 1
  · rw [if_pos ((Deliver.and64 hm).2 h64), if_pos (by simpa using h64)]
    cases ud with
    | nil => simp
    | cons n r =>
      have e1 : (∃ f, ((Udh.fromBytes (r.take n)).bind fun udh => (Deliver.textP (Deliver.fmtOfDcs dcs) udl
          (Deliver.headLen (Deliver.fmtOfDcs dcs) n) n (encodeStr ((n :: r).take udl)) r).bind fun f =>
          (.ok fun s => f { s with udh := some udh } : Py (State → State))) = .ok f) ↔
          Header (r.take n) ∧ (Deliver.fmtOfDcs dcs = 8 → (r.drop n).length % 2 = 0) := by
        rw [bind_accepts, ← textP_accepts (fmt := Deliver.fmtOfDcs dcs) (msgl := udl)
          (headlen := Deliver.headLen (Deliver.fmtOfDcs dcs) n) (udLen := n) (data := r) ht,
          ← fromBytesLoop_accepts _ Udh.UserDataHeader.empty _ (le_refl _)]
        constructor
        · rintro ⟨u, h1, h2⟩
          rw [bind_accepts] at h2
          obtain ⟨f, h2, _⟩ := h2
          exact ⟨⟨u, h1⟩, f, h2⟩
        · rintro ⟨⟨u, h1⟩, f, h2⟩
          refine ⟨u, h1, ?_⟩
          rw [bind_accepts]
          exact ⟨f, h2, _, rfl⟩
      refine e1.trans ?_
      rw [fmt_ucs2 hd]
      simp only [List.cons.injEq, decide_eq_true_eq]
      constructor
      · rintro ⟨h1, h2⟩
        exact ⟨n, r, ⟨rfl, rfl⟩, h1, h2⟩
      · rintro ⟨_, _, ⟨rfl, rfl⟩, h1, h2⟩
        exact ⟨h1, h2⟩
  · rw [if_neg (fun h => h64 ((Deliver.and64 hm).1 h)), if_neg (by simpa using h64), textP_accepts ht, fmt_ucs2 hd]
    simp only [List.drop_zero, decide_eq_true_eq]

theorem strptime_accepts {o : List Nat} (h : ∀ x ∈ o, x < 256) (hl : o.length = 6) :
    (∃ d, Cal.strptime (swapPairs (encodeStr o)) = .ok d) ↔ ∃ c, readCivil o = some c := by
  have hs := Cal.swap_short h
  obtain ⟨h1, h2⟩ := Cal.strptime_octets h
  rw [List.take_of_length_le (l := swapPairs _) (by omega)] at h1 h2
  cases hc : readCivil o with
  | some c => exact ⟨fun _ => ⟨c, rfl⟩, fun _ => ⟨_, h1 c hc⟩⟩
  | none =>
    obtain ⟨e, he, _⟩ := h2 hc
    rw [he]
    simp

theorem deliverP_accepts {fo : Nat} {t : List Nat} (hf : fo < 256) (ht : ∀ x ∈ t, x < 256)
    (hm : fo % 4 = 0 ∨ fo % 4 = 3) : (∃ f, Deliver.deliverP fo t = .ok f) ↔ Tpdu fo t := by
  constructor
  · rintro ⟨f, h⟩
    unfold Deliver.deliverP at h
    obtain ⟨⟨x, r⟩, h1, h⟩ := Deliver.ebind_ok h
    obtain ⟨g, h2, _⟩ := Deliver.ebind_ok h
    unfold Deliver.fieldsP at h1
    obtain ⟨⟨n, l1⟩, e1, h1⟩ := Deliver.ebind_ok h1
    obtain ⟨⟨toa, l2⟩, e2, h1⟩ := Deliver.ebind_ok h1
    obtain ⟨sender, _, h1⟩ := Deliver.ebind_ok h1
    obtain ⟨⟨pid, l3⟩, e3, h1⟩ := Deliver.ebind_ok h1
    obtain ⟨⟨dcs, l4⟩, e4, h1⟩ := Deliver.ebind_ok h1
    obtain ⟨⟨zone, l5⟩, e5, h1⟩ := Deliver.ebind_ok h1
    obtain ⟨dt, e6, h1⟩ := Deliver.ebind_ok h1
    cases h1
    rw [pop0_accepts] at e1 e2 e3 e4 e5
    simp only at e1 e2 e3 e4 e5 e6 h2
    have l6 : 6 < l4.length := by
      have := congrArg List.length e5
      rw [List.length_drop, List.length_cons] at this
      omega
    have lk : Deliver.semiLen n < l2.length := by
      have := congrArg List.length e3
      rw [List.length_drop, List.length_cons] at this
      omega
    have hr : ∃ udl ud, l5 = udl :: ud := by
      unfold Deliver.udP at h2
      obtain ⟨⟨udl, ud⟩, e, _⟩ := Deliver.ebind_ok h2
      exact ⟨udl, ud, Deliver.pop0_ok e⟩
    obtain ⟨udl, ud, rfl⟩ := hr
    have et : t = n :: toa :: (l2.take (Deliver.semiLen n) ++ pid :: dcs :: (l4.take 6 ++ zone :: udl :: ud)) := by
      rw [e1, e2, ← e5, List.take_append_drop, ← e4, ← e3, List.take_append_drop]
    rw [et] at ht ⊢
    have hs := strptime_accepts (o := l4.take 6) (fun x hx => ht x (by simp [hx])) (by rw [List.length_take]; omega)
    obtain ⟨c, hc⟩ := hs.1 ⟨dt, e6⟩
    refine .deliver n toa _ pid dcs _ zone udl ud c hm ?_ ?_ hc ?_
    · rw [List.length_take, Deliver.semiLen_eq]
      rw [Deliver.semiLen_eq] at lk
      omega
    · rw [List.length_take]; omega
    · exact (udP_accepts (udl := udl) hf (ht dcs (by simp)) (fun x hx => ht x (by simp [hx]))).1 ⟨g, h2⟩
  · intro h
    cases h with
    | report mr n toa rest h => omega
    | deliver n toa oa pid dcs stamp zone udl ud c _ hl hs hc hu =>
      obtain ⟨sender, hse⟩ := Deliver.decodeSender_ok toa (d := oa) (fun x hx => ht x (by simp [hx]))
      obtain ⟨dt, hdt⟩ := (strptime_accepts (o := stamp) (fun x hx => ht x (by simp [hx])) hs).2 ⟨c, hc⟩
      obtain ⟨f, hf'⟩ := (udP_accepts (udl := udl) hf (ht dcs (by simp)) (fun x hx => ht x (by simp [hx]))).2 hu
      unfold Deliver.deliverP
      rw [Deliver.fieldsP_ok hl hse hs]
      simp only [Except.bind, hdt, hf']
      exact ⟨_, rfl⟩

theorem reportP_accepts {t : List Nat} : (∃ f, Deliver.reportP t = .ok f) ↔ ∃ mr n toa rest, t = mr :: n :: toa :: rest := by
  unfold Deliver.reportP
  match t with
  | [] => simp [pop0, Except.bind]
  | [_] => simp [pop0, Except.bind]
  | [_, _] => simp [pop0, Except.bind]
  | a :: b :: c :: r => simp [pop0, Except.bind]

theorem tpdu_accepts {fo : Nat} {t : List Nat} (hf : fo < 256) (ht : ∀ x ∈ t, x < 256) :
    (∃ f, (if fo &&& 0x03 = 0x02 then Deliver.reportP t else if fo &&& 0x03 = 0x01 then .error .valueError
      else Deliver.deliverP fo t) = .ok f) ↔ Tpdu fo t := by
  rw [Deliver.and3]
  by_cases h2 : fo % 4 = 2
  · rw [if_pos h2, reportP_accepts]
    constructor
    · rintro ⟨mr, n, toa, rest, rfl⟩
      exact .report mr n toa rest h2
    · intro h
      cases h with
      | report mr n toa rest _ => exact ⟨mr, n, toa, rest, rfl⟩
      | deliver _ _ _ _ _ _ _ _ _ _ hm => omega
  rw [if_neg h2]
  by_cases h1 : fo % 4 = 1
  · rw [if_pos h1]
    constructor
    · rintro ⟨_, h⟩; cases h
    · intro h
      cases h with
      | report mr n toa rest _ => omega
      | deliver _ _ _ _ _ _ _ _ _ _ hm => omega
  rw [if_neg h1]
  exact deliverP_accepts hf ht (by omega)

/-- C83: a hexadecimal string is decoded if and only if its octets have this form; otherwise an exception is raised. -/
theorem C83_accepted (o : List Nat) (h : ∀ x ∈ o, x < 256) (strict : Bool) :
    (∃ d, smsDeliver (hexUpper o) strict = .ok d) ↔ Frame o := by
  rw [Deliver.smsDeliver_eq, Deliver.setP_hex h, bind_accepts]
  have e0 : (∃ a, Deliver.pduP o = .ok a ∧ ∃ b : State, (Except.ok (a { State.fresh strict with pdu := some (hexUpper o) }) : Py State)
      = .ok b) ↔ ∃ f, Deliver.pduP o = .ok f :=
    ⟨fun ⟨f, h, _⟩ => ⟨f, h⟩, fun ⟨f, h⟩ => ⟨f, h, _, rfl⟩⟩
  rw [e0]
  unfold Deliver.pduP
  rw [bind_accepts]
  have e1 : ∀ (c : Option Str) (l : List Nat), (∀ x ∈ l, x < 256) →
      ((∃ f, ((pop0 l).bind fun m => (if m.1 &&& 0x03 = 0x02 then Deliver.reportP m.2
        else if m.1 &&& 0x03 = 0x01 then .error .valueError else Deliver.deliverP m.1 m.2).bind fun f =>
        (.ok fun s => f { s with csca := c, mtype := some m.1 } : Py (State → State))) = .ok f) ↔
        ∃ fo t, l = fo :: t ∧ Tpdu fo t) := by
    intro c l hl
    rw [bind_accepts]
    constructor
    · rintro ⟨⟨fo, t⟩, p, h1⟩
      rw [bind_accepts] at h1
      obtain ⟨f, h1, _⟩ := h1
      rw [pop0_accepts] at p
      simp only at p
      subst p
      exact ⟨fo, t, rfl, (tpdu_accepts (hl fo (by simp)) (fun x hx => hl x (by simp [hx]))).1 ⟨f, h1⟩⟩
    · rintro ⟨fo, t, rfl, h1⟩
      obtain ⟨f, h1⟩ := (tpdu_accepts (hl fo (by simp)) (fun x hx => hl x (by simp [hx]))).2 h1
      refine ⟨(fo, t), rfl, ?_⟩
      rw [bind_accepts]
      exact ⟨f, h1, _, rfl⟩
  unfold Deliver.smscP
  constructor
  · rintro ⟨⟨c, l⟩, h1, h2⟩
    obtain ⟨⟨n, l1⟩, p1, h3⟩ := Deliver.ebind_ok h1
    clear h1
    rw [pop0_accepts] at p1
    simp only at p1 h3
    subst p1
    by_cases hn : n > 0
    · rw [if_pos hn] at h3
      obtain ⟨⟨toa, l2⟩, p2, h4⟩ := Deliver.ebind_ok h3
      clear h3
      rw [pop0_accepts] at p2
      simp only at p2 h4
      subst p2
      cases h4
      obtain ⟨fo, t, p3, h2⟩ := (e1 _ _ (fun x hx => h x (by simp [List.mem_of_mem_drop hx]))).1 h2
      have hl : n - 1 < l2.length := by
        have := congrArg List.length p3
        rw [List.length_drop, List.length_cons] at this
        omega
      have := Frame.some toa (l2.take (n - 1)) fo t h2
      rw [← p3, List.take_append_drop, List.length_take] at this
      rwa [show min (n - 1) l2.length + 1 = n by omega] at this
    · rw [if_neg hn] at h3
      cases h3
      obtain ⟨fo, t, rfl, h5⟩ := (e1 _ _ (fun x hx => h x (by simp [hx]))).1 h2
      rw [show n = 0 by omega]
      exact .none fo t h5
  · intro hF
    cases hF with
    | none fo t ht =>
      exact ⟨(none, fo :: t), rfl, (e1 _ _ (fun x hx => h x (by simp [List.mem_cons.1 hx]))).2 ⟨fo, t, rfl, ht⟩⟩
    | some toa sc fo t ht =>
      refine ⟨(some (Deliver.recipientP toa sc), fo :: t), ?_, (e1 _ _ (fun x hx => h x (by
        simp only [List.mem_cons, List.mem_append] at hx ⊢; tauto))).2 ⟨fo, t, rfl, ht⟩⟩
      simp only [pop0, Except.bind, Nat.add_sub_cancel, List.take_left', List.drop_left']
      rfl

/-- a frame, and the same without its last octet but three -/
example : Frame sampleDeliver.octets := (C83_accepted _ (by decide) true).1 ⟨_, rfl⟩
example : ¬ Frame (sampleDeliver.octets.take 20) := fun h => by
  obtain ⟨d, hd⟩ := (C83_accepted _ (by decide) true).2 h
  have : smsDeliver (hexUpper (sampleDeliver.octets.take 20)) = .error .indexError := by decide +kernel
  rw [this] at hd
  cases hd
/-- a header of two elements, of which the second is cut -/
example : Header ([0, 3, 9, 2, 1] ++ [0x70, 5, 1]) :=
  .cons 0 [9, 2, 1] _ ⟨fun _ => rfl, by decide, by decide, by decide⟩ (.cut 0x70 5 [1] (by decide) ⟨by decide, by decide, by decide, by decide⟩)

end Verif.Props

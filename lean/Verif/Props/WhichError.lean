import Verif.Props.AnyString
import Verif.Spec.Wrong
/-!
# C25: exactly which exception is raised for a string that is refused
-/
set_option autoImplicit false

namespace Verif.Props
open Verif Verif.Spec Verif.Spec.Sms Verif.Spec.Time Verif.Spec.Accepted Verif.Spec.Wrong
open Verif.Deliver (smsDeliver State)

theorem bind_raises {α β : Type} {x : Py α} {f : α → Py β} {e : PyErr} :
    x.bind f = .error e ↔ x = .error e ∨ ∃ a, x = .ok a ∧ f a = .error e := by
  cases x with
  | error e' => simp [Except.bind]
  | ok a => simp [Except.bind]

theorem pop0_wrong {l : List Nat} : pop0 l ≠ .error .valueError := by
  cases l <;> simp [pop0]

theorem pop0_bind_wrong {β : Type} {l : List Nat} {f : Nat × List Nat → Py β} :
    (pop0 l).bind f = .error .valueError ↔ ∃ a r, l = a :: r ∧ f (a, r) = .error .valueError := by
  cases l <;> simp [pop0, Except.bind]

theorem applyIe_wrong (u : Udh.UserDataHeader) (id : Nat) (d : List Nat) :
    Udh.applyIe u id d = .error .valueError ↔ (id = 0 ∧ d.length ≠ 3) ∨ (id = 4 ∧ d.length ≠ 2) := by
  by_cases h0 : id = 0
  · subst h0
    unfold Udh.applyIe
    match d with
    | [] => simp [bind, Except.bind]
    | [_] => simp [bind, Except.bind]
    | [_, _] => simp [bind, Except.bind]
    | [_, _, _] => simp [bind, Except.bind]
    | _ :: _ :: _ :: _ :: _ => simp [bind, Except.bind]
  by_cases h4 : id = 4
  · subst h4
    unfold Udh.applyIe
    match d with
    | [] => simp [bind, Except.bind]
    | [_] => simp [bind, Except.bind]
    | [_, _] => simp [bind, Except.bind]
    | _ :: _ :: _ :: _ => simp [bind, Except.bind]
  by_cases h5 : id = 5
  · subst h5
    unfold Udh.applyIe
    match d with
    | [] => simp [bind, Except.bind, pyIdx]
    | [_] => simp [bind, Except.bind, pyIdx]
    | [_, _] => simp [bind, Except.bind, pyIdx]
    | [_, _, _] => simp [bind, Except.bind, pyIdx]
    | _ :: _ :: _ :: _ :: _ => simp [bind, Except.bind, pyIdx]
  by_cases h8 : id = 8
  · subst h8
    unfold Udh.applyIe
    match d with
    | [] => simp [bind, Except.bind, pyIdx]
    | [_] => simp [bind, Except.bind, pyIdx]
    | [_, _] => simp [bind, Except.bind, pyIdx]
    | [_, _, _] => simp [bind, Except.bind, pyIdx]
    | _ :: _ :: _ :: _ :: _ => simp [bind, Except.bind, pyIdx]
  unfold Udh.applyIe
  simp [bind, Except.bind, h0, h4, h5, h8]

theorem fromBytesLoop_wrong : ∀ (fuel : Nat) (u : Udh.UserDataHeader) (l : List Nat), l.length ≤ fuel →
    (Udh.fromBytesLoop fuel u l = .error .valueError ↔ WrongHeader l)
  | _, u, [], _ => by
    unfold Udh.fromBytesLoop
    constructor
    · intro h; cases h
    · intro h; cases h
  | 0, _, _ :: _, h => by simp at h
  | fuel + 1, u, [a], _ => by
    unfold Udh.fromBytesLoop
    constructor
    · intro h; cases h
    · intro h; cases h
  | fuel + 1, u, id :: n :: data, h => by
    unfold Udh.fromBytesLoop
    have hl : ∀ v, Udh.fromBytesLoop fuel v (data.drop n) = .error .valueError ↔ WrongHeader (data.drop n) := fun v =>
      fromBytesLoop_wrong fuel v _ (by rw [List.length_drop]; simp only [List.length_cons] at h; omega)
    rw [show (Udh.applyIe u id (data.take n) >>= fun udh => Udh.fromBytesLoop fuel udh (data.drop n)) = .error .valueError ↔
      _ from bind_raises, applyIe_wrong]
    constructor
    · rintro (h1 | ⟨a, h1, h2⟩)
      · exact .here id n data h1
      · exact .later id n data ((applyIe_accepts u id _).1 ⟨a, h1⟩) ((hl a).1 h2)
    · intro hh
      cases hh with
      | here _ _ _ h1 => exact .inl h1
      | later _ _ _ h1 h2 =>
        obtain ⟨a, ha⟩ := (applyIe_accepts u id _).2 h1
        exact .inr ⟨a, ha, (hl a).2 h2⟩

theorem ucs2Chars_wrong : ∀ l : List Nat, Deliver.ucs2Chars l ≠ .error .valueError
  | [] => by simp [Deliver.ucs2Chars]
  | [_] => by simp [Deliver.ucs2Chars]
  | a :: b :: r => by
    unfold Deliver.ucs2Chars
    intro h
    rw [show (Deliver.ucs2Chars r >>= fun r => .ok ((a * 256 + b) :: r)) = .error .valueError ↔ _ from bind_raises] at h
    rcases h with h | ⟨t, _, h⟩
    · exact ucs2Chars_wrong r h
    · cases h

theorem textP_wrong {fmt msgl headlen udLen : Nat} {o data : List Nat} (ho : ∀ x ∈ o, x < 256) :
    Deliver.textP fmt msgl headlen udLen (encodeStr o) data ≠ .error .valueError := by
  intro h
  by_cases h8 : fmt = 8
  · subst h8
    unfold Deliver.textP at h
    simp only [Nat.reduceEqDiff, if_false, if_true] at h
    rw [bind_raises] at h
    rcases h with h | ⟨t, _, h⟩
    · exact ucs2Chars_wrong _ h
    · cases h
  · obtain ⟨f, hf⟩ := (textP_accepts (fmt := fmt) (msgl := msgl) (headlen := headlen) (udLen := udLen) (data := data) ho).2
      (fun h => absurd h h8)
    rw [hf] at h
    cases h

theorem udP_wrong {mt fmt : Nat} {l : List Nat} (hm : mt < 256) (ho : ∀ x ∈ l, x < 256) :
    Deliver.udP mt fmt l = .error .valueError ↔
      ∃ udl k r, l = udl :: k :: r ∧ mt / 64 % 2 = 1 ∧ WrongHeader (r.take k) := by
  unfold Deliver.udP
  rw [pop0_bind_wrong]
  constructor
  · rintro ⟨udl, ud, rfl, h⟩
    have ht : ∀ x ∈ ud.take udl, x < 256 := fun x hx => ho x (List.mem_cons_of_mem _ (List.mem_of_mem_take hx))
    simp only at h
    split at h
    · rename_i h64
      rw [pop0_bind_wrong] at h
      obtain ⟨k, r, rfl, h⟩ := h
      simp only at h
      rw [bind_raises] at h
      rcases h with h | ⟨u, _, h⟩
      · exact ⟨udl, k, r, rfl, (Deliver.and64 hm).1 h64, (fromBytesLoop_wrong _ _ _ (le_refl _)).1 h⟩
      · rw [bind_raises] at h
        rcases h with h | ⟨f, _, h⟩
        · exact absurd h (textP_wrong ht)
        · cases h
    · exact absurd h (textP_wrong ht)
  · rintro ⟨udl, k, r, rfl, h64, h⟩
    refine ⟨udl, k :: r, rfl, ?_⟩
    simp only
    rw [if_pos ((Deliver.and64 hm).2 h64), pop0_bind_wrong]
    refine ⟨k, r, rfl, ?_⟩
    simp only
    rw [bind_raises]
    exact .inl ((fromBytesLoop_wrong _ _ _ (le_refl _)).2 h)

theorem strptime_wrong {o : List Nat} (h : ∀ x ∈ o, x < 256) (hl : o.length = 6) :
    Cal.strptime (swapPairs (encodeStr o)) = .error .valueError ↔ readCivil o = none := by
  have hs := Cal.swap_short h
  obtain ⟨h1, h2⟩ := Cal.strptime_octets h
  rw [List.take_of_length_le (l := swapPairs _) (by omega)] at h1 h2
  cases hc : readCivil o with
  | some c => rw [h1 c hc]; simp
  | none =>
    obtain ⟨e, he, h3⟩ := h2 hc
    rcases h3 with rfl | ⟨_, h3⟩
    · simp [he]
    · omega

theorem deliverP_wrong {fo : Nat} {t : List Nat} (hf : fo < 256) (ht : ∀ x ∈ t, x < 256)
    (hm : fo % 4 = 0 ∨ fo % 4 = 3) : Deliver.deliverP fo t = .error .valueError ↔ WrongTpdu fo t := by
  constructor
  · intro h
    unfold Deliver.deliverP at h
    rw [bind_raises] at h
    have frame : ∀ {n l1 toa l2 pid l3 dcs l4 zone l5}, t = n :: l1 → l1 = toa :: l2 →
        l2.drop (Deliver.semiLen n) = pid :: l3 → l3 = dcs :: l4 → l4.drop 6 = zone :: l5 →
        t = n :: toa :: (l2.take (Deliver.semiLen n) ++ pid :: dcs :: (l4.take 6 ++ zone :: l5)) ∧
          (l2.take (Deliver.semiLen n)).length = (n + 1) / 2 ∧ (l4.take 6).length = 6 := by
      intro n l1 toa l2 pid l3 dcs l4 zone l5 e1 e2 e3 e4 e5
      have l6 : 6 < l4.length := by
        have := congrArg List.length e5
        rw [List.length_drop, List.length_cons] at this
        omega
      have lk : Deliver.semiLen n < l2.length := by
        have := congrArg List.length e3
        rw [List.length_drop, List.length_cons] at this
        omega
      refine ⟨?_, ?_, ?_⟩
      · rw [e1, e2, ← e5, List.take_append_drop, ← e4, ← e3, List.take_append_drop]
      · rw [List.length_take, Deliver.semiLen_eq]
        rw [Deliver.semiLen_eq] at lk
        omega
      · rw [List.length_take]; omega
    rcases h with h | ⟨⟨x, r⟩, h1, h⟩
    · unfold Deliver.fieldsP at h
      rw [pop0_bind_wrong] at h
      obtain ⟨n, l1, e1, h⟩ := h
      simp only at h
      rw [pop0_bind_wrong] at h
      obtain ⟨toa, l2, e2, h⟩ := h
      simp only at h
      rw [bind_raises] at h
      rcases h with h | ⟨sender, _, h⟩
      · obtain ⟨s, hs⟩ := Deliver.decodeSender_ok toa (d := l2.take (Deliver.semiLen n))
          (fun x hx => ht x (by rw [e1, e2]; simp [List.mem_of_mem_take hx]))
        rw [hs] at h
        cases h
      rw [pop0_bind_wrong] at h
      obtain ⟨pid, l3, e3, h⟩ := h
      simp only at h
      rw [pop0_bind_wrong] at h
      obtain ⟨dcs, l4, e4, h⟩ := h
      simp only at h
      rw [pop0_bind_wrong] at h
      obtain ⟨zone, l5, e5, h⟩ := h
      simp only at h
      rw [bind_raises] at h
      obtain ⟨et, hoa, hst⟩ := frame e1 e2 e3 e4 e5
      rcases h with h | ⟨dt, _, h⟩
      · rw [et] at ht ⊢
        exact .stamp n toa _ pid dcs _ zone l5 hm hoa hst
          ((strptime_wrong (fun x hx => ht x (by simp [hx])) hst).1 h)
      · cases h
    · simp only at h
      rw [bind_raises] at h
      rcases h with h | ⟨g, _, h⟩
      · unfold Deliver.fieldsP at h1
        obtain ⟨⟨n, l1⟩, e1, h1⟩ := Deliver.ebind_ok h1
        obtain ⟨⟨toa, l2⟩, e2, h1⟩ := Deliver.ebind_ok h1
        obtain ⟨sender, _, h1⟩ := Deliver.ebind_ok h1
        obtain ⟨⟨pid, l3⟩, e3, h1⟩ := Deliver.ebind_ok h1
        obtain ⟨⟨dcs, l4⟩, e4, h1⟩ := Deliver.ebind_ok h1
        obtain ⟨⟨zone, l5⟩, e5, h1⟩ := Deliver.ebind_ok h1
        obtain ⟨dt, e6, h1⟩ := Deliver.ebind_ok h1
        cases h1
        rw [pop0_accepts] at e1 e2 e3 e4 e5
        simp only at e1 e2 e3 e4 e5 e6 h
        obtain ⟨et, hoa, hst⟩ := frame e1 e2 e3 e4 e5
        rw [et] at ht ⊢
        obtain ⟨udl, k, r, rfl, h64, hw⟩ := (udP_wrong hf (fun x hx => ht x (by simp [hx]))).1 h
        obtain ⟨c, hc⟩ := (strptime_accepts (fun x hx => ht x (by simp [hx])) hst).1 ⟨dt, e6⟩
        exact .header n toa _ pid dcs _ zone udl k r c hm hoa hst hc h64 hw
      · cases h
  · intro h
    cases h with
    | submit h => omega
    | stamp n toa oa pid dcs stamp zone rest _ hl hs hc =>
      obtain ⟨sender, hse⟩ := Deliver.decodeSender_ok toa (d := oa) (fun x hx => ht x (by simp [hx]))
      have hdt := (strptime_wrong (o := stamp) (fun x hx => ht x (by simp [hx])) hs).2 hc
      unfold Deliver.deliverP
      rw [Deliver.fieldsP_ok hl hse hs]
      simp only [Except.bind, hdt]
    | header n toa oa pid dcs stamp zone udl k r c _ hl hs hc h64 hw =>
      obtain ⟨sender, hse⟩ := Deliver.decodeSender_ok toa (d := oa) (fun x hx => ht x (by simp [hx]))
      obtain ⟨dt, hdt⟩ := (strptime_accepts (o := stamp) (fun x hx => ht x (by simp [hx])) hs).2 ⟨c, hc⟩
      have hu := (udP_wrong (mt := fo) (fmt := Deliver.fmtOfDcs dcs) (l := udl :: k :: r) hf
        (fun x hx => ht x (by simp only [List.mem_cons, List.mem_append] at hx ⊢; tauto))).2 ⟨udl, k, r, rfl, h64, hw⟩
      unfold Deliver.deliverP
      rw [Deliver.fieldsP_ok hl hse hs]
      simp only [Except.bind, hdt, hu]

theorem tpdu_wrong {fo : Nat} {t : List Nat} (hf : fo < 256) (ht : ∀ x ∈ t, x < 256) :
    (if fo &&& 0x03 = 0x02 then Deliver.reportP t else if fo &&& 0x03 = 0x01 then .error .valueError
      else Deliver.deliverP fo t) = .error .valueError ↔ WrongTpdu fo t := by
  rw [Deliver.and3]
  by_cases h2 : fo % 4 = 2
  · rw [if_pos h2]
    constructor
    · intro h
      unfold Deliver.reportP at h
      rw [pop0_bind_wrong] at h
      obtain ⟨_, _, _, h⟩ := h
      simp only at h
      rw [pop0_bind_wrong] at h
      obtain ⟨_, _, _, h⟩ := h
      simp only at h
      rw [pop0_bind_wrong] at h
      obtain ⟨_, _, _, h⟩ := h
      cases h
    · intro h
      cases h with
      | submit => omega
      | stamp _ _ _ _ _ _ _ _ h => omega
      | header _ _ _ _ _ _ _ _ _ _ _ h => omega
  rw [if_neg h2]
  by_cases h1 : fo % 4 = 1
  · rw [if_pos h1]
    exact ⟨fun _ => .submit t h1, fun _ => rfl⟩
  rw [if_neg h1]
  exact deliverP_wrong hf ht (by omega)

theorem pduP_wrong (o : List Nat) (h : ∀ x ∈ o, x < 256) : Deliver.pduP o = .error .valueError ↔ WrongFrame o := by
  have e1 : ∀ (c : Option Str) (l : List Nat), (∀ x ∈ l, x < 256) →
      (((pop0 l).bind fun m => (if m.1 &&& 0x03 = 0x02 then Deliver.reportP m.2
        else if m.1 &&& 0x03 = 0x01 then .error .valueError else Deliver.deliverP m.1 m.2).bind fun f =>
        (.ok fun s => f { s with csca := c, mtype := some m.1 } : Py (State → State))) = .error .valueError ↔
        ∃ fo t, l = fo :: t ∧ WrongTpdu fo t) := by
    intro c l hl
    rw [pop0_bind_wrong]
    constructor
    · rintro ⟨fo, t, rfl, h1⟩
      simp only at h1
      rw [bind_raises] at h1
      rcases h1 with h1 | ⟨f, _, h1⟩
      · exact ⟨fo, t, rfl, (tpdu_wrong (hl fo (by simp)) (fun x hx => hl x (by simp [hx]))).1 h1⟩
      · cases h1
    · rintro ⟨fo, t, rfl, h1⟩
      refine ⟨fo, t, rfl, ?_⟩
      simp only
      rw [bind_raises]
      exact .inl ((tpdu_wrong (hl fo (by simp)) (fun x hx => hl x (by simp [hx]))).2 h1)
  unfold Deliver.pduP Deliver.smscP
  constructor
  · intro h1
    rw [bind_raises] at h1
    rcases h1 with h1 | ⟨⟨c, l⟩, h1, h2⟩
    · rw [pop0_bind_wrong] at h1
      obtain ⟨n, l, _, h1⟩ := h1
      simp only at h1
      split at h1
      · rw [pop0_bind_wrong] at h1
        obtain ⟨_, _, _, h1⟩ := h1
        cases h1
      · cases h1
    · obtain ⟨⟨n, l1⟩, p1, h3⟩ := Deliver.ebind_ok h1
      clear h1
      rw [pop0_accepts] at p1
      simp only at p1 h3 h2
      split at h3
      · rename_i hn
        obtain ⟨⟨toa, l2⟩, p2, h3⟩ := Deliver.ebind_ok h3
        rw [pop0_accepts] at p2
        simp only at p2 h3
        cases h3
        subst p1 p2
        obtain ⟨fo, t, e, hw⟩ := (e1 _ (l2.drop (n - 1))
          (fun x hx => h x (List.mem_cons_of_mem _ (List.mem_cons_of_mem _ (List.mem_of_mem_drop hx))))).1 h2
        have hlen : n - 1 < l2.length := by
          have := congrArg List.length e
          rw [List.length_drop, List.length_cons] at this
          omega
        have := WrongFrame.some toa (l2.take (n - 1)) fo t hw
        rw [← e, List.take_append_drop, List.length_take, Nat.min_eq_left (by omega), Nat.sub_add_cancel (by omega)] at this
        exact this
      · rename_i hn
        cases h3
        subst p1
        obtain rfl : n = 0 := by omega
        obtain ⟨fo, t, rfl, hw⟩ := (e1 none _ (fun x hx => h x (List.mem_cons_of_mem _ hx))).1 h2
        exact .none fo t hw
  · intro hw
    rw [bind_raises]
    right
    cases hw with
    | none fo t hw => exact ⟨(none, fo :: t), rfl, (e1 none _ (fun x hx => h x (List.mem_cons_of_mem _ hx))).2 ⟨fo, t, rfl, hw⟩⟩
    | some toa sc fo t hw =>
      refine ⟨(some (Deliver.recipientP toa sc), fo :: t), ?_, (e1 _ _ (fun x hx => h x (by
        simp only [List.mem_cons, List.mem_append] at hx ⊢; tauto))).2 ⟨fo, t, rfl, hw⟩⟩
      simp [pop0, Except.bind]

theorem hexUpper_minus (o : List Nat) (h : ∀ x ∈ o, x < 256) : 45 ∉ hexUpper o := by
  intro hm
  have hs := toArray_hexUpper h
  have := (toArray_spells (hexUpper o) o (by rw [hexUpper_length]; omega)).1 hs
  clear hs
  have hd : ∀ n < 256, ∀ c ∈ hexUpper [n], c ≠ 45 := by decide +kernel
  have hf : hexUpper o = o.flatMap fun x => hexUpper [x] := by
    clear this hm h
    induction o with
    | nil => rfl
    | cons x r ih => simp only [hexUpper, List.flatMap_cons, List.flatMap_nil, List.append_nil]
  rw [hf, List.mem_flatMap] at hm
  obtain ⟨x, hx, hm⟩ := hm
  exact hd x (h x hx) 45 hm rfl

/-- C25: octets are refused with ValueError exactly if they are a SUBMIT, or a DELIVER with an impossible time stamp or
with an 8-bit concatenation or port element of the wrong size; all others that are refused are refused with IndexError. -/
theorem C25_exact (o : List Nat) (h : ∀ x ∈ o, x < 256) (strict : Bool) :
    (smsDeliver (hexUpper o) strict = .error .valueError ↔ WrongFrame o) ∧
    (smsDeliver (hexUpper o) strict = .error .indexError ↔ ¬ Frame o ∧ ¬ WrongFrame o) ∧
    ∀ e, smsDeliver (hexUpper o) strict = .error e → e = .valueError ∨ e = .indexError := by
  have hv : smsDeliver (hexUpper o) strict = .error .valueError ↔ WrongFrame o := by
    rw [Deliver.smsDeliver_eq, Deliver.setP_hex h, bind_raises, pduP_wrong o h]
    constructor
    · rintro (h | ⟨_, _, h⟩)
      · exact h
      · cases h
    · exact .inl
  have hc : ∀ e, smsDeliver (hexUpper o) strict = .error e → e = .valueError ∨ e = .indexError := by
    intro e he
    rcases C25_constructor _ _ _ he with h1 | h1 | ⟨_, h1⟩
    · exact .inl h1
    · exact .inr h1
    · exact absurd h1 (hexUpper_minus o h)
  refine ⟨hv, ?_, hc⟩
  rw [← C83_accepted o h strict, ← hv]
  cases hd : smsDeliver (hexUpper o) strict with
  | ok d => simp
  | error e => rcases hc e hd with rfl | rfl <;> simp

/-- a SUBMIT, a DELIVER of the 31st of February and one that is cut -/
example : WrongFrame [0, 1] ∧ WrongFrame [0, 4, 2, 0x81, 0x21, 0, 0, 0x11, 0x20, 0x13, 0, 0, 0, 0] ∧
    (¬ Frame [0, 4, 2] ∧ ¬ WrongFrame [0, 4, 2]) := by
  refine ⟨.none _ _ (.submit _ rfl), .none _ _ (.stamp 2 0x81 [0x21] 0 0 [0x11, 0x20, 0x13, 0, 0, 0] 0 [] (.inl rfl) rfl rfl
    (by decide +kernel)), ?_⟩
  rw [← (C25_exact [0, 4, 2] (by decide) true).2.1]
  rfl

theorem pyInt16_negative (a b : Nat) (x : Int) : (pyInt16 [a, b] = .ok x ∧ x < 0) → Negative a b := by
  rintro ⟨h, hx⟩
  unfold pyInt16 at h
  cases ha : hexVal a with
  | some v =>
    cases hb : hexVal b with
    | some y => simp only [ha, hb, Except.ok.injEq] at h; omega
    | none =>
      simp only [ha, hb] at h
      split at h
      · cases h; omega
      · cases h
  | none =>
    cases hb : hexVal b with
    | none => simp only [ha, hb] at h; cases h
    | some y =>
      simp only [ha, hb] at h
      split at h
      · cases h; omega
      · split at h
        · rename_i hs
          cases h
          exact ⟨by simpa using hs, y, by omega, (hexVal_digit b y).1 hb⟩
        · cases h

theorem negative_pyInt16 {a b : Nat} (h : Negative a b) : ∃ x, pyInt16 [a, b] = .ok x ∧ x < 0 := by
  obtain ⟨rfl, y, hy, hd⟩ := h
  refine ⟨-(y : Int), ?_, by omega⟩
  unfold pyInt16
  simp only [show hexVal 45 = none from rfl, (hexVal_digit _ _).2 hd]
  rfl

theorem signed_parse : ∀ (s : Str) (neg : Bool), s.length % 2 = 0 →
    ((∃ xs, parseHexPairs s = .ok xs ∧ xs.any (· < 0) = neg) ↔ Signed s neg)
  | [], neg, _ => by
    constructor
    · rintro ⟨xs, h, h2⟩
      cases h
      subst h2
      exact .nil
    · intro h; cases h; exact ⟨[], rfl, rfl⟩
  | [_], _, h => by simp at h
  | a :: b :: r, neg, h => by
    have hr : r.length % 2 = 0 := by simp only [List.length_cons] at h; omega
    have ih := signed_parse r
    unfold parseHexPairs
    constructor
    · rintro ⟨xs, h1, h2⟩
      obtain ⟨x, hx, h1⟩ := Deliver.ebind_ok h1
      obtain ⟨ys, hy, h1⟩ := Deliver.ebind_ok h1
      cases h1
      have hs := (ih _ hr).1 ⟨ys, hy, rfl⟩
      rw [List.any_cons] at h2
      by_cases hn : x < 0
      · simp only [hn, decide_true, Bool.true_or] at h2
        subst h2
        exact .neg a b r _ (pyInt16_negative a b x ⟨hx, hn⟩) hs
      · simp only [hn, decide_false, Bool.false_or] at h2
        subst h2
        obtain ⟨n, rfl⟩ : ∃ n : Nat, x = n := ⟨x.toNat, by omega⟩
        exact .pos a b n r _ ((pyInt16_pair a b n).1 hx) hs
    · intro h
      cases h with
      | pos _ _ n _ _ hp hs =>
        obtain ⟨ys, hy, h2⟩ := (ih _ hr).2 hs
        refine ⟨(n : Int) :: ys, ?_, ?_⟩
        · rw [(pyInt16_pair a b n).2 hp, hy]; rfl
        · rw [List.any_cons, h2]; simp
      | neg _ _ _ neg' hp hs =>
        obtain ⟨ys, hy, h2⟩ := (ih _ hr).2 hs
        obtain ⟨x, hx, hn⟩ := negative_pyInt16 hp
        refine ⟨x :: ys, ?_, ?_⟩
        · rw [hx, hy]; rfl
        · rw [List.any_cons]; simp [hn]

theorem parseHexPairs_error : ∀ (s : Str) (e : PyErr), parseHexPairs s = .error e → e = .valueError
  | [], e, h => by cases h
  | [a], e, h => by
    unfold parseHexPairs at h
    rw [show (pyInt16 [a] >>= fun x => .ok [x]) = .error e ↔ _ from bind_raises] at h
    rcases h with h | ⟨_, _, h⟩
    · unfold pyInt16 at h
      cases ha : hexVal a with
      | none => simp only [ha] at h; cases h; rfl
      | some x => simp only [ha] at h; cases h
    · cases h
  | a :: b :: r, e, h => by
    unfold parseHexPairs at h
    rw [show (pyInt16 [a, b] >>= fun x => parseHexPairs r >>= fun xs => .ok (x :: xs)) = .error e ↔ _ from bind_raises] at h
    rcases h with h | ⟨x, _, h⟩
    · unfold pyInt16 at h
      cases ha : hexVal a <;> cases hb : hexVal b <;> simp only [ha, hb] at h
      · cases h; rfl
      · split at h
        · cases h
        · split at h <;> cases h
          rfl
      · split at h <;> cases h
        rfl
      · cases h
    · rw [show (parseHexPairs r >>= fun xs => .ok (x :: xs)) = .error e ↔ _ from bind_raises] at h
      rcases h with h | ⟨_, _, h⟩
      · exact parseHexPairs_error r e h
      · cases h

/-- C25 for all strings: OverflowError is raised exactly if all pairs of characters are read as numbers and one of them is
negative; when they spell octets, the octets decide (`C25_exact`); everything else is refused with ValueError. -/
theorem C25_strings (p q : Str) (strict : Bool) (hq : q = if strict = false ∧ p.length % 2 = 1 then p.dropLast else p) :
    (smsDeliver p strict = .error .overflowError ↔ Signed q true) ∧
    (∀ o e, Spells q o → (smsDeliver p strict = .error e ↔ smsDeliver (hexUpper o) strict = .error e)) ∧
    (¬ Signed q true → (∀ o, ¬ Spells q o) → smsDeliver p strict = .error .valueError) := by
  have he : q = Deliver.trim strict p := by
    rw [hq]
    unfold Deliver.trim
    cases strict <;> simp
  have hsp : ∀ o e, Spells q o → (smsDeliver p strict = .error e ↔ smsDeliver (hexUpper o) strict = .error e) := by
    intro o e hs
    rw [hq] at hs
    have hn := (C83_octets p o strict hs).2
    unfold noPdu at hn
    cases h1 : smsDeliver p strict <;> cases h2 : smsDeliver (hexUpper o) strict <;> simp_all [Except.map]
  have hset : smsDeliver p strict = if q.length % 2 ≠ 0 then .error .valueError else (toArray q).bind fun data =>
      (Deliver.pduP data).bind fun f => .ok (f { State.fresh strict with pdu := some q }) := by
    rw [Deliver.smsDeliver_eq, he]
    rfl
  have hcase : Signed q true ∨ (∃ o, Spells q o) ∨ ((∀ o, ¬ Spells q o) ∧ ¬ Signed q true ∧
      smsDeliver p strict = .error .valueError) := by
    by_cases h1 : Signed q true
    · exact .inl h1
    by_cases h2 : ∃ o, Spells q o
    · exact .inr (.inl h2)
    refine .inr (.inr ⟨fun o ho => h2 ⟨o, ho⟩, h1, ?_⟩)
    rw [hset]
    split
    · rfl
    · rename_i hl
      have hl : q.length % 2 = 0 := by omega
      cases hp : parseHexPairs q with
      | error e =>
        have := parseHexPairs_error q e hp
        subst this
        unfold toArray
        rw [hp]
        rfl
      | ok xs =>
        exfalso
        cases ha : xs.any (· < 0) with
        | true => exact h1 ((signed_parse q true hl).1 ⟨xs, hp, ha⟩)
        | false =>
          refine h2 ⟨xs.map Int.toNat, (toArray_spells q _ hl).1 ?_⟩
          unfold toArray
          rw [hp]
          change (if _ then _ else _) = _
          rw [ha]
          rfl
  have heven : ∀ neg, Signed q neg → q.length % 2 = 0 := by
    intro neg h
    clear hset hcase hsp he hq
    induction h with
    | nil => rfl
    | pos a b n s neg _ _ ih => simp only [List.length_cons]; omega
    | neg a b s neg _ _ ih => simp only [List.length_cons]; omega
  have hover : Signed q true → smsDeliver p strict = .error .overflowError := by
    intro h
    have hl := heven _ h
    obtain ⟨xs, hp, ha⟩ := (signed_parse q true hl).2 h
    rw [hset, if_neg (by omega)]
    have : toArray q = .error .overflowError := by
      unfold toArray
      rw [hp]
      change (if _ then _ else _) = _
      rw [ha]
      rfl
    rw [this]
    rfl
  refine ⟨⟨fun h => ?_, hover⟩, hsp, fun h1 h2 => ?_⟩
  · rcases hcase with h1 | ⟨o, h1⟩ | ⟨_, _, h1⟩
    · exact h1
    · exfalso
      have h2 := (hsp o _ h1).1 h
      have hb := (C83_octets p o strict (by rw [← hq]; exact h1)).1
      rcases (C25_exact o hb strict).2.2 _ h2 with h3 | h3 <;> cases h3
    · rw [h1] at h; cases h
  · rcases hcase with h | ⟨o, h⟩ | ⟨_, _, h⟩
    · exact absurd h h1
    · exact absurd h (h2 o)
    · exact h

/-- a negative pair; a letter that is no digit -/
example : Signed (py! "00-1") true ∧ smsDeliver (py! "00-1") = .error .overflowError ∧
    smsDeliver (py! "-10g") = .error .valueError :=
  ⟨.pos _ _ 0 _ _ (.digits _ _ 0 0 (by unfold Digit; decide) (by unfold Digit; decide))
    (.neg _ _ _ _ ⟨rfl, 1, by decide, by unfold Digit; decide⟩ .nil), rfl, rfl⟩

end Verif.Props

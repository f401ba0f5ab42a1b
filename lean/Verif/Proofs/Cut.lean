import Verif.Proofs.Deliver6
import Verif.Spec.Cut
/-!
# PDUs that are cut short
-/
set_option autoImplicit false

namespace Verif.Deliver
open Verif.Spec Verif.Spec.Sms

theorem cut_cons {t t' : List Nat} (c : Nat) (h : CutText t t') : CutText (c :: t) (c :: t') := by
  rcases h with ⟨s, rfl⟩ | ⟨t0, rfl, s, rfl⟩
  · exact .inl ⟨s, rfl⟩
  · exact .inr ⟨c :: t0, rfl, s, rfl⟩

theorem map_ok {α β : Type} {x : Py α} {f : α → β} {b : β} (h : x.map f = .ok b) : ∃ a, x = .ok a ∧ f a = b := by
  cases x with
  | error e => cases h
  | ok a => injection h with h; exact ⟨a, rfl, h⟩

/-- the text of the first septets -/
theorem decode_cut : ∀ (n : Nat) (l y : Str) (a b : Str), l.length ≤ n → Gsm.decode .strict l = .ok a →
    Gsm.decode .strict (l ++ y) = .ok b → CutText a b := by
  intro n
  induction n with
  | zero =>
    intro l y a b hn ha hb
    cases l with
    | nil =>
      rw [Gsm.decode.eq_def] at ha
      cases ha
      exact .inl ⟨b, rfl⟩
    | cons x l => simp at hn
  | succ n ih =>
    intro l y a b hn ha hb
    cases l with
    | nil =>
      rw [Gsm.decode.eq_def] at ha
      cases ha
      exact .inl ⟨b, rfl⟩
    | cons x l =>
      simp only [List.length_cons] at hn
      by_cases hx : x = 27
      · subst hx
        cases l with
        | nil =>
          rw [Gsm.decode_esc_nil] at ha
          cases ha
          exact .inr ⟨[], rfl, b, rfl⟩
        | cons g l =>
          simp only [List.length_cons] at hn
          rw [Gsm.decode_esc_cons] at ha
          rw [List.cons_append, List.cons_append, Gsm.decode_esc_cons] at hb
          obtain ⟨a', ha', rfl⟩ := map_ok ha
          obtain ⟨b', hb', rfl⟩ := map_ok hb
          exact cut_cons _ (ih l y a' b' (by omega) ha' hb')
      · cases hl : Gsm.lookup Gsm.regularDecode x with
        | none =>
          rw [Gsm.decode_unk _ _ hx hl] at ha
          cases ha
        | some u =>
          rw [Gsm.decode_reg _ _ hx hl] at ha
          rw [List.cons_append, Gsm.decode_reg _ _ hx hl] at hb
          obtain ⟨a', ha', rfl⟩ := map_ok ha
          obtain ⟨b', hb', rfl⟩ := map_ok hb
          exact cut_cons _ (ih l y a' b' (by omega) ha' hb')

theorem ucs2_cut : ∀ (l y : List Nat) (a b : Str), ucs2Chars l = .ok a → ucs2Chars (l ++ y) = .ok b → a <+: b
  | [], y, a, b, ha, hb => by
    cases ha
    exact ⟨b, rfl⟩
  | [x], y, a, b, ha, hb => by cases ha
  | x :: z :: l, y, a, b, ha, hb => by
    unfold ucs2Chars at ha
    rw [List.cons_append, List.cons_append] at hb
    unfold ucs2Chars at hb
    obtain ⟨a', ha', h1⟩ := ebind_ok ha
    obtain ⟨b', hb', h2⟩ := ebind_ok hb
    cases h1
    cases h2
    obtain ⟨s, rfl⟩ := ucs2_cut l y a' b' ha' hb'
    exact ⟨s, rfl⟩

theorem unpack_cut {o y : List Nat} (ho : ∀ x ∈ o, x < 256) (hy : ∀ x ∈ y, x < 256) :
    unpackMsg2 o <+: unpackMsg2 (o ++ y) := by
  have hl : (unpackMsg2 o).length = min (8 * o.length / 7) 161 := by rw [unpackMsg2_eq ho]; simp
  have := unpack_prefix ho hy (k := min (8 * o.length / 7) 161) (by omega)
  rw [List.take_of_length_le (Nat.le_of_eq hl)] at this
  rw [← this]
  exact List.take_prefix _ _

theorem prefix_take {α : Type} {l l' : List α} (h : l <+: l') (n : Nat) : l.take n <+: l'.take n := by
  obtain ⟨s, rfl⟩ := h
  rw [List.take_append]
  exact ⟨_, rfl⟩

theorem prefix_drop {α : Type} {l l' : List α} (h : l <+: l') (n : Nat) : l.drop n <+: l'.drop n := by
  obtain ⟨s, rfl⟩ := h
  rw [List.drop_append]
  exact ⟨_, rfl⟩

/-- the text of user data cut short -/
theorem textP_cut {fmt msgl headlen udLen : Nat} {o data y : List Nat} {f g : State → State}
    (hf : fmt = 0 ∨ fmt = 4 ∨ fmt = 8) (ho : ∀ x ∈ o, x < 256) (hy : ∀ x ∈ y, x < 256)
    (h1 : textP fmt msgl headlen udLen (encodeStr (o.take msgl)) data = .ok f)
    (h2 : textP fmt msgl headlen udLen (encodeStr ((o ++ y).take msgl)) (data ++ y) = .ok g) :
    ∃ t t', (f = fun s => { s with text := some t }) ∧ (g = fun s => { s with text := some t' }) ∧ CutText t t' ∧
      (data.length < udLen → (o.length ≤ udLen ∧ headlen = headLen fmt udLen) → t = []) := by
  unfold textP at h1 h2
  rcases hf with rfl | rfl | rfl
  · rw [if_pos rfl] at h1 h2
    have ho' : ∀ x ∈ o.take msgl, x < 256 := fun x hx => ho x (List.mem_of_mem_take hx)
    have hy' : ∀ x ∈ y.take (msgl - o.length), x < 256 := fun x hx => hy x (List.mem_of_mem_take hx)
    rw [unpackMsg_eq ho'] at h1
    rw [List.take_append, unpackMsg_eq (fun x hx => (List.mem_append.1 hx).elim (ho' x) (hy' x))] at h2
    obtain ⟨t, e1, h1⟩ := ebind_ok h1
    cases e1
    obtain ⟨t', e2, h2⟩ := ebind_ok h2
    cases e2
    obtain ⟨a, ha, h1⟩ := ebind_ok h1
    obtain ⟨b, hb, h2⟩ := ebind_ok h2
    cases h1
    cases h2
    refine ⟨a, b, rfl, rfl, ?_, ?_⟩
    · have hp := prefix_drop (prefix_take (unpack_cut ho' hy') msgl) headlen
      obtain ⟨s, hs⟩ := hp
      rw [← hs] at hb
      exact decode_cut _ _ s a b le_rfl ha hb
    · rintro hu ⟨hu1, rfl⟩
      have hl : (unpackMsg2 (o.take msgl)).length = min (8 * (o.take msgl).length / 7) 161 := by
        rw [unpackMsg2_eq ho']; simp
      have hz : ((unpackMsg2 (o.take msgl)).take msgl).drop (headLen 0 udLen) = [] := by
        apply List.drop_eq_nil_of_le
        rw [List.length_take, hl, List.length_take]
        unfold headLen
        rw [if_pos rfl, roundUp7_eq]
        omega
      rw [hz, Gsm.decode.eq_def] at ha
      cases ha
      rfl
  · rw [if_neg (by decide), if_pos rfl] at h1 h2
    cases h1
    cases h2
    refine ⟨_, _, rfl, rfl, .inl (prefix_drop ⟨y, rfl⟩ _), fun hu _ => List.drop_eq_nil_of_le (by omega)⟩
  · rw [if_neg (by decide), if_neg (by decide), if_pos rfl] at h1 h2
    obtain ⟨a, ha, h1⟩ := ebind_ok h1
    obtain ⟨b, hb, h2⟩ := ebind_ok h2
    cases h1
    cases h2
    refine ⟨a, b, rfl, rfl, ?_, ?_⟩
    · rw [List.drop_append] at hb
      exact .inl (ucs2_cut _ _ a b ha hb)
    · intro hu _
      rw [List.drop_eq_nil_of_le (by omega)] at ha
      cases ha
      rfl

theorem pop0_append {l y : List Nat} {x : Nat × List Nat} (h : pop0 l = .ok x) : pop0 (l ++ y) = .ok (x.1, x.2 ++ y) := by
  rw [pop0_ok h]
  rfl

/-- user data cut short -/
theorem udP_cut {mt fmt : Nat} {data y : List Nat} {f g : State → State} (hf : fmt = 0 ∨ fmt = 4 ∨ fmt = 8)
    (hd : ∀ x ∈ data, x < 256) (hy : ∀ x ∈ y, x < 256) (h1 : udP mt fmt data = .ok f)
    (h2 : udP mt fmt (data ++ y) = .ok g) :
    ∃ (t t' : Str) (u u' : Option Udh.UserDataHeader), CutText t t' ∧ (u = u' ∨ t = []) ∧ (u.isSome ↔ u'.isSome) ∧
      (f = fun s => { s with text := some t, udh := match u with | some u => some u | none => s.udh }) ∧
      (g = fun s => { s with text := some t', udh := match u' with | some u => some u | none => s.udh }) := by
  unfold udP at h1 h2
  obtain ⟨⟨m, r⟩, e1, h1⟩ := ebind_ok h1
  rw [pop0_append e1] at h2
  have hr : ∀ x ∈ r, x < 256 := fun x hx => hd x (by rw [pop0_ok e1]; exact List.mem_cons_of_mem _ hx)
  simp only [Except.bind] at h2
  simp only at h1
  by_cases hm : mt &&& 0x40 ≠ 0
  · rw [if_pos hm] at h1 h2
    obtain ⟨⟨n, q⟩, e2, h1⟩ := ebind_ok h1
    rw [pop0_append e2] at h2
    simp only at h2
    simp only at h1
    obtain ⟨u, hu, h1⟩ := ebind_ok h1
    obtain ⟨u', hu', h2⟩ := ebind_ok h2
    obtain ⟨f', hf', h1⟩ := ebind_ok h1
    obtain ⟨g', hg', h2⟩ := ebind_ok h2
    cases h1
    cases h2
    have hrq : r = n :: q := pop0_ok e2
    obtain ⟨t, t', rfl, rfl, hc, hz⟩ := textP_cut hf hr hy hf' hg'
    refine ⟨t, t', some u, some u', hc, ?_, by simp, rfl, rfl⟩
    by_cases hq : n ≤ q.length
    · left
      rw [List.take_append_of_le_length hq, hu] at hu'
      cases hu'
      rfl
    · right
      exact hz (by omega) ⟨by rw [hrq, List.length_cons]; omega, rfl⟩
  · rw [if_neg hm] at h1 h2
    obtain ⟨t, t', rfl, rfl, hc, _⟩ := textP_cut hf hr hy h1 h2
    exact ⟨t, t', none, none, hc, .inl rfl, by simp, rfl, rfl⟩

theorem take_of_drop {l : List Nat} (y : List Nat) {k : Nat} {x : Nat × List Nat} (h : pop0 (l.drop k) = .ok x) :
    (l ++ y).take k = l.take k ∧ (l ++ y).drop k = l.drop k ++ y := by
  have hk : k ≤ l.length := by
    have := congrArg List.length (pop0_ok h)
    rw [List.length_drop, List.length_cons] at this
    omega
  exact ⟨List.take_append_of_le_length hk, List.drop_append_of_le_length hk⟩

theorem fieldsP_cut {l : List Nat} (y : List Nat) {x : Fields} {r : List Nat} (h : fieldsP l = .ok (x, r)) :
    fieldsP (l ++ y) = .ok (x, r ++ y) := by
  unfold fieldsP at h ⊢
  obtain ⟨a, ha, h⟩ := ebind_ok h
  obtain ⟨b, hb, h⟩ := ebind_ok h
  obtain ⟨s, hs, h⟩ := ebind_ok h
  obtain ⟨c, hc, h⟩ := ebind_ok h
  obtain ⟨d, hd, h⟩ := ebind_ok h
  obtain ⟨e, he, h⟩ := ebind_ok h
  obtain ⟨dt, hdt, h⟩ := ebind_ok h
  cases h
  rw [pop0_append ha]
  simp only [Except.bind]
  rw [pop0_append hb]
  simp only
  obtain ⟨t1, t2⟩ := take_of_drop y hc
  rw [t1, t2, hs]
  simp only
  rw [pop0_append hc]
  simp only
  rw [pop0_append hd]
  simp only
  obtain ⟨t3, t4⟩ := take_of_drop y he
  rw [t3, t4, pop0_append he]
  simp only
  rw [hdt]

theorem smscP_cut {l : List Nat} (y : List Nat) {c : Option Str} {r : List Nat} {m : Nat × List Nat}
    (h : smscP l = .ok (c, r)) (hm : pop0 r = .ok m) : smscP (l ++ y) = .ok (c, r ++ y) := by
  unfold smscP at h ⊢
  obtain ⟨a, ha, h⟩ := ebind_ok h
  rw [pop0_append ha]
  simp only [Except.bind]
  split at h
  · rename_i h0
    rw [if_pos h0]
    obtain ⟨b, hb, h⟩ := ebind_ok h
    rw [pop0_append hb]
    simp only
    injection h with h
    injection h with h3 h4
    subst h3 h4
    obtain ⟨t1, t2⟩ := take_of_drop y hm
    rw [t1, t2]
  · rename_i h0
    rw [if_neg h0]
    injection h with h
    injection h with h3 h4
    subst h3 h4
    rfl

theorem smscP_field {smsc : List Nat} (hs : SmscField smsc) (fo : Nat) (rest : List Nat) :
    smscP (smsc ++ fo :: rest) = .ok (cscaOf smsc, fo :: rest) := by
  cases hs with
  | none => rfl
  | some ty d =>
    simp only [smscP, List.cons_append, pop0, Except.bind, Nat.add_sub_cancel, List.take_left', List.drop_left',
      gt_iff_lt, Nat.zero_lt_succ, if_true, cscaOf, recipientP]

/-- what is left after the fields -/
theorem fieldsP_rest {n toa pid dcs : Nat} {a scts b r : List Nat} {x : Fields} (ha : a.length = (n + 1) / 2)
    (hs : scts.length = 7) (h : fieldsP (n :: toa :: (a ++ pid :: dcs :: (scts ++ b))) = .ok (x, r)) : r = b := by
  unfold fieldsP at h
  obtain ⟨a1, h1, h⟩ := ebind_ok h
  cases h1
  obtain ⟨a2, h2, h⟩ := ebind_ok h
  cases h2
  obtain ⟨s, _, h⟩ := ebind_ok h
  obtain ⟨c, hc, h⟩ := ebind_ok h
  simp only [semiLen_eq, ← ha, List.drop_left'] at hc
  cases hc
  obtain ⟨d, hd, h⟩ := ebind_ok h
  cases hd
  obtain ⟨e, he, h⟩ := ebind_ok h
  obtain ⟨dt, _, h⟩ := ebind_ok h
  injection h with h
  injection h with _ h
  subst h
  have := congrArg (List.drop 1) (pop0_ok he)
  simp only [List.drop_drop, List.drop_succ_cons, List.drop_zero] at this
  rw [← this, show 6 + 1 = scts.length by omega, List.drop_left]

theorem parseHexPairs_append : ∀ (p q : Str), p.length % 2 = 0 → parseHexPairs (p ++ q) =
    (parseHexPairs p).bind fun a => (parseHexPairs q).bind fun b => .ok (a ++ b)
  | [], q, _ => by
    show parseHexPairs q = (parseHexPairs q).bind fun b => .ok b
    cases parseHexPairs q <;> rfl
  | [_], _, h => by simp at h
  | a :: b :: p, q, h => by
    have := parseHexPairs_append p q (by simp only [List.length_cons] at h; omega)
    rw [List.cons_append, List.cons_append, parseHexPairs, parseHexPairs, this]
    show Except.bind _ _ = Except.bind (Except.bind _ _) _
    cases pyInt16 [a, b] with
    | error e => rfl
    | ok x =>
      show Except.bind (Except.bind _ _) _ = Except.bind (Except.bind _ _) _
      cases parseHexPairs p with
      | error e => rfl
      | ok xs => cases parseHexPairs q <;> rfl

theorem toArray_append {p q : Str} {o o' : List Nat} (h : p.length % 2 = 0) (h1 : toArray p = .ok o)
    (h2 : toArray (p ++ q) = .ok o') : ∃ y, toArray q = .ok y ∧ o' = o ++ y := by
  unfold toArray at h1 h2 ⊢
  rw [parseHexPairs_append p q h] at h2
  obtain ⟨a, ha, h1⟩ := ebind_ok h1
  rw [ha] at h2
  obtain ⟨c, hc, h2⟩ := ebind_ok h2
  obtain ⟨b, hb, hc⟩ := ebind_ok (x := parseHexPairs q) hc
  cases hc
  rw [hb]
  have e1 : ¬ (a.any (· < 0)) = true := by
    intro hx; rw [if_pos hx] at h1; cases h1
  rw [if_neg e1] at h1
  have e2 : ¬ ((a ++ b).any (· < 0)) = true := by
    intro hx; rw [if_pos hx] at h2; cases h2
  rw [if_neg e2] at h2
  have e3 : ¬ (b.any (· < 0)) = true := by
    intro hx; apply e2; rw [List.any_append, hx, Bool.or_true]
  cases h1
  cases h2
  refine ⟨b.map Int.toNat, ?_, by rw [List.map_append]⟩
  show (if (b.any (· < 0)) = true then _ else _) = _
  rw [if_neg e3]

end Verif.Deliver

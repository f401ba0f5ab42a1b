import Verif.Proofs.Deliver3
/-!
# The strings of a received short message are no longer than its PDU
-/
set_option autoImplicit false

namespace Verif.Deliver.Weight
open Verif Verif.Deliver

/-- the length of a string, 0 for None -/
def olen : Option Str → Nat
  | some s => s.length
  | none => 0

/-- the strings of the object -/
def total (s : State) : Nat := olen s.csca + olen s.number + olen s.text

theorem swapPairs_length : ∀ s : Str, (swapPairs s).length = s.length
  | [] => rfl
  | [_] => rfl
  | _ :: _ :: r => by simp [swapPairs, swapPairs_length r]

theorem swapNumber_le {o : List Nat} (h : ∀ x ∈ o, x < 256) : (swapNumber (encodeStr o)).length ≤ 2 * o.length := by
  unfold swapNumber
  rw [swapPairs_length, ← encodeStr_length h]
  exact List.length_filter_le _ _

theorem recipient_le {o : List Nat} (h : ∀ x ∈ o, x < 256) (ty : Nat) : (recipientP ty o).length ≤ 2 * o.length + 1 := by
  have := swapNumber_le h
  unfold recipientP
  split
  · rw [List.length_cons]; omega
  · omega

theorem unpack_le {o : List Nat} (h : ∀ x ∈ o, x < 256) : (unpackMsg2 o).length ≤ 8 * o.length / 7 := by
  rw [unpackMsg2_eq h]
  rw [Spec.digits_length]
  omega

theorem unpackMsg2_septets {o : List Nat} (h : ∀ x ∈ o, x < 256) : ∀ x ∈ unpackMsg2 o, x < 128 := by
  rw [unpackMsg2_eq h]
  exact Spec.digits_lt (by decide) _ _

theorem decode_le {l t : Str} (hl : ∀ x ∈ l, x < 128) (h : Gsm.decode .strict l = .ok t) : t.length ≤ l.length := by
  obtain ⟨t', h1, h2, _⟩ := Gsm.decode_septets .strict l.length l (Nat.le_refl _) hl
  rw [h] at h1
  injection h1 with h1
  subst h1
  exact h2

theorem sender_le {ty : Nat} {o : List Nat} (h : ∀ x ∈ o, x < 256) {s : Str} (hs : decodeSender ty o = .ok s) : s.length ≤ 2 * o.length + 1 := by
  unfold decodeSender at hs
  simp only [] at hs
  split at hs
  · have h1 := decode_le (unpackMsg2_septets h) hs
    have h2 := unpack_le h
    omega
  · injection hs with hs
    have := swapNumber_le h
    subst hs
    split
    · rw [List.length_cons]; omega
    · omega

theorem ucs2_le : ∀ (o : List Nat) (s : Str), ucs2Chars o = .ok s → s.length ≤ o.length := by
  intro o
  induction o using ucs2Chars.induct with
  | case1 => intro s h; injection h with h; subst h; simp
  | case2 => intro s h; cases h
  | case3 a b r ih =>
    intro s h
    simp only [ucs2Chars] at h
    obtain ⟨t, h1, h2⟩ := ebind_ok h
    injection h2 with h2
    subst h2
    have := ih t h1
    simp
    omega

/-- what setting the text does -/
def TextOnly (n : Nat) (f : State → State) : Prop := ∀ s, (f s).csca = s.csca ∧ (f s).number = s.number ∧ olen (f s).text ≤ max n (olen s.text)

theorem textP_le {fmt msgl hl ul : Nat} {o data : List Nat} {n : Nat} (ho : ∀ x ∈ o, x < 256) (hn : 8 * o.length / 7 ≤ n) (hd : data.length ≤ n)
    {f : State → State} (h : textP fmt msgl hl ul (encodeStr o) data = .ok f) : TextOnly n f := by
  unfold textP at h
  split at h
  · obtain ⟨t, h1, h⟩ := ebind_ok h
    obtain ⟨x, h2, h⟩ := ebind_ok h
    injection h with h
    subst h
    rw [unpackMsg_eq ho] at h1
    injection h1 with h1
    subst h1
    intro s
    have h3 := decode_le (fun x hx => unpackMsg2_septets ho x (List.mem_of_mem_take (List.mem_of_mem_drop hx))) h2
    have h4 := unpack_le ho
    rw [List.length_drop, List.length_take] at h3
    refine ⟨rfl, rfl, ?_⟩
    show x.length ≤ _
    omega
  · split at h
    · injection h with h
      subst h
      intro s
      refine ⟨rfl, rfl, ?_⟩
      show (data.drop ul).length ≤ _
      rw [List.length_drop]
      omega
    · split at h
      · obtain ⟨x, h2, h⟩ := ebind_ok h
        injection h with h
        subst h
        intro s
        have := ucs2_le _ _ h2
        rw [List.length_drop] at this
        refine ⟨rfl, rfl, ?_⟩
        show x.length ≤ _
        omega
      · injection h with h
        subst h
        intro s
        exact ⟨rfl, rfl, by show olen s.text ≤ _; omega⟩

theorem pop0_inv {l : List Nat} {x : Nat × List Nat} (h : pop0 l = .ok x) : l = x.1 :: x.2 := by
  cases l with
  | nil => cases h
  | cons a r => injection h with h; subst h; rfl

theorem udP_le {mt fmt : Nat} {data : List Nat} (ho : ∀ x ∈ data, x < 256) {f : State → State} (h : udP mt fmt data = .ok f) :
    TextOnly (8 * data.length / 7) f := by
  unfold udP at h
  obtain ⟨x, h1, h⟩ := ebind_ok h
  have e := pop0_inv h1
  have hx : ∀ y ∈ x.2, y < 256 := fun y hy => ho y (by rw [e]; exact List.mem_cons_of_mem _ hy)
  have hlen : data.length = x.2.length + 1 := by rw [e]; simp
  have ht : ∀ y ∈ x.2.take x.1, y < 256 := fun y hy => hx y (List.mem_of_mem_take hy)
  have htl : (x.2.take x.1).length ≤ x.2.length := by rw [List.length_take]; omega
  split at h
  · obtain ⟨y, h2, h⟩ := ebind_ok h
    obtain ⟨udh, _, h⟩ := ebind_ok h
    obtain ⟨g, h3, h⟩ := ebind_ok h
    injection h with h
    subst h
    have hy : x.2.length = y.2.length + 1 := by rw [pop0_inv h2]; simp
    have := textP_le (n := 8 * data.length / 7) ht (by omega) (by omega) h3
    intro s
    exact this { s with udh := some udh }
  · exact textP_le ht (by omega) (by omega) h

/-- the strings of a DELIVER -/
theorem deliverP_le {mt : Nat} {data : List Nat} (ho : ∀ x ∈ data, x < 256) {f : State → State} (h : deliverP mt data = .ok f)
    (s : State) (hs : s.text = none) : (f s).csca = s.csca ∧ olen (f s).number + olen (f s).text ≤ 2 * data.length := by
  unfold deliverP at h
  obtain ⟨x, h1, h⟩ := ebind_ok h
  obtain ⟨g, h2, h⟩ := ebind_ok h
  injection h with h
  subst h
  unfold fieldsP at h1
  obtain ⟨a, a1, h1⟩ := ebind_ok h1
  obtain ⟨b, b1, h1⟩ := ebind_ok h1
  obtain ⟨sender, s1, h1⟩ := ebind_ok h1
  obtain ⟨c, c1, h1⟩ := ebind_ok h1
  obtain ⟨d, d1, h1⟩ := ebind_ok h1
  obtain ⟨e, e1, h1⟩ := ebind_ok h1
  obtain ⟨dt, _, h1⟩ := ebind_ok h1
  injection h1 with h1
  subst h1
  have ea := pop0_inv a1
  have eb := pop0_inv b1
  have ec := pop0_inv c1
  have ed := pop0_inv d1
  have ee := pop0_inv e1
  have oa : ∀ y ∈ a.2, y < 256 := fun y hy => ho y (by rw [ea]; exact List.mem_cons_of_mem _ hy)
  have ob : ∀ y ∈ b.2, y < 256 := fun y hy => oa y (by rw [eb]; exact List.mem_cons_of_mem _ hy)
  have oc : ∀ y ∈ c.2, y < 256 := fun y hy => ob y (List.mem_of_mem_drop (by rw [ec]; exact List.mem_cons_of_mem _ hy))
  have od : ∀ y ∈ d.2, y < 256 := fun y hy => oc y (by rw [ed]; exact List.mem_cons_of_mem _ hy)
  have oe : ∀ y ∈ e.2, y < 256 := fun y hy => od y (List.mem_of_mem_drop (by rw [ee]; exact List.mem_cons_of_mem _ hy))
  have la := congrArg List.length ea
  have lb := congrArg List.length eb
  have lc := congrArg List.length ec
  have ld := congrArg List.length ed
  have le := congrArg List.length ee
  simp only [List.length_cons, List.length_drop] at la lb lc ld le
  have hsnd := sender_le (fun y hy => ob y (List.mem_of_mem_take hy)) s1
  rw [List.length_take] at hsnd
  have ht := udP_le oe h2 { s with number := some sender, pid := some c.1, dcs := some d.1, fmt := some (fmtOfDcs d.1), date := some (Cal.subMinutes dt (zoneMinutes e.1)) }
  refine ⟨ht.1, ?_⟩
  have h3 := ht.2.2
  rw [show olen ({ s with number := some sender, pid := some c.1, dcs := some d.1, fmt := some (fmtOfDcs d.1), date := some (Cal.subMinutes dt (zoneMinutes e.1)) } : State).text = 0 by
    show olen s.text = 0; rw [hs]; rfl] at h3
  have h4 : olen (g { s with number := some sender, pid := some c.1, dcs := some d.1, fmt := some (fmtOfDcs d.1), date := some (Cal.subMinutes dt (zoneMinutes e.1)) }).number = sender.length := by
    rw [ht.2.1]; rfl
  simp only [] at *
  omega

theorem fmtStamp_le (l : List Nat) : (fmtStamp l).length ≤ 17 := by
  unfold fmtStamp
  split <;> simp

theorem stamp_le (o : List Nat) : (stampP o).2.length ≤ 17 := by
  unfold stampP
  split
  · exact fmtStamp_le _
  · simp

theorem srSender_le (o : List Nat) : (srSender o).length ≤ 10 := by
  unfold srSender
  split
  · decide
  · split
    · decide
    · split
      · decide
      · split <;> decide

theorem srLast_le (d : Str) (o : List Nat) : (srLast d o).length ≤ d.length := by
  unfold srLast
  split
  · exact Nat.le_refl _
  · split
    · exact Nat.le_refl _
    · simp

/-- the strings of a status report -/
theorem reportP_le {data : List Nat} (ho : ∀ x ∈ data, x < 256) {f : State → State} (h : reportP data = .ok f) (s : State) :
    (f s).csca = s.csca ∧ olen (f s).number + olen (f s).text ≤ 2 * data.length + 41 := by
  unfold reportP at h
  obtain ⟨a, a1, h⟩ := ebind_ok h
  obtain ⟨b, b1, h⟩ := ebind_ok h
  obtain ⟨c, c1, h⟩ := ebind_ok h
  injection h with h
  subst h
  have ea := pop0_inv a1
  have eb := pop0_inv b1
  have ec := pop0_inv c1
  have oc : ∀ y ∈ c.2.take (semiLen b.1), y < 256 := fun y hy => ho y (by
    rw [ea, eb, ec]
    exact List.mem_cons_of_mem _ (List.mem_cons_of_mem _ (List.mem_cons_of_mem _ (List.mem_of_mem_take hy))))
  have la := congrArg List.length ea
  have lb := congrArg List.length eb
  have lc := congrArg List.length ec
  simp only [List.length_cons] at la lb lc
  refine ⟨rfl, ?_⟩
  simp only [olen, List.length_append, List.length_singleton]
  have h1 := recipient_le oc c.1
  have h2 := stamp_le (c.2.drop (semiLen b.1))
  have h3 := stamp_le ((c.2.drop (semiLen b.1)).drop 7)
  have h4 := srSender_le (((c.2.drop (semiLen b.1)).drop 7).drop 7)
  have h5 := srLast_le (stampP ((c.2.drop (semiLen b.1)).drop 7)).2 (((c.2.drop (semiLen b.1)).drop 7).drop 7)
  rw [List.length_take] at h1
  omega

theorem smscP_le {data : List Nat} (ho : ∀ x ∈ data, x < 256) {x : Option Str × List Nat} (h : smscP data = .ok x) :
    (∀ y ∈ x.2, y < 256) ∧ olen x.1 + 2 * x.2.length ≤ 2 * data.length := by
  unfold smscP at h
  obtain ⟨a, a1, h⟩ := ebind_ok h
  have ea := pop0_inv a1
  have oa : ∀ y ∈ a.2, y < 256 := fun y hy => ho y (by rw [ea]; exact List.mem_cons_of_mem _ hy)
  have la := congrArg List.length ea
  simp only [List.length_cons] at la
  split at h
  · obtain ⟨b, b1, h⟩ := ebind_ok h
    injection h with h
    subst h
    have eb := pop0_inv b1
    have ob : ∀ y ∈ b.2, y < 256 := fun y hy => oa y (by rw [eb]; exact List.mem_cons_of_mem _ hy)
    have lb := congrArg List.length eb
    simp only [List.length_cons] at lb
    have h1 := recipient_le (fun y hy => ob y (List.mem_of_mem_take hy) : ∀ y ∈ b.2.take (a.1 - 1), y < 256) b.1
    rw [List.length_take] at h1
    refine ⟨fun y hy => ob y (List.mem_of_mem_drop hy), ?_⟩
    simp only [olen, List.length_drop]
    omega
  · injection h with h
    subst h
    exact ⟨oa, by simp only [olen]; omega⟩

theorem pairs_length : ∀ (s : Str) (xs : List Int), s.length % 2 = 0 → parseHexPairs s = .ok xs → 2 * xs.length = s.length
  | [], xs, _, h => by injection h with h; subst h; rfl
  | [_], _, hl, _ => by simp at hl
  | a :: b :: r, xs, hl, h => by
    simp only [parseHexPairs] at h
    obtain ⟨x, _, h⟩ := ebind_ok h
    obtain ⟨ys, h1, h⟩ := ebind_ok h
    injection h with h
    subst h
    have := pairs_length r ys (by simp only [List.length_cons] at hl; omega) h1
    simp only [List.length_cons]
    omega

theorem toArray_length {s : Str} {o : List Nat} (hl : s.length % 2 = 0) (h : toArray s = .ok o) : 2 * o.length = s.length := by
  unfold toArray at h
  obtain ⟨xs, hxs, h⟩ := ebind_ok h
  split at h
  · cases h
  · injection h with h
    subst h
    rw [List.length_map]
    exact pairs_length s xs hl hxs

theorem trim_length (strict : Bool) (p : Str) : (trim strict p).length ≤ p.length := by
  unfold trim
  split
  · simp
  · exact Nat.le_refl _

/-- the strings of a received short message, and of a status report -/
theorem smsDeliver_le {pdu : Str} {strict : Bool} {d : State} (h : smsDeliver pdu strict = .ok d) :
    total d ≤ pdu.length + 41 ∧ (d.sr = none → total d ≤ pdu.length) := by
  rw [smsDeliver_eq] at h
  unfold setP at h
  split at h
  · cases h
  rename_i hl
  obtain ⟨data, h1, h⟩ := ebind_ok h
  obtain ⟨f, h2, h⟩ := ebind_ok h
  injection h with h
  have ho := toArray_lt h1
  have hlen := toArray_length (by omega) h1
  have htr := trim_length (State.fresh strict).strict pdu
  unfold pduP at h2
  obtain ⟨x, x1, h2⟩ := ebind_ok h2
  obtain ⟨m, m1, h2⟩ := ebind_ok h2
  obtain ⟨g, g1, h2⟩ := ebind_ok h2
  injection h2 with h2
  subst h2
  obtain ⟨ox, lx⟩ := smscP_le ho x1
  have em := pop0_inv m1
  have om : ∀ y ∈ m.2, y < 256 := fun y hy => ox y (by rw [em]; exact List.mem_cons_of_mem _ hy)
  have lm := congrArg List.length em
  simp only [List.length_cons] at lm
  obtain ⟨st, h, hc, ht⟩ : ∃ st : State, d = g st ∧ st.csca = x.1 ∧ st.text = none :=
    ⟨_, h.symm, rfl, rfl⟩
  subst h
  split at g1
  · obtain ⟨k1, k2⟩ := reportP_le om g1 st
    unfold total
    rw [k1, hc]
    refine ⟨by omega, fun hn => ?_⟩
    unfold reportP at g1
    obtain ⟨a, _, g1⟩ := ebind_ok g1
    obtain ⟨b, _, g1⟩ := ebind_ok g1
    obtain ⟨c, _, g1⟩ := ebind_ok g1
    injection g1 with g1
    subst g1
    cases hn
  · split at g1
    · cases g1
    · obtain ⟨k1, k2⟩ := deliverP_le om g1 st ht
      unfold total
      rw [k1, hc]
      have : olen x.1 + (olen (g st).number + olen (g st).text) ≤ pdu.length := by omega
      exact ⟨by omega, fun _ => by omega⟩

end Verif.Deliver.Weight

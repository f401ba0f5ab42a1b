import Verif.Spec.Inbox
import Verif.Props.Settings
import Verif.Props.Relay
import Mathlib.Data.List.Perm.Subperm
/-!
# C79: long messages whose parts arrive in any order, among others
-/
set_option autoImplicit false

namespace Verif.Props
open Verif Verif.Spec Verif.Spec.Sms Verif.Spec.Time Verif.Spec.Submit Verif.Submit
open Verif.Spec.Inbox
open Verif.Deliver (smsDeliver Data)

/-- the decoded messages `ds` are what the receiver gets of the PDUs: each was relayed, with any service centre, time and
flags, but the same sender address -/
def Came (ps : List Pdu) (oa : List Nat) (ds : List Data) : Prop :=
  ds.length = ps.length ∧ ∀ i (h : i < ds.length) (h' : i < ps.length), ∃ r q d, Relay.Ok r ∧ r.oa = oa ∧
    Relays r ps[i].pdu q ∧ smsDeliver q = .ok d ∧ ds[i] = Deliver.data d

/-- what is known of the parts -/
def Parts (ts : List (List Nat)) (num : List Nat) (ref : Nat) (ds : List Data) : Prop :=
  ds.length = ts.length ∧ ∀ i (h : i < ds.length) (h' : i < ts.length), ds[i].text = some ts[i] ∧
    ds[i].number = some num ∧ ds[i].concat = (if ts.length = 1 then none else some (ref, ts.length, i + 1))

theorem toPdu_ne_nil {s : State} {al : Alphabet} (hr : Ready s) (hu : Uses s al) {ps : List Pdu} {s' : State}
    (h : toPdu s = .ok ps s') : ps ≠ [] := by
  obtain ⟨ts, mr, cr, ⟨_, units', hu', h2⟩, h3, h4⟩ := C10_conformance s al hr hu ps s' h
  rintro rfl
  rcases h2 with ⟨h2, h5⟩ | ⟨h2, h5, _⟩
  · rw [h5] at h3; simp at h3
  · simp only [List.length_nil] at h3; omega

theorem came_parts {s : State} {al : Alphabet} (hr : Ready s) {ts : List (List Nat)} {mr cr : Nat} {ps : List Pdu}
    (hc : cr < 256) (hn : ts.length < 256) (hb : al = .bin → ts.length = 1) (h : AllConform s al mr cr ts ps)
    {oa : List Nat} {ds : List Data} (hd : Came ps oa ds) (h0 : ps ≠ []) : ∃ num, (∃ k toa o, oa = k :: toa :: o ∧
      Deliver.decodeSender toa o = .ok num) ∧ Parts ts num cr ds := by
  obtain ⟨h1, h2⟩ := h
  obtain ⟨d1, d2⟩ := hd
  have key : ∀ i (h : i < ds.length) (h' : i < ts.length), ∃ num, (∃ k toa o, oa = k :: toa :: o ∧
      Deliver.decodeSender toa o = .ok num) ∧ ds[i].text = some ts[i] ∧
      ds[i].number = some num ∧ ds[i].concat = (if ts.length = 1 then none else some (cr, ts.length, i + 1)) := by
    intro i hi hi'
    obtain ⟨r, q, d, r1, r2, r3, r4, r5⟩ := d2 i hi (by omega)
    obtain ⟨_, hx⟩ := Deliver.relay_conforms hr.klass (h2 i hi' (by omega)) hc hn hi' hb r1
    obtain ⟨k, toa, o, sender, st, x1, _, x2, _, _, d', a1, a2, a3, a4, _⟩ := hx q r3
    rw [r4] at a1
    cases a1
    refine ⟨sender, ⟨k, toa, o, r2.symm.trans x1, x2⟩, ?_⟩
    rw [r5]
    refine ⟨a2, a4, ?_⟩
    unfold Deliver.data
    rw [a3, Deliver.udhOf]
    by_cases hn : ts.length = 1
    · simp only [hn, if_true]
    · simp only [hn, if_false]
  have hpos : 0 < ps.length := List.length_pos_of_ne_nil h0
  obtain ⟨num, ⟨k, toa, o, e1, e2⟩, _⟩ := key 0 (by omega) (by omega)
  refine ⟨num, ⟨k, toa, o, e1, e2⟩, by omega, fun i hi hi' => ?_⟩
  obtain ⟨num', ⟨k', toa', o', e1', e2'⟩, x⟩ := key i hi hi'
  rw [e1] at e1'
  cases e1'
  rw [e2] at e2'
  cases e2'
  exact x

theorem filter_one {α : Type} {p : α → Bool} : ∀ (l : List α) (j : Nat) (hj : j < l.length),
    (∀ i (h : i < l.length), p l[i] = true ↔ i = j) → l.filter p = [l[j]]
  | x :: l, 0, _, h => by
    have h0 : p x = true := (h 0 (by simp)).2 rfl
    rw [List.filter_cons_of_pos h0]
    have : l.filter p = [] := by
      rw [List.filter_eq_nil_iff]
      intro y hy hp
      obtain ⟨i, hi, rfl⟩ := List.getElem_of_mem hy
      have := (h (i + 1) (by simp; omega)).1 (by simpa using hp)
      omega
    rw [this]
    rfl
  | x :: l, j + 1, hj, h => by
    have h0 : ¬ p x = true := fun hp => by have := (h 0 (by simp)).1 hp; omega
    rw [List.filter_cons_of_neg h0]
    have := filter_one l j (by simpa using hj) (fun i hi => by
      have := h (i + 1) (by simp; omega)
      simp only [List.getElem_cons_succ] at this
      rw [this]
      omega)
    rw [this]
    rfl

theorem parts_nodup {ts : List (List Nat)} {num : List Nat} {ref : Nat} {ds : List Data} (h : Parts ts num ref ds)
    (h1 : ts.length ≠ 1) : ds.Nodup := by
  refine List.pairwise_iff_getElem.2 fun i j hi hj hij e => ?_
  have a := (h.2 i hi (by have := h.1; omega)).2.2
  have b := (h.2 j hj (by have := h.1; omega)).2.2
  rw [e, b, if_neg h1] at a
  simp only [if_neg h1, Option.some.injEq, Prod.mk.injEq, true_and] at a
  omega

theorem parts_isPart {ts : List (List Nat)} {num : List Nat} {ref : Nat} {ds : List Data} (h : Parts ts num ref ds)
    (h1 : ts.length ≠ 1) (i j : Nat) (hi : i < ds.length) : IsPart (some num) ref ts.length (j + 1) ds[i] ↔ i = j := by
  obtain ⟨_, b, c⟩ := h.2 i hi (by have := h.1; omega)
  unfold IsPart
  rw [b, c, if_neg h1]
  simp

/-- `x` would be taken for a part of the message -/
def Confusable (num : List Nat) (ref cnt : Nat) (x : Data) : Prop := x.number = some num ∧ ∃ seq, x.concat = some (ref, cnt, seq)

theorem filter_others {num : List Nat} {ref cnt : Nat} {others : List Data} (ho : ∀ x ∈ others, ¬ Confusable num ref cnt x)
    (j : Nat) : others.filter (fun d => IsPart (some num) ref cnt j d) = [] := by
  rw [List.filter_eq_nil_iff]
  intro x hx hp
  have hp : IsPart (some num) ref cnt j x := of_decide_eq_true hp
  exact ho x hx ⟨hp.1, j, hp.2⟩

theorem part_all {ts : List (List Nat)} {num : List Nat} {ref : Nat} {ds others inbox : List Data} (h : Parts ts num ref ds)
    (h1 : ts.length ≠ 1) (ho : ∀ x ∈ others, ¬ Confusable num ref ts.length x) (hp : inbox.Perm (others ++ ds)) (j : Nat)
    (hj : j < ts.length) : part inbox (some num) ref ts.length (j + 1) = some ts[j] := by
  have hj' : j < ds.length := by have := h.1; omega
  have := hp.filter (fun d => decide (IsPart (some num) ref ts.length (j + 1) d))
  rw [List.filter_append, filter_others ho, List.nil_append, filter_one ds j hj' (fun i hi => by
    rw [decide_eq_true_iff]; exact parts_isPart h h1 i j hi)] at this
  unfold part
  rw [List.perm_singleton.1 this]
  exact (h.2 j hj' hj).1

theorem join_all {inbox : List Data} {num : List Nat} {ref cnt : Nat} {ts : List (List Nat)}
    (h : ∀ j (hj : j < ts.length), part inbox (some num) ref cnt (j + 1) = some ts[j]) :
    ∀ k, k ≤ ts.length → join inbox (some num) ref cnt k = some (ts.take k).flatten
  | 0, _ => rfl
  | k + 1, hk => by
    unfold join
    rw [join_all h k (by omega), h k (by omega), List.take_succ_eq_append_getElem (by omega), List.flatten_append]
    simp

theorem join_none {inbox : List Data} {num : Option (List Nat)} {ref cnt j : Nat}
    (h : part inbox num ref cnt (j + 1) = none) : ∀ k, j < k → join inbox num ref cnt k = none
  | k + 1, hk => by
    unfold join
    by_cases e : j = k
    · subst e
      rw [h]
      cases join inbox num ref cnt j <;> rfl
    · rw [join_none h k (by omega)]

/-- C79 in full: whatever two new message objects are used, one after the other, to send long texts from one phone, and in
whatever order the parts arrive, the first text can be put together -/
def C79_full : Prop := ∀ n1 t1 n2 t2 s1 s2 ps1 ps2 s1' s2' oa ds1 ds2 inbox,
  init n1 t1 = .ok s1 → init n2 t2 = .ok s2 → Ready s1 → Ready s2 → Uses s1 .gsm → Uses s2 .gsm →
  toPdu s1 = .ok ps1 s1' → toPdu s2 = .ok ps2 s2' → ps1.length ≠ 1 →
  Came ps1 oa ds1 → Came ps2 oa ds2 → inbox.Perm (ds1 ++ ds2) →
  ∃ num ref, assemble inbox (some num) ref ps1.length = some t1.s

/-- C79: if the inbox holds all parts of a long message, in any order and mixed with any other messages, the message is put
together again; if a part is missing, it is not.  Missing: other messages with the same sender, reference and number of
parts, with which it is false (`C79_refuted`). -/
theorem C79_partial (s : State) (al : Alphabet) (hr : Ready s) (hu : Uses s al) (ps : List Pdu) (s' : State)
    (h : toPdu s = .ok ps s') (hl : ps.length ≠ 1) : ∃ ref, ref < 256 ∧
    ∀ (oa : List Nat) (ds : List Data), Came ps oa ds → ∃ num,
      (∀ others inbox : List Data, (∀ x ∈ others, ¬ Confusable num ref ps.length x) → inbox.Perm (others ++ ds) →
        assemble inbox (some num) ref ps.length = some s.text.s) ∧
      (∀ others got inbox : List Data, (∀ x ∈ others, ¬ Confusable num ref ps.length x) → got.Sublist ds → got ≠ ds →
        inbox.Perm (others ++ got) → assemble inbox (some num) ref ps.length = none) := by
  obtain ⟨ts, mr, cr, h1, h2, h3, h4, h5⟩ := uses_conforms hr hu h
  refine ⟨cr, h2, fun oa ds hd => ?_⟩
  have hlen : ps.length = ts.length := h5.1
  have h0 : ps ≠ [] := toPdu_ne_nil hr hu h
  obtain ⟨num, _, hp⟩ := came_parts hr h2 h3 h4 h5 hd h0
  have hl' : ts.length ≠ 1 := hlen ▸ hl
  refine ⟨num, fun others inbox ho hi => ?_, fun others got inbox ho hs hne hi => ?_⟩
  · rw [hlen] at ho ⊢
    unfold assemble
    rw [join_all (part_all hp hl' ho hi) _ (Nat.le_refl _), List.take_length, h1]
  · rw [hlen] at ho ⊢
    have nd := parts_nodup hp hl'
    have : ∃ d ∈ ds, d ∉ got := by
      by_contra hc
      have hc : ds ⊆ got := fun d hd => by
        by_contra hx
        exact hc ⟨d, hd, hx⟩
      have := (List.Nodup.subperm nd hc).length_le
      exact hne (hs.eq_of_length_le this)
    obtain ⟨d, hd1, hd2⟩ := this
    obtain ⟨j, hj, rfl⟩ := List.getElem_of_mem hd1
    refine join_none (j := j) ?_ _ (by have := hp.1; omega)
    have := hi.filter (fun d => decide (IsPart (some num) cr ts.length (j + 1) d))
    rw [List.filter_append, filter_others ho, List.nil_append] at this
    have hg : got.filter (fun d => decide (IsPart (some num) cr ts.length (j + 1) d)) = [] := by
      rw [List.filter_eq_nil_iff]
      intro x hx hpx
      obtain ⟨i, hi', rfl⟩ := List.getElem_of_mem (hs.subset hx)
      have := (parts_isPart hp hl' i j hi').1 (of_decide_eq_true hpx)
      subst this
      exact hd2 hx
    rw [hg] at this
    unfold part
    rw [List.perm_nil.1 this]

/-- the PDUs can be relayed and decoded -/
theorem exists_came {s : State} {al : Alphabet} (hr : Ready s) {ts : List (List Nat)} {mr cr : Nat} {ps : List Pdu}
    (hc : cr < 256) (hn : ts.length < 256) (hb : al = .bin → ts.length = 1) (h : AllConform s al mr cr ts ps)
    {r : Relay} (hok : r.Ok) : ∃ ds, Came ps r.oa ds := by
  obtain ⟨h1, h2⟩ := h
  have key : ∀ i : Fin ps.length, ∃ x : Data, ∃ q d, Relays r ps[i.1].pdu q ∧ smsDeliver q = .ok d ∧ x = Deliver.data d := by
    intro i
    obtain ⟨⟨q, hq⟩, hx⟩ := Deliver.relay_conforms hr.klass (h2 i.1 (by have := i.2; omega) i.2) hc hn
      (by have := i.2; omega) hb hok
    obtain ⟨_, _, _, _, _, _, _, _, _, _, d, a1, _⟩ := hx q hq
    exact ⟨_, q, d, hq, a1, rfl⟩
  choose f hf using key
  refine ⟨List.ofFn f, by simp, fun i hi hi' => ?_⟩
  obtain ⟨q, d, x1, x2, x3⟩ := hf ⟨i, hi'⟩
  exact ⟨r, q, d, hok, rfl, x1, x2, by simpa using x3⟩

/-- two long messages from new objects, and what the receiver gets -/
theorem long_sample (c : Nat) (hc : c = 97 ∨ c = 98) : ∃ s0 ts mr ps s', init (some (py! "123")) ⟨true, List.replicate 161 c⟩ = .ok s0 ∧
    Ready s0 ∧ Uses s0 .gsm ∧ toPdu s0 = .ok ps s' ∧ ps.length = 2 ∧ AllConform s0 .gsm mr 1 ts ps := by
  have hi : ∃ s0, init (some (py! "123")) ⟨true, List.replicate 161 c⟩ = .ok s0 ∧ Ready s0 ∧ Uses s0 .gsm ∧
      s0.text = ⟨true, List.replicate 161 c⟩ := by
    refine ⟨_, rfl, ⟨⟨_, rfl, (validNumber_iff _).1 (by decide +kernel)⟩, trivial, ?_, ⟨?_, ?_⟩, trivial⟩,
      ⟨.inr rfl, (gsmText_iff _).1 ?_⟩, rfl⟩
    · intro k hk; cases hk
    · exact le_refl (0 : Int)
    · exact (by decide : (0 : Int) < 256)
    · rcases hc with rfl | rfl <;> decide +kernel
  obtain ⟨s0, h1, h2, h3, h4⟩ := hi
  have hun : Units .gsm s0.text.s (List.replicate 161 c) := by
    rw [h4]
    refine ((encode_iff (t := ⟨true, List.replicate 161 c⟩)).1 ?_).1
    rcases hc with rfl | rfl <;> decide +kernel
  obtain ⟨ps, s', h5⟩ := C10_succeeds s0 .gsm h2 h3 _ hun (by rw [List.length_replicate]; decide)
  obtain ⟨ts, mr, h6⟩ := C35_same _ _ _ h1 .gsm h2 h3 ps s' h5
  refine ⟨s0, ts, mr, ps, s', h1, h2, h3, h5, ?_, h6⟩
  have := ((C09_count s0 .gsm h2 h3 ps s' h5 _ hun).2.2 (by rw [List.length_replicate]; decide)).2.2 (by
    intro hm
    have := List.eq_of_mem_replicate hm
    omega)
  rw [this, List.length_replicate]
  rfl

/-- C79 is false of the code: two long texts sent through two objects have the same reference, so their parts cannot be
told apart. -/
theorem C79_refuted : ¬ C79_full := by
  intro hf
  obtain ⟨s1, ts1, mr1, ps1, s1', a1, a2, a3, a4, a5, a6⟩ := long_sample 97 (.inl rfl)
  obtain ⟨s2, ts2, mr2, ps2, s2', b1, b2, b3, b4, b5, b6⟩ := long_sample 98 (.inr rfl)
  have l1 : ts1.length = 2 := a6.1.symm.trans a5
  have l2 : ts2.length = 2 := b6.1.symm.trans b5
  obtain ⟨ds1, c1⟩ := exists_came a2 (by decide) (by omega) (by intro h; cases h) a6 sampleRelay_ok
  obtain ⟨ds2, c2⟩ := exists_came b2 (by decide) (by omega) (by intro h; cases h) b6 sampleRelay_ok
  obtain ⟨n1, ⟨k1, toa1, o1, e1, f1⟩, p1⟩ := came_parts a2 (by decide) (by omega) (by intro h; cases h) a6 c1
    (by intro h; rw [h] at a5; simp at a5)
  obtain ⟨n2, ⟨k2, toa2, o2, e2, f2⟩, p2⟩ := came_parts b2 (by decide) (by omega) (by intro h; cases h) b6 c2
    (by intro h; rw [h] at b5; simp at b5)
  rw [e1] at e2
  cases e2
  rw [f1] at f2
  cases f2
  obtain ⟨num, ref, hx⟩ := hf _ _ _ _ _ _ _ _ _ _ _ _ _ _ a1 b1 a2 b2 a3 b3 a4 b4 (by omega) c1 c2 (List.Perm.refl _)
  have hd : ∀ x ∈ ds1 ++ ds2, x.number = some n1 ∧ (x.concat = some (1, 2, 1) ∨ x.concat = some (1, 2, 2)) := by
    intro x hx
    rcases List.mem_append.1 hx with hx | hx
    · obtain ⟨i, hi, rfl⟩ := List.getElem_of_mem hx
      have hi2 : i < ts1.length := by have := p1.1; omega
      obtain ⟨_, q1, q2⟩ := p1.2 i hi hi2
      refine ⟨q1, ?_⟩
      rw [q2, l1]
      have : i = 0 ∨ i = 1 := by omega
      rcases this with rfl | rfl <;> simp
    · obtain ⟨i, hi, rfl⟩ := List.getElem_of_mem hx
      have hi2 : i < ts2.length := by have := p2.1; omega
      obtain ⟨_, q1, q2⟩ := p2.2 i hi hi2
      refine ⟨q1, ?_⟩
      rw [q2, l2]
      have : i = 0 ∨ i = 1 := by omega
      rcases this with rfl | rfl <;> simp
  have hnone : part (ds1 ++ ds2) (some num) ref 2 1 = none := by
    have hlen : ((ds1 ++ ds2).filter (fun d => decide (IsPart (some num) ref 2 1 d))).length ≠ 1 := by
      by_cases hk : num = n1 ∧ ref = 1
      · obtain ⟨rfl, rfl⟩ := hk
        have g1 := filter_one (p := fun d => decide (IsPart (some num) 1 2 1 d)) ds1 0 (by have := p1.1; omega) (fun i hi => by
          rw [decide_eq_true_iff]; exact l1 ▸ parts_isPart p1 (by omega) i 0 hi)
        have g2 := filter_one (p := fun d => decide (IsPart (some num) 1 2 1 d)) ds2 0 (by have := p2.1; omega) (fun i hi => by
          rw [decide_eq_true_iff]; exact l2 ▸ parts_isPart p2 (by omega) i 0 hi)
        rw [List.filter_append, g1, g2]
        simp
      · have : (ds1 ++ ds2).filter (fun d => decide (IsPart (some num) ref 2 1 d)) = [] := by
          rw [List.filter_eq_nil_iff]
          intro x hx hp
          obtain ⟨q1, q2⟩ := of_decide_eq_true hp
          obtain ⟨r1, r2⟩ := hd x hx
          rw [q1] at r1
          rw [q2] at r2
          simp only [Option.some.injEq, Prod.mk.injEq] at r1 r2
          exact hk ⟨r1, by omega⟩
        rw [this]
        simp
    unfold part
    split
    · next h => rw [h] at hlen; simp at hlen
    · rfl
  rw [a5] at hx
  unfold assemble at hx
  rw [join_none hnone 2 (by omega)] at hx
  cases hx

/-- a long message meets the hypotheses of `C79_partial`, and its parts reach the receiver -/
example : ∃ s ps s', Ready s ∧ Uses s .gsm ∧ toPdu s = .ok ps s' ∧ ps.length ≠ 1 ∧ ∃ ds, Came ps sampleRelay.oa ds := by
  obtain ⟨s1, ts1, mr1, ps1, s1', a1, a2, a3, a4, a5, a6⟩ := long_sample 97 (.inl rfl)
  have l1 : ts1.length = 2 := a6.1.symm.trans a5
  exact ⟨s1, ps1, s1', a2, a3, a4, by omega, exists_came a2 (by decide) (by omega) (by intro h; cases h) a6 sampleRelay_ok⟩

end Verif.Props

import Verif.Model.Dicts
import Verif.Spec.Dicts
import Verif.Proofs.Mms2
import Verif.Proofs.MmsEnc2
/-!
# Lemmas on dictionaries as objects
-/
set_option autoImplicit false

namespace Verif.Mms
open Verif Verif.Spec.Dicts

/-- the dictionaries of parameters that header values refer to -/
def refs (l : Dict RVal) : List Nat := l.filterMap fun e => match e.2 with | .ct _ d => some d | _ => none

theorem refs_cons (n : Str) (x : RVal) (l : Dict RVal) :
    refs ((n, x) :: l) = (match x with | .ct _ d => [d] | _ => []) ++ refs l := by
  unfold refs
  cases x <;> rfl

theorem mem_refs {l : Dict RVal} {d : Nat} : d ∈ refs l ↔ ∃ n c, (n, RVal.ct c d) ∈ l := by
  unfold refs
  rw [List.mem_filterMap]
  constructor
  · rintro ⟨⟨n, x⟩, hm, h⟩
    cases x with
    | ct c d' => injection h with h; subst h; exact ⟨n, c, hm⟩
    | _ => cases h
  · rintro ⟨n, c, hm⟩
    exact ⟨_, hm, rfl⟩

theorem refs_get {l : Dict RVal} {n c : Str} {d : Nat} (h : l.get n = some (.ct c d)) : d ∈ refs l :=
  mem_refs.2 ⟨n, c, Dict.mem_of_get h⟩

theorem dict_get_map (s : Store) (l : Dict RVal) (n : Str) : (s.dict l).get n = (l.get n).map s.val := by
  induction l with
  | nil => rfl
  | cons e l ih =>
    simp only [Store.dict, List.map_cons, Dict.get] at ih ⊢
    split
    · rfl
    · exact ih

theorem dict_set_map (s : Store) (l : Dict RVal) (n : Str) (x : RVal) : s.dict (l.set n x) = (s.dict l).set n (s.val x) := by
  induction l with
  | nil => rfl
  | cons e l ih =>
    simp only [Store.dict, List.map_cons, Dict.set] at ih ⊢
    split
    · rfl
    · simp only [List.map_cons, ih]

theorem dict_del_map (s : Store) (l : Dict RVal) (n : Str) : s.dict (l.del n) = (s.dict l).del n := by
  induction l with
  | nil => rfl
  | cons e l ih =>
    simp only [Store.dict, List.map_cons, Dict.del] at ih ⊢
    split
    · rfl
    · simp only [List.map_cons, ih]

theorem dict_congr {s s' : Store} {l : Dict RVal} (h : ∀ d ∈ refs l, s'.params d = s.params d) : s'.dict l = s.dict l := by
  unfold Store.dict
  apply List.map_congr_left
  rintro ⟨n, x⟩ hm
  cases x with
  | ct c d => simp only [Store.val, h d (mem_refs.2 ⟨n, c, hm⟩)]
  | _ => rfl

theorem dict_setParams {s : Store} {l : Dict RVal} (hn : (refs l).Nodup) {n c : Str} {d : Nat}
    (h : l.get n = some (.ct c d)) (x : Dict Val) : (s.setParams d x).dict l = (s.dict l).set n (.ct c x) := by
  induction l with
  | nil => cases h
  | cons e l ih =>
    obtain ⟨k, y⟩ := e
    rw [refs_cons, List.nodup_append] at hn
    simp only [Dict.get] at h
    split at h
    · next hk =>
      subst hk
      injection h with h
      subst h
      have hd : d ∉ refs l := fun hm => hn.2.2 d (by simp) d hm rfl
      have := dict_congr (s := s) (s' := s.setParams d x) (l := l) (fun d' hd' => by
        simp only [Store.setParams]
        rw [if_neg (fun e : d' = d => hd (e ▸ hd'))])
      simp only [Store.dict, List.map_cons, Dict.set] at this ⊢
      rw [this]
      simp [Store.val, Store.setParams]
    · next hk =>
      have hd := refs_get h
      have := ih hn.2.1 h
      simp only [Store.dict, List.map_cons, Dict.set] at this ⊢
      rw [if_neg hk, this]
      congr 2
      cases y with
      | ct c' d' =>
        have : d' ≠ d := hn.2.2 d' (by simp) d hd
        simp [Store.val, Store.setParams, this]
      | _ => rfl

theorem refs_set {l : Dict RVal} {n : Str} {x : RVal} {d : Nat} (h : d ∈ refs (l.set n x)) : d ∈ refs l ∨ ∃ c, x = .ct c d := by
  induction l with
  | nil =>
    simp only [Dict.set] at h
    rw [refs_cons] at h
    cases x <;> simp_all [refs]
  | cons e l ih =>
    obtain ⟨k, y⟩ := e
    simp only [Dict.set] at h
    split at h
    · rw [refs_cons] at h
      rcases List.mem_append.1 h with h | h
      · right
        cases x <;> simp_all
      · left
        rw [refs_cons]
        exact List.mem_append_right _ h
    · rw [refs_cons] at h ⊢
      rcases List.mem_append.1 h with h | h
      · exact .inl (List.mem_append_left _ h)
      · rcases ih h with h | h
        · exact .inl (List.mem_append_right _ h)
        · exact .inr h

theorem refs_set_nodup {l : Dict RVal} (hn : (refs l).Nodup) (n : Str) {x : RVal} (hx : ∀ c d, x = .ct c d → d ∉ refs l) :
    (refs (l.set n x)).Nodup := by
  induction l with
  | nil =>
    simp only [Dict.set]
    rw [refs_cons]
    cases x <;> simp [refs]
  | cons e l ih =>
    obtain ⟨k, y⟩ := e
    rw [refs_cons] at hn
    have hn' := List.nodup_append.1 hn
    have hx' : ∀ c d, x = .ct c d → d ∉ refs l := fun c d h hm => hx c d h (by rw [refs_cons]; exact List.mem_append_right _ hm)
    simp only [Dict.set]
    split
    · rw [refs_cons]
      cases x with
      | ct c d => simpa [hn'.2.1] using hx' c d rfl
      | _ => simpa using hn'.2.1
    · rw [refs_cons]
      refine List.nodup_append.2 ⟨hn'.1, ih hn'.2.1 hx', ?_⟩
      intro a ha b hb hab
      subst hab
      rcases refs_set hb with hb | ⟨c, hc⟩
      · exact hn'.2.2 a ha a hb rfl
      · exact hx c a hc (by rw [refs_cons]; exact List.mem_append_left _ ha)

theorem refs_set_gone {l : Dict RVal} (hn : (refs l).Nodup) {n c : Str} {d : Nat} (h : l.get n = some (.ct c d)) {x : RVal}
    (hx : ∀ c', x ≠ .ct c' d) : d ∉ refs (l.set n x) := by
  induction l with
  | nil => cases h
  | cons e l ih =>
    obtain ⟨k, y⟩ := e
    rw [refs_cons] at hn
    have hn' := List.nodup_append.1 hn
    simp only [Dict.get] at h
    simp only [Dict.set]
    split at h
    · next hk =>
      injection h with h
      subst h
      rw [if_pos hk, refs_cons]
      have hd : d ∉ refs l := fun hm => hn'.2.2 d (by simp) d hm rfl
      cases x with
      | ct c' d' =>
        have : d ≠ d' := fun e => hx c' (e ▸ rfl)
        simp [this, hd]
      | _ => simpa using hd
    · next hk =>
      rw [if_neg hk, refs_cons]
      have hd := refs_get h
      intro hm
      rcases List.mem_append.1 hm with hm | hm
      · exact hn'.2.2 d hm d hd rfl
      · exact ih hn'.2.1 h hm

theorem refs_sublist {l l' : Dict RVal} (h : l'.Sublist l) : (refs l').Sublist (refs l) := h.filterMap _

theorem refs_del_gone {l : Dict RVal} (hn : (refs l).Nodup) {n c : Str} {d : Nat} (h : l.get n = some (.ct c d)) :
    d ∉ refs (l.del n) := by
  induction l with
  | nil => cases h
  | cons e l ih =>
    obtain ⟨k, y⟩ := e
    rw [refs_cons] at hn
    have hn' := List.nodup_append.1 hn
    simp only [Dict.get] at h
    simp only [Dict.del]
    split at h
    · next hk =>
      injection h with h
      subst h
      rw [if_pos hk]
      exact fun hm => hn'.2.2 d (by simp) d hm rfl
    · next hk =>
      rw [if_neg hk, refs_cons]
      have hd := refs_get h
      intro hm
      rcases List.mem_append.1 hm with hm | hm
      · exact hn'.2.2 d hm d hd rfl
      · exact ih hn'.2.1 h hm

/-- what making header values does to the store -/
structure Grown (s s' : Store) (l : Dict RVal) (h : Dict HVal) : Prop where
  np : s.nParams ≤ s'.nParams
  old : ∀ d < s.nParams, s'.params d = s.params d
  view : s'.dict l = h
  fresh : ∀ d ∈ refs l, s.nParams ≤ d ∧ d < s'.nParams
  nodup : (refs l).Nodup
  same : s'.headers = s.headers ∧ s'.parts = s.parts ∧ s'.msgs = s.msgs ∧ s'.nHeaders = s.nHeaders ∧ s'.nParts = s.nParts ∧
    s'.nMsgs = s.nMsgs

theorem addParams_old (s : Store) (x : Dict Val) : ∀ d < s.nParams, (s.addParams x).params d = s.params d := by
  intro d hd
  simp only [Store.addParams, Store.setParams]
  rw [if_neg (by omega)]

theorem addParams_new (s : Store) (x : Dict Val) : (s.addParams x).params s.nParams = x := by
  simp [Store.addParams, Store.setParams]

theorem newVals_grown (h : Dict HVal) : ∀ s : Store, Grown s (s.newVals h).2 (s.newVals h).1 h := by
  induction h with
  | nil => intro s; exact ⟨Nat.le_refl _, fun _ _ => rfl, rfl, fun d hd => by simp [Store.newVals, refs] at hd, by simp [Store.newVals, refs], rfl, rfl, rfl, rfl, rfl, rfl⟩
  | cons e h ih =>
    intro s
    obtain ⟨n, x⟩ := e
    have h1 : ∀ y : HVal, (∀ c ps, y ≠ .ct c ps) → (s.newVal y).2 = s ∧ (∀ d, ∀ c, (s.newVal y).1 ≠ .ct c d) ∧ ∀ s' : Store, s'.val (s.newVal y).1 = y := by
      intro y hy
      cases y with
      | ct c ps => exact absurd rfl (hy c ps)
      | v a => exact ⟨rfl, fun d c h => (by cases h), fun _ => rfl⟩
      | tup a b => exact ⟨rfl, fun d c h => (by cases h), fun _ => rfl⟩
    by_cases hx : ∃ c ps, x = .ct c ps
    · obtain ⟨c, ps, rfl⟩ := hx
      have g := ih (s.addParams ps)
      have hv : s.newVals ((n, .ct c ps) :: h) = ((n, .ct c s.nParams) :: ((s.addParams ps).newVals h).1, ((s.addParams ps).newVals h).2) := rfl
      have hnp : (s.addParams ps).nParams = s.nParams + 1 := rfl
      have gn := g.np
      rw [hnp] at gn
      rw [hv]
      dsimp only
      refine ⟨by omega, fun d hd => ?_, ?_, ?_, ?_, g.same⟩
      · show ((s.addParams ps).newVals h).2.params d = _
        rw [g.old d (by omega), addParams_old _ _ _ hd]
      · show (n, _) :: Store.dict _ _ = _
        rw [g.view]
        simp only [Store.val]
        rw [g.old s.nParams (by omega), addParams_new]
      · intro d hd
        rw [refs_cons] at hd
        simp only [List.singleton_append, List.mem_cons] at hd
        rcases hd with rfl | hd
        · exact ⟨Nat.le_refl _, by omega⟩
        · have := g.fresh d hd
          rw [hnp] at this
          omega
      · show (refs ((n, .ct c s.nParams) :: ((s.addParams ps).newVals h).1)).Nodup
        rw [refs_cons]
        simp only [List.singleton_append, List.nodup_cons]
        refine ⟨fun hm => ?_, g.nodup⟩
        have := g.fresh _ hm
        rw [hnp] at this
        omega
    · obtain ⟨e1, e2, e3⟩ := h1 x (fun c ps h => hx ⟨c, ps, h⟩)
      have g := ih s
      have hv : s.newVals ((n, x) :: h) = ((n, (s.newVal x).1) :: (s.newVals h).1, (s.newVals h).2) := by
        simp only [Store.newVals, e1]
      have hr : refs ((n, (s.newVal x).1) :: (s.newVals h).1) = refs (s.newVals h).1 := by
        rw [refs_cons]
        cases hq : (s.newVal x).1 with
        | ct c d => exact absurd hq (e2 d c)
        | _ => rfl
      rw [hv]
      refine ⟨g.np, g.old, ?_, ?_, ?_, g.same⟩
      · show (n, _) :: Store.dict _ _ = _
        rw [g.view, e3]
      · intro d hd
        rw [hr] at hd
        exact g.fresh d hd
      · show (refs _).Nodup
        rw [hr]
        exact g.nodup

end Verif.Mms

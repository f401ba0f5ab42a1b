import Verif.Model.Iter
import Verif.Spec.Cursor
/-!
# Lemmas on `PreviewIterator`
-/
set_option autoImplicit false

namespace Verif.Mms
open Verif.Spec.Cursor (Op Out)

/-- observation of a result -/
def outOf {σ : Type} : Res σ Nat → Out × σ
  | .ok x s => (.item x, s)
  | .err .stopIteration s => (.stop, s)
  | .err _ s => (.fail, s)

/-- a call on the class as written; the results that can be observed are items, StopIteration or nothing -/
def PIter.call (s : PIter) : Op → Out × PIter
  | .next => outOf (PIter.next s)
  | .preview => outOf (PIter.preview s)
  | .reset => match PIter.resetPreview s with
    | .ok _ s' => (.unit, s')
    | .err _ s' => (.fail, s')

/-- a sequence of calls on the class as written -/
def PIter.calls (s : PIter) : List Op → List Out
  | [] => []
  | op :: ops => (s.call op).1 :: PIter.calls (s.call op).2 ops

/-- a call on the observable state -/
def It.call (s : It) : Op → Out × It
  | .next => outOf (Mms.next s)
  | .preview => outOf (Mms.preview s)
  | .reset => match Mms.resetPreview s with
    | .ok _ s' => (.unit, s')
    | .err _ s' => (.fail, s')

/-- a sequence of calls on the observable state -/
def It.calls (s : It) : List Op → List Out
  | [] => []
  | op :: ops => (s.call op).1 :: It.calls (s.call op).2 ops

/-- the class invariant and the abstraction -/
structure PIter.Sim (s : PIter) (t : It) : Prop where
  rem : s.cached ++ s.src = t.rem
  k : s.pos = t.k
  le : s.pos ≤ s.cached.length

theorem sim_call {s : PIter} {t : It} (h : s.Sim t) (op : Op) :
    (s.call op).1 = (t.call op).1 ∧ (s.call op).2.Sim (t.call op).2 := by
  obtain ⟨src, cached, pos⟩ := s
  obtain ⟨rem, k⟩ := t
  obtain ⟨hr, hk, hl⟩ := h
  simp only at hr hk hl
  subst hr hk
  cases op with
  | next =>
    cases cached with
    | cons x xs =>
      refine ⟨rfl, ?_, ?_, ?_⟩ <;> simp [PIter.call, It.call, PIter.next, PIter.resetPreview, M.bind_apply, outOf, next]
    | nil =>
      cases src with
      | cons x xs =>
        refine ⟨rfl, ?_, ?_, ?_⟩ <;> simp [PIter.call, It.call, PIter.next, PIter.resetPreview, M.bind_apply, outOf, next]
      | nil =>
        refine ⟨rfl, ?_, ?_, ?_⟩ <;> simp [PIter.call, It.call, PIter.next, PIter.resetPreview, M.bind_apply, outOf, next]
  | reset =>
    refine ⟨rfl, ?_, ?_, ?_⟩ <;> simp [PIter.call, It.call, PIter.resetPreview, resetPreview]
  | preview =>
    by_cases hlt : pos < cached.length
    · have e1 : cached[pos]? = some cached[pos] := List.getElem?_eq_getElem hlt
      have e2 : (cached ++ src)[pos]? = some cached[pos] := by rw [List.getElem?_append_left hlt, e1]
      refine ⟨?_, ?_, ?_, ?_⟩ <;>
        simp [PIter.call, It.call, PIter.preview, preview, M.bind_apply, outOf, e1, e2]
      omega
    · have hp : pos = cached.length := by omega
      have e1 : cached[pos]? = none := by rw [hp]; simp
      cases src with
      | nil =>
        have e2 : (cached ++ [])[pos]? = none := by rw [List.append_nil]; exact e1
        rw [List.append_nil] at e2
        refine ⟨?_, ?_, ?_, ?_⟩ <;>
          simp [PIter.call, It.call, PIter.preview, preview, M.bind_apply, outOf, e1]
        exact hl
      | cons x xs =>
        have e2 : (cached ++ x :: xs)[pos]? = some x := by rw [hp]; simp
        refine ⟨?_, ?_, ?_, ?_⟩ <;>
          simp [PIter.call, It.call, PIter.preview, preview, M.bind_apply, outOf, e1, e2]
        omega

theorem sim_calls {s : PIter} {t : It} (h : s.Sim t) (ops : List Op) : s.calls ops = t.calls ops := by
  induction ops generalizing s t with
  | nil => rfl
  | cons op ops ih =>
    have := sim_call h op
    simp only [PIter.calls, It.calls]
    rw [this.1, ih this.2]

theorem sim_new (data : List Nat) : (PIter.new data).Sim (It.new data) := ⟨by simp [PIter.new, It.new], rfl, by simp [PIter.new]⟩

theorem it_cursor_call (data : List Nat) (i k : Nat) (op : Op) :
    It.call ⟨data.drop i, k⟩ op =
      let r := Verif.Spec.Cursor.step data i k op
      (r.1, ⟨data.drop r.2.1, r.2.2⟩) := by
  cases op with
  | next =>
    simp only [It.call, next, Verif.Spec.Cursor.step]
    by_cases h : i < data.length
    · rw [List.drop_eq_getElem_cons h, List.getElem?_eq_getElem h]; rfl
    · rw [List.drop_eq_nil_of_le (by omega), List.getElem?_eq_none (by omega)]
      simp [outOf]; omega
  | preview =>
    simp only [It.call, preview, Verif.Spec.Cursor.step, List.getElem?_drop]
    cases data[i + k]? <;> rfl
  | reset => rfl

theorem it_cursor (data : List Nat) (i k : Nat) (ops : List Op) :
    It.calls ⟨data.drop i, k⟩ ops = Verif.Spec.Cursor.run data i k ops := by
  induction ops generalizing i k with
  | nil => rfl
  | cons op ops ih =>
    simp only [It.calls, Verif.Spec.Cursor.run]
    rw [it_cursor_call]
    simp only
    rw [ih]

theorem cursor_consumed (data : List Nat) (i k : Nat) (ops : List Op) :
    Verif.Spec.Cursor.consumed ops (Verif.Spec.Cursor.run data i k ops) =
      (data.drop i).take (ops.count .next) := by
  induction ops generalizing i k with
  | nil => rfl
  | cons op ops ih =>
    cases op with
    | next =>
      simp only [Verif.Spec.Cursor.run, Verif.Spec.Cursor.step]
      by_cases h : i < data.length
      · simp only [List.getElem?_eq_getElem h, Verif.Spec.Cursor.consumed, ih, List.count_cons_self]
        rw [List.drop_eq_getElem_cons h, List.take_succ_cons]
      · simp only [List.getElem?_eq_none (by omega : data.length ≤ i), Verif.Spec.Cursor.consumed, ih,
          List.count_cons_self]
        rw [List.drop_eq_nil_of_le (by omega)]; simp
    | preview =>
      simp only [Verif.Spec.Cursor.run, Verif.Spec.Cursor.step]
      have hc : List.count Op.next (Op.preview :: ops) = List.count Op.next ops := by
        rw [List.count_cons_of_ne (by decide)]
      rw [hc]
      cases data[i + k]? <;> simp only [Verif.Spec.Cursor.consumed, ih]
    | reset =>
      simp only [Verif.Spec.Cursor.run, Verif.Spec.Cursor.step]
      have hc : List.count Op.next (Op.reset :: ops) = List.count Op.next ops := by
        rw [List.count_cons_of_ne (by decide)]
      rw [hc]
      simp only [Verif.Spec.Cursor.consumed, ih]

end Verif.Mms

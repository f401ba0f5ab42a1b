import Verif.Proofs.Dicts3
import Verif.Model.DictSteps
/-!
# What the deeds on a part or message do
-/
set_option autoImplicit false

namespace Verif.Mms
open Verif Verif.Spec.Dicts

/-- what `Linked` says of the dictionary of headers `l` and of `content_type_parameters` -/
def LinkedTo (l : Dict RVal) (d : Nat) (b : Bool) : Prop :=
  if b then ∃ c, l.get (py! "Content-Type") = some (.ct c d) else d ∉ refs l

theorem part_item {s s1 : Store} {w : World} {r : Nat} {l : Dict RVal} {b : Bool} (hh : Holds s w) (hr : r < s.nParts) (he : Ext s s1)
    (hl : ∀ d ∈ refs l, d ∈ hRefs s (.part r) ∨ (s.nParams ≤ d ∧ d < s1.nParams)) (hn : (refs l).Nodup)
    (hk : LinkedTo l (s.parts r).ctParams b) :
    Holds (s1.setHeaders (s.parts r).headers l) { w with parts := w.parts.set r ⟨{ s.part r with headers := s1.dict l }, b⟩ } := by
  obtain ⟨h1, h2⟩ := local_item (o := .part r) hh.sep hr he hl hn
  obtain ⟨e1, e2, e3, e4, e5, e6, e7, e8⟩ := he
  simp only [hdrOf] at h1 h2
  have hp : (s1.setHeaders (s.parts r).headers l).parts r = s.parts r := by show s1.parts r = _; rw [e4]
  refine hh.setPart h1 e7 e8 ?_ ?_
  · unfold Store.part
    rw [hp, h2]
    show ({ ctParams := s1.params (s.parts r).ctParams, .. } : DataPart) = _
    rw [e2 _ (hh.sep.ownLt (.part r) hr _ (by simp [own]))]
    rfl
  · unfold Linked
    rw [hp, h2]
    exact hk

theorem msg_item {s s1 : Store} {w : World} {m : Nat} {l : Dict RVal} (hh : Holds s w) (hr : m < s.nMsgs) (he : Ext s s1)
    (hl : ∀ d ∈ refs l, d ∈ hRefs s (.msg m) ∨ (s.nParams ≤ d ∧ d < s1.nParams)) (hn : (refs l).Nodup) :
    Holds (s1.setHeaders (s.msgs m) l) { w with msgs := w.msgs.set m (s1.dict l) } := by
  obtain ⟨h1, h2⟩ := local_item (o := .msg m) hh.sep hr he hl hn
  obtain ⟨e1, e2, e3, e4, e5, e6, e7, e8⟩ := he
  simp only [hdrOf] at h1 h2
  have hp : (s1.setHeaders (s.msgs m) l).msgs m = s.msgs m := by show s1.msgs m = _; rw [e5]
  refine hh.setMsg h1 e7 e8 ?_
  unfold Store.msg
  rw [hp, h2]
  rfl

theorem part_fresh {s s1 : Store} {w : World} {r : Nat} {l : Dict RVal} {h : Dict HVal} (hh : Holds s w) (hr : r < s.nParts)
    (he : Ext s s1) (hl : ∀ d ∈ refs l, s.nParams ≤ d ∧ d < s1.nParams) (hn : (refs l).Nodup) (hv : s1.dict l = h)
    (f data : Option Str) :
    Holds ((s1.addHeaders l).setPart r { s.parts r with headers := s.nHeaders, filename := f, data := data })
      { w with parts := w.parts.set r ⟨{ s.part r with headers := h, filename := f, data := data }, false⟩ } := by
  have hct : (s.parts r).ctParams < s.nParams := hh.sep.ownLt (.part r) hr _ (by simp [own])
  obtain ⟨h1, h2, h3, h4, h5⟩ := local_part (x := { s.parts r with headers := s.nHeaders, filename := f, data := data })
    he (Nat.le_of_lt hr) (.inl ⟨rfl, hr⟩) rfl (.inl ⟨hr, hr, rfl, hct⟩) hl hn
  refine hh.setPart h1 he.same.2.2.2.2.1 h2 ?_ ?_
  · unfold Store.part
    rw [h3, h4, h5]
    simp only
    rw [he.old _ hct]
    rw [dict_congr (s := s1) (fun d _ => by rw [h5]), hv]
  · unfold Linked
    rw [h3, h4]
    exact fun hm => absurd (hl _ hm).1 (Nat.not_le.2 hct)

theorem LinkedTo.set {l : Dict RVal} {d : Nat} {b : Bool} (hn : (refs l).Nodup) (h : LinkedTo l d b) (n : Str) {x : RVal}
    (hx : ∀ c, x ≠ .ct c d) : LinkedTo (l.set n x) d (b && n != py! "Content-Type") := by
  unfold LinkedTo at h ⊢
  cases b with
  | false =>
    simp only [Bool.false_eq_true, if_false, Bool.false_and] at h ⊢
    intro hm
    rcases refs_set hm with hm | ⟨c, hc⟩
    · exact h hm
    · exact hx c hc
  | true =>
    simp only [if_true, Bool.true_and] at h ⊢
    obtain ⟨c, hc⟩ := h
    by_cases he : n = py! "Content-Type"
    · subst he
      simpa using refs_set_gone hn hc hx
    · have : (n != py! "Content-Type") = true := by simpa using he
      rw [this, if_pos rfl, dict_get_set, if_neg he]
      exact ⟨c, hc⟩

theorem LinkedTo.del {l : Dict RVal} {d : Nat} {b : Bool} (hn : (refs l).Nodup) (h : LinkedTo l d b) (n : Str) :
    LinkedTo (l.del n) d (b && n != py! "Content-Type") := by
  unfold LinkedTo at h ⊢
  cases b with
  | false =>
    simp only [Bool.false_eq_true, if_false, Bool.false_and] at h ⊢
    exact fun hm => h ((refs_sublist (Dict.del_sublist l n)).subset hm)
  | true =>
    simp only [if_true, Bool.true_and] at h ⊢
    obtain ⟨c, hc⟩ := h
    by_cases he : n = py! "Content-Type"
    · subst he
      simpa using refs_del_gone hn hc
    · have : (n != py! "Content-Type") = true := by simpa using he
      rw [this, if_pos rfl, Dict.get_del_ne he]
      exact ⟨c, hc⟩

/-- the parts of `local_item` for `headers[n] = v` -/
theorem item_refs {s : Store} {o : Obj} (hs : Sep s) (ho : Live s o) (n : Str) (v : HVal) :
    (∀ d ∈ refs ((s.headers (hdrOf s o)).set n (s.newVal v).1), d ∈ hRefs s o ∨ (s.nParams ≤ d ∧ d < (s.newVal v).2.nParams)) ∧
    (refs ((s.headers (hdrOf s o)).set n (s.newVal v).1)).Nodup ∧
    (s.newVal v).2.dict ((s.headers (hdrOf s o)).set n (s.newVal v).1) = (s.dict (s.headers (hdrOf s o))).set n v := by
  have g := newVal_grown s n v
  have hf : ∀ c d, (s.newVal v).1 = .ct c d → s.nParams ≤ d ∧ d < (s.newVal v).2.nParams :=
    fun c d h => g.fresh d (mem_refs.2 ⟨n, c, by rw [h]; simp⟩)
  have ho' : ∀ d ∈ refs (s.headers (hdrOf s o)), d < s.nParams :=
    fun d hd => hs.ownLt o ho d (List.mem_append_right _ hd)
  refine ⟨?_, refs_set_nodup (hs.nodup o ho) n ?_, ?_⟩
  · intro d hd
    rcases refs_set hd with h | ⟨c, hc⟩
    · exact .inl h
    · exact .inr (hf c d hc)
  · intro c d h hm
    have := ho' d hm
    have := (hf c d h).1
    omega
  · rw [dict_set_map, dict_congr (s := s) (fun d hd => g.old d (ho' d hd))]
    have := g.view
    simp only [Store.dict, List.map_cons, List.map_nil, List.cons.injEq, Prod.mk.injEq, true_and, and_true] at this
    rw [this]

theorem newVal_ne {s : Store} {v : HVal} {d : Nat} (hd : d < s.nParams) : ∀ c, (s.newVal v).1 ≠ .ct c d := by
  intro c h
  have := ((newVal_grown s [] v).fresh d (mem_refs.2 ⟨[], c, by rw [h]; simp⟩)).1
  omega

/-- what happens to the store and to the world -/
def Agrees (w : World) (f : Res Store Unit) (s : Store) (g : Py World) : Prop :=
  match f, g with
  | .ok _ s', .ok w' => Holds s' w'
  | .err e s', .error e' => s' = s ∧ e = e' ∧ Holds s w
  | _, _ => False

theorem msg_act {s : Store} {w : World} {m : Nat} {h : Dict HVal} (hh : Holds s w) (hw : w.msgs[m]? = some h) (a : MsgAct) :
    Agrees w (stepMsg m a s) s (match actMsg h a with | .error e => .error e | .ok h' => .ok { w with msgs := w.msgs.set m h' }) := by
  have hr : m < s.nMsgs := by rw [hh.nMsgs]; exact (List.getElem?_eq_some_iff.1 hw).1
  have hv := hh.msgs m h hw
  have hset : ∀ n v, Agrees w (setItemD (s.msgs m) n v s) s (.ok { w with msgs := w.msgs.set m (h.set n v) }) := by
    intro n v
    obtain ⟨i1, i2, i3⟩ := item_refs (o := .msg m) hh.sep hr n v
    have := msg_item (m := m) hh hr (newVal_grown s n v).ext i1 i2
    simp only [hdrOf] at this i3
    rw [i3] at this
    subst hv
    exact this
  have hget : ∀ n, h.get n = ((s.headers (s.msgs m)).get n).map s.val := by
    intro n
    rw [← hv]
    exact dict_get_map s _ n
  cases a with
  | setHeader n v => exact hset n v
  | delHeader n =>
    simp only [stepMsg, delItemD, actMsg]
    rw [hget n]
    cases hg : (s.headers (s.msgs m)).get n with
    | none => exact ⟨rfl, rfl, hh⟩
    | some x =>
      have := msg_item (m := m) (l := (s.headers (s.msgs m)).del n) hh hr ⟨Nat.le_refl _, fun _ _ => rfl, rfl, rfl, rfl, rfl, rfl, rfl⟩
        (fun d hd => .inl ((refs_sublist (Dict.del_sublist _ n)).subset hd)) ((hh.sep.nodup (.msg m) hr).sublist (refs_sublist (Dict.del_sublist _ n)))
      rw [dict_del_map] at this
      subst hv
      exact this
  | headerParam n k v =>
    simp only [stepMsg, setParamD, actMsg, paramOf]
    rw [hget n]
    cases hg : (s.headers (s.msgs m)).get n with
    | none => exact ⟨rfl, rfl, hh⟩
    | some x =>
      cases x with
      | tup a b => exact ⟨rfl, rfl, hh⟩
      | ct c d =>
        show Holds _ _
        refine hh.setMsg (local_param hh.sep (o := .msg m) hr (List.mem_append_right _ (refs_get hg)) _) rfl rfl ?_
        subst hv
        exact dict_setParams (hh.sep.nodup (.msg m) hr) hg _
      | v x =>
        cases x with
        | str t =>
          simp only [Option.map_some, Store.val]
          split <;> exact ⟨rfl, rfl, hh⟩
        | uni t =>
          simp only [Option.map_some, Store.val]
          split <;> exact ⟨rfl, rfl, hh⟩
        | _ => exact ⟨rfl, rfl, hh⟩
  | addPage =>
    simp only [stepMsg, addPageD, actMsg]
    rw [hget]
    cases hg : (s.headers (s.msgs m)).get (py! "Content-Type") with
    | none => exact ⟨rfl, rfl, hh⟩
    | some x =>
      simp only [Option.map_some]
      cases hf : (s.val x).first with
      | error e => exact ⟨rfl, rfl, hh⟩
      | ok t =>
        simp only
        by_cases ht : t = py! "application/vnd.wap.multipart.related"
        · rw [if_neg (by simpa using ht), if_pos ht]
          show Holds _ _
          rw [show w.msgs.set m h = w.msgs from by
            obtain ⟨hlt, he⟩ := List.getElem?_eq_some_iff.1 hw
            rw [← he]
            exact List.set_getElem_self hlt]
          exact hh
        · rw [if_pos ht, if_neg ht]
          exact hset _ _

theorem part_act {s : Store} {w : World} {r : Nat} {o : Own} (hh : Holds s w) (hw : w.parts[r]? = some o) (a : PartAct) :
    Agrees w (stepPart r a s) s (match actPart o a with | .error e => .error e | .ok o' => .ok { w with parts := w.parts.set r o' }) := by
  have hr : r < s.nParts := by rw [hh.nParts]; exact (List.getElem?_eq_some_iff.1 hw).1
  obtain ⟨hv, hk0⟩ := hh.parts r o hw
  have hk : LinkedTo (s.headers (s.parts r).headers) (s.parts r).ctParams o.same := hk0
  clear hk0
  obtain ⟨p, b⟩ := o
  dsimp only at hv hk
  have hct : (s.parts r).ctParams < s.nParams := hh.sep.ownLt (.part r) hr _ (by simp [own])
  have hnd : (refs (s.headers (s.parts r).headers)).Nodup := hh.sep.nodup (.part r) hr
  have hset : ∀ n v, Agrees w (setItemD (s.parts r).headers n v s) s
      (.ok { w with parts := w.parts.set r ⟨{ p with headers := p.headers.set n v }, b && n != py! "Content-Type"⟩ }) := by
    intro n v
    obtain ⟨i1, i2, i3⟩ := item_refs (o := .part r) hh.sep hr n v
    have := part_item (r := r) hh hr (newVal_grown s n v).ext i1 i2 (hk.set hnd n (newVal_ne hct))
    simp only [hdrOf] at this i3
    rw [i3] at this
    subst hv
    exact this
  have hget : ∀ n, p.headers.get n = ((s.headers (s.parts r).headers).get n).map s.val := by
    intro n
    rw [← hv]
    exact dict_get_map s _ n
  have hdata : ∀ data ct ps, Holds (((s.addParams ps).addHeaders [(py! "Content-Type", .ct ct s.nParams)]).setPart r
      { s.parts r with headers := s.nHeaders, filename := none, data := some data })
      { w with parts := w.parts.set r ⟨{ p with headers := [(py! "Content-Type", .ct ct ps)], filename := none, data := some data }, false⟩ } := by
    intro data ct ps
    subst hv
    refine part_fresh hh hr (ext_params s ps) ?_ ?_ ?_ _ _
    · intro d hd
      simp only [refs, List.filterMap_cons, List.filterMap_nil, List.mem_singleton] at hd
      subst hd
      exact ⟨Nat.le_refl _, Nat.lt_succ_self _⟩
    · simp [refs]
    · simp [Store.dict, Store.val, addParams_new]
  cases a with
  | setData data ct ps =>
    cases ps with
    | none => exact hdata data ct []
    | some ps => exact hdata data ct ps
  | setText t => exact hdata t _ []
  | fromFile env f =>
    simp only [stepPart, fromFileD, actPart]
    cases hf : env.files f with
    | none => exact ⟨rfl, rfl, hh⟩
    | some c =>
      show Holds _ _
      subst hv
      refine part_fresh hh hr (ext_params s []) ?_ ?_ ?_ _ _
      · intro d hd
        simp only [refs, List.filterMap_cons, List.filterMap_nil, List.mem_singleton] at hd
        subst hd
        exact ⟨Nat.le_refl _, Nat.lt_succ_self _⟩
      · simp [refs]
      · simp only [Store.dict, Store.val, List.map_cons, List.map_nil, addParams_new, DataPart.basename]
        cases env.mime f <;> rfl
  | setContentType ct =>
    have := hset (py! "Content-Type") (.ct ct [])
    simp only [bne_self_eq_false, Bool.and_false] at this
    exact this
  | setHeader n v => exact hset n v
  | delHeader n =>
    simp only [stepPart, delItemD, actPart]
    rw [hget n]
    cases hg : (s.headers (s.parts r).headers).get n with
    | none => exact ⟨rfl, rfl, hh⟩
    | some x =>
      have := part_item (r := r) (l := (s.headers (s.parts r).headers).del n) hh hr ⟨Nat.le_refl _, fun _ _ => rfl, rfl, rfl, rfl, rfl, rfl, rfl⟩
        (fun d hd => .inl ((refs_sublist (Dict.del_sublist _ n)).subset hd)) (hnd.sublist (refs_sublist (Dict.del_sublist _ n)))
        (hk.del hnd n)
      rw [dict_del_map] at this
      subst hv
      exact this
  | headerParam n k v =>
    simp only [stepPart, setParamD, actPart, paramOf]
    rw [hget n]
    cases hg : (s.headers (s.parts r).headers).get n with
    | none => exact ⟨rfl, rfl, hh⟩
    | some x =>
      cases x with
      | tup a b => exact ⟨rfl, rfl, hh⟩
      | ct c d =>
        show Holds _ _
        refine hh.setPart (local_param hh.sep (o := .part r) hr (List.mem_append_right _ (refs_get hg)) _) rfl rfl ?_ hk
        have hpp := dict_setParams (s := s) hnd hg ((s.params d).set k v)
        subst hv
        simp only [Store.part, DataPart.mk.injEq]
        refine ⟨?_, hpp, rfl, rfl⟩
        show (if (s.parts r).ctParams = d then (s.params d).set k v else s.params (s.parts r).ctParams) = _
        unfold LinkedTo at hk
        cases b with
        | false =>
          simp only [Bool.false_eq_true, if_false, Bool.false_and] at hk ⊢
          rw [if_neg (fun e : (s.parts r).ctParams = d => hk (e ▸ refs_get hg))]
        | true =>
          simp only [if_true, Bool.true_and] at hk ⊢
          obtain ⟨c', hc'⟩ := hk
          by_cases hn : n = py! "Content-Type"
          · subst hn
            rw [hg] at hc'
            injection hc' with hc'
            injection hc' with _ hc'
            simp [hc']
          · have hb : (n == py! "Content-Type") = false := by simpa using hn
            rw [hb]
            simp only [Bool.false_eq_true, if_false]
            rw [if_neg]
            intro hd
            have h1 := refs_set_gone hnd hg (x := .v (.int 0)) (fun _ h => by cases h)
            refine h1 (refs_get (n := py! "Content-Type") (c := c') ?_)
            rw [dict_get_set, if_neg hn, hc', hd]
      | v x =>
        cases x with
        | str t =>
          simp only [Option.map_some, Store.val]
          split <;> exact ⟨rfl, rfl, hh⟩
        | uni t =>
          simp only [Option.map_some, Store.val]
          split <;> exact ⟨rfl, rfl, hh⟩
        | _ => exact ⟨rfl, rfl, hh⟩
  | ctParam k v =>
    show Holds _ _
    refine hh.setPart (local_param hh.sep (o := .part r) hr (by simp [own]) _) rfl rfl ?_ hk
    have hg := hget (py! "Content-Type")
    unfold LinkedTo at hk
    subst hv
    simp only [Store.part, DataPart.mk.injEq]
    refine ⟨by simp [Store.setParams], ?_, rfl, rfl⟩
    cases b with
    | false =>
      simp only [Bool.false_eq_true, if_false] at hk ⊢
      refine dict_congr (fun d hd => ?_)
      show (if d = _ then _ else _) = _
      rw [if_neg (fun e : d = (s.parts r).ctParams => hk (e ▸ hd))]
    | true =>
      simp only [if_true] at hk ⊢
      obtain ⟨c, hc⟩ := hk
      rw [hc] at hg
      simp only [Store.part] at hg
      rw [hg]
      exact dict_setParams (s := s) hnd hc _
  | ctParams ps =>
    show Holds _ _
    have hrl : ∀ d ∈ refs (s.headers (s.parts r).headers), d < s.nParams :=
      fun d hd => hh.sep.ownLt (.part r) hr d (List.mem_append_right _ hd)
    have hp : ((s.addParams ps).setPart r { s.parts r with ctParams := s.nParams }).parts r = { s.parts r with ctParams := s.nParams } := by
      simp [Store.setPart]
    refine hh.setPart (local_ctParams hh.sep hr ps) rfl rfl ?_ ?_
    · subst hv
      unfold Store.part
      rw [hp]
      simp only [DataPart.mk.injEq, and_true]
      exact ⟨addParams_new s ps, dict_congr (s := s) (fun d hd => addParams_old s ps d (hrl d hd))⟩
    · unfold Linked
      rw [hp]
      exact fun hm => absurd (hrl _ hm) (Nat.lt_irrefl _)

end Verif.Mms

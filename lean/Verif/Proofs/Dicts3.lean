import Verif.Proofs.Dicts2
/-!
# Every deed changes one part or message only
-/
set_option autoImplicit false

namespace Verif.Mms
open Verif Verif.Spec.Dicts

/-- new dictionaries of parameters, and nothing else -/
structure Ext (s s1 : Store) : Prop where
  np : s.nParams ≤ s1.nParams
  old : ∀ d < s.nParams, s1.params d = s.params d
  same : s1.headers = s.headers ∧ s1.parts = s.parts ∧ s1.msgs = s.msgs ∧ s1.nHeaders = s.nHeaders ∧ s1.nParts = s.nParts ∧
    s1.nMsgs = s.nMsgs

theorem ext_params (s : Store) (x : Dict Val) : Ext s (s.addParams x) :=
  ⟨Nat.le_succ _, addParams_old s x, rfl, rfl, rfl, rfl, rfl, rfl⟩

theorem Grown.ext {s s1 : Store} {l : Dict RVal} {h : Dict HVal} (g : Grown s s1 l h) : Ext s s1 := ⟨g.np, g.old, g.same⟩

theorem Ext.trans {s s1 s2 : Store} (a : Ext s s1) (b : Ext s1 s2) : Ext s s2 := by
  obtain ⟨a1, a2, a3, a4, a5, a6, a7, a8⟩ := a
  obtain ⟨b1, b2, b3, b4, b5, b6, b7, b8⟩ := b
  refine ⟨by omega, fun d hd => (b2 d (by omega)).trans (a2 d hd), ?_, ?_, ?_, ?_, ?_, ?_⟩
  exacts [b3.trans a3, b4.trans a4, b5.trans a5, b6.trans a6, b7.trans a7, b8.trans a8]

theorem newVal_grown (s : Store) (n : Str) (v : HVal) : Grown s (s.newVal v).2 [(n, (s.newVal v).1)] [(n, v)] :=
  newVals_grown [(n, v)] s

/-- a new dictionary of headers for a part, which may be new too -/
theorem local_part {s s1 s' : Store} {l : Dict RVal} {r : Nat} {x : PartRef} (he : Ext s s1) (hr : r ≤ s.nParts)
    (hs' : s' = (s1.addHeaders l).setPart r x ∧ r < s.nParts ∨ s' = (s1.addHeaders l).addPart x ∧ r = s.nParts)
    (hx : x.headers = s.nHeaders)
    (hc : (r < s.nParts ∧ Live s (.part r) ∧ x.ctParams = (s.parts r).ctParams ∧ x.ctParams < s.nParams) ∨ (s.nParams ≤ x.ctParams ∧ x.ctParams < s1.nParams))
    (hl : ∀ d ∈ refs l, s.nParams ≤ d ∧ d < s1.nParams) (hn : (refs l).Nodup) :
    Local s s' (.part r) ∧ s'.nMsgs = s.nMsgs ∧ s'.parts r = x ∧ s'.headers x.headers = l ∧ s'.params = s1.params := by
  obtain ⟨e1, e2, e3, e4, e5, e6, e7, e8⟩ := he
  have f1 : s'.parts = fun i => if i = r then x else s.parts i := by
    rcases hs' with ⟨rfl, _⟩ | ⟨rfl, rfl⟩
    · simp only [Store.setPart, Store.addHeaders, Store.setHeaders, e4]
    · simp only [Store.addPart, Store.setPart, Store.addHeaders, Store.setHeaders, e4, e7]
  have f2 : s'.headers = fun i => if i = s.nHeaders then l else s.headers i := by
    rcases hs' with ⟨rfl, _⟩ | ⟨rfl, rfl⟩ <;> simp only [Store.addPart, Store.setPart, Store.addHeaders, Store.setHeaders, e3, e6]
  have f3 : s'.params = s1.params := by rcases hs' with ⟨rfl, _⟩ | ⟨rfl, rfl⟩ <;> rfl
  have f4 : s'.msgs = s.msgs := by rcases hs' with ⟨rfl, _⟩ | ⟨rfl, rfl⟩ <;> exact e5
  have f5 : s'.nParams = s1.nParams := by rcases hs' with ⟨rfl, _⟩ | ⟨rfl, rfl⟩ <;> rfl
  have f6 : s'.nHeaders = s.nHeaders + 1 := by
    rcases hs' with ⟨rfl, _⟩ | ⟨rfl, rfl⟩ <;> simp [Store.addPart, Store.setPart, Store.addHeaders, Store.setHeaders, e6]
  have f7 : s'.nMsgs = s.nMsgs := by rcases hs' with ⟨rfl, _⟩ | ⟨rfl, rfl⟩ <;> exact e8
  have hp : s'.parts r = x := by rw [f1]; simp
  have hh : s'.headers x.headers = l := by rw [f2, hx]; simp
  have hown : own s' (.part r) = x.ctParams :: refs l := by
    simp only [own, hRefs, hdrOf, hp, hh, List.singleton_append]
  refine ⟨⟨?_, ?_, ?_, ?_, ?_, ?_, ?_, ?_, ?_, ?_, ?_, ?_⟩, f7, hp, hh, f3⟩
  · omega
  · omega
  · intro o'
    cases o' with
    | part r' =>
      simp only [Live, Obj.part.injEq]
      rcases hs' with ⟨h, h'⟩ | ⟨h, h'⟩
      · have : s'.nParts = s.nParts := by rw [h]; exact e7
        rw [this]
        constructor
        · exact .inl
        · rintro (h | h) <;> omega
      · have : s'.nParts = s.nParts + 1 := by
          rw [h]; simp [Store.addPart, Store.setPart, Store.addHeaders, Store.setHeaders, e7]
        rw [this]
        omega
    | msg m => simp only [Live, f7, reduceCtorEq, or_false]
  · intro r' hne
    rw [f1]
    simp only
    rw [if_neg (fun h => hne (by rw [h]))]
  · intro m _; rw [f4]
  · intro h hlt _
    rw [f2]
    simp only
    rw [if_neg (by omega)]
  · intro d hd _
    rw [f3, e2 d hd]
  · right
    simp only [hdrOf, hp, hx]
    exact Nat.le_refl _
  · simp only [hdrOf, hp, hx, f6]
    omega
  · intro d hd
    rw [hown] at hd
    rcases List.mem_cons.1 hd with rfl | hd
    · rcases hc with ⟨_, h1, h2, _⟩ | h
      · exact .inl ⟨h1, by simp [own, h2]⟩
      · exact .inr h.1
    · exact .inr (hl d hd).1
  · intro d hd
    rw [hown] at hd
    rw [f5]
    rcases List.mem_cons.1 hd with rfl | hd
    · rcases hc with ⟨_, _, _, h⟩ | h <;> omega
    · exact (hl d hd).2
  · simpa only [hRefs, hdrOf, hp, hh] using hn

/-- a dictionary of headers is changed in place -/
theorem local_item {s s1 : Store} {o : Obj} {l : Dict RVal} (hs : Sep s) (ho : Live s o) (he : Ext s s1)
    (hl : ∀ d ∈ refs l, d ∈ hRefs s o ∨ (s.nParams ≤ d ∧ d < s1.nParams)) (hn : (refs l).Nodup) :
    Local s (s1.setHeaders (hdrOf s o) l) o ∧ (s1.setHeaders (hdrOf s o) l).headers (hdrOf s o) = l := by
  obtain ⟨e1, e2, e3, e4, e5, e6, e7, e8⟩ := he
  have f2 : (s1.setHeaders (hdrOf s o) l).headers (hdrOf s o) = l := by simp [Store.setHeaders]
  have fh : hdrOf (s1.setHeaders (hdrOf s o) l) o = hdrOf s o := by
    cases o <;> simp only [hdrOf, Store.setHeaders, e4, e5]
  have hold : ∀ d ∈ own (s1.setHeaders (hdrOf s o) l) o, d ∈ own s o ∨ (s.nParams ≤ d ∧ d < s1.nParams) := by
    intro d hd
    unfold own hRefs at hd
    rw [fh, f2] at hd
    rcases List.mem_append.1 hd with hd | hd
    · refine .inl (List.mem_append_left _ ?_)
      cases o <;> simpa only [Store.setHeaders, e4] using hd
    · rcases hl d hd with h | h
      · exact .inl (List.mem_append_right _ h)
      · exact .inr h
  refine ⟨⟨e1, ?_, ?_, ?_, ?_, ?_, ?_, ?_, ?_, ?_, ?_, ?_⟩, f2⟩
  · exact Nat.le_of_eq e6.symm
  · intro o'
    have : Live (s1.setHeaders (hdrOf s o) l) o' ↔ Live s o' := by
      cases o' <;> simp only [Live, Store.setHeaders, e7, e8]
    rw [this]
    exact ⟨.inl, fun h => h.elim id (fun h : o' = _ => h ▸ ho)⟩
  · intro r _; show s1.parts r = _; rw [e4]
  · intro m _; show s1.msgs m = _; rw [e5]
  · intro h _ hne
    show (if h = hdrOf s o then l else s1.headers h) = _
    rw [if_neg (hne ho), e3]
  · intro d hd _
    exact e2 d hd
  · exact .inl ⟨ho, fh⟩
  · rw [fh]
    exact Nat.lt_of_lt_of_le (hs.hdrLt _ ho) (Nat.le_of_eq e6.symm)
  · intro d hd
    exact (hold d hd).imp (fun h => ⟨ho, h⟩) (·.1)
  · intro d hd
    rcases hold d hd with h | h
    · exact Nat.lt_of_lt_of_le (hs.ownLt _ ho d h) e1
    · exact h.2
  · unfold hRefs
    rw [fh, f2]
    exact hn

/-- a dictionary of parameters of the object is changed in place -/
theorem local_param {s : Store} {o : Obj} {d : Nat} (hs : Sep s) (ho : Live s o) (hd : d ∈ own s o) (x : Dict Val) :
    Local s (s.setParams d x) o := by
  have fh : hdrOf (s.setParams d x) o = hdrOf s o := by cases o <;> rfl
  have hown : own (s.setParams d x) o = own s o := by cases o <;> rfl
  refine ⟨Nat.le_refl _, Nat.le_refl _, ?_, fun _ _ => rfl, fun _ _ => rfl, fun _ _ _ => rfl, ?_, .inl ⟨ho, fh⟩, ?_, ?_, ?_, ?_⟩
  · intro o'
    have : Live (s.setParams d x) o' ↔ Live s o' := by cases o' <;> rfl
    rw [this]
    exact ⟨.inl, fun h => h.elim id (fun h : o' = o => h ▸ ho)⟩
  · intro d' _ hne
    show (if d' = d then x else s.params d') = _
    rw [if_neg (fun h : d' = d => hne ho (h ▸ hd))]
  · rw [fh]; exact hs.hdrLt _ ho
  · intro d' hd'
    rw [hown] at hd'
    exact .inl ⟨ho, hd'⟩
  · intro d' hd'
    rw [hown] at hd'
    exact hs.ownLt _ ho _ hd'
  · exact hs.nodup _ ho

/-- a part gets new `content_type_parameters` -/
theorem local_ctParams {s : Store} {r : Nat} (hs : Sep s) (ho : r < s.nParts) (ps : Dict Val) :
    Local s ((s.addParams ps).setPart r { s.parts r with ctParams := s.nParams }) (.part r) := by
  have hp : ((s.addParams ps).setPart r { s.parts r with ctParams := s.nParams }).parts r = { s.parts r with ctParams := s.nParams } := by
    simp [Store.setPart]
  have hown : own ((s.addParams ps).setPart r { s.parts r with ctParams := s.nParams }) (.part r) = s.nParams :: hRefs s (.part r) := by
    simp only [own, hRefs, hdrOf, hp, List.singleton_append]
    rfl
  refine ⟨Nat.le_succ _, Nat.le_refl _, ?_, ?_, fun _ _ => rfl, fun _ _ _ => rfl, ?_, .inl ⟨ho, ?_⟩, ?_, ?_, ?_, ?_⟩
  · intro o'
    have : Live ((s.addParams ps).setPart r { s.parts r with ctParams := s.nParams }) o' ↔ Live s o' := by cases o' <;> rfl
    rw [this]
    exact ⟨.inl, fun h => h.elim id (fun h : o' = _ => h ▸ ho)⟩
  · intro r' hne
    show (if r' = r then _ else s.parts r') = _
    rw [if_neg (fun h => hne (by rw [h]))]
  · intro d hd _
    exact addParams_old s ps d hd
  · simp only [hdrOf, hp]
  · simp only [hdrOf, hp]
    exact hs.hdrLt (.part r) ho
  · intro d hd
    rw [hown] at hd
    rcases List.mem_cons.1 hd with rfl | hd
    · exact .inr (Nat.le_refl _)
    · exact .inl ⟨ho, List.mem_append_right _ hd⟩
  · intro d hd
    rw [hown] at hd
    rcases List.mem_cons.1 hd with rfl | hd
    · exact Nat.lt_succ_self _
    · exact Nat.lt_succ_of_lt (hs.ownLt (.part r) ho d (List.mem_append_right _ hd))
  · have := hs.nodup (.part r) ho
    simp only [hRefs, hdrOf, hp] at this ⊢
    exact this

/-- a new message -/
theorem local_msg {s s1 : Store} {l : Dict RVal} {h : Dict HVal} (g : Grown s s1 l h) :
    Local s ((s1.addHeaders l).addMsg s.nHeaders) (.msg s.nMsgs) ∧ ((s1.addHeaders l).addMsg s.nHeaders).nParts = s.nParts ∧
    ((s1.addHeaders l).addMsg s.nHeaders).nMsgs = s.nMsgs + 1 ∧ ((s1.addHeaders l).addMsg s.nHeaders).msg s.nMsgs = h := by
  obtain ⟨e3, e4, e5, e6, e7, e8⟩ := g.same
  have f1 : ((s1.addHeaders l).addMsg s.nHeaders).msgs s.nMsgs = s.nHeaders := by simp [Store.addMsg, Store.addHeaders, Store.setHeaders, e8]
  have f2 : ((s1.addHeaders l).addMsg s.nHeaders).headers s.nHeaders = l := by simp [Store.addMsg, Store.addHeaders, Store.setHeaders, e6]
  have hown : own ((s1.addHeaders l).addMsg s.nHeaders) (.msg s.nMsgs) = refs l := by
    simp only [own, hRefs, hdrOf, f1, f2, List.nil_append]
  refine ⟨⟨g.np, ?_, ?_, ?_, ?_, ?_, ?_, ?_, ?_, ?_, ?_, ?_⟩, e7, ?_, ?_⟩
  · show s.nHeaders ≤ s1.nHeaders + 1; omega
  · intro o'
    cases o' with
    | part r => show r < s1.nParts ↔ r < s.nParts ∨ _; simp [e7]
    | msg m => show m < s1.nMsgs + 1 ↔ m < s.nMsgs ∨ _; simp only [e8, Obj.msg.injEq]; omega
  · intro r _; show s1.parts r = _; rw [e4]
  · intro m hne
    show (if m = s1.nMsgs then _ else s1.msgs m) = _
    rw [if_neg (fun h => hne (by rw [h, e8])), e5]
  · intro i hi _
    show (if i = s1.nHeaders then _ else s1.headers i) = _
    rw [if_neg (by omega), e3]
  · intro d hd _; exact g.old d hd
  · right; simp only [hdrOf, f1]; exact Nat.le_refl _
  · simp only [hdrOf, f1]; show s.nHeaders < s1.nHeaders + 1; omega
  · intro d hd
    rw [hown] at hd
    exact .inr (g.fresh d hd).1
  · intro d hd
    rw [hown] at hd
    exact (g.fresh d hd).2
  · simpa only [hRefs, hdrOf, f1, f2] using g.nodup
  · show s1.nMsgs + 1 = _; rw [e8]
  · unfold Store.msg
    rw [f1, f2]
    exact g.view

end Verif.Mms

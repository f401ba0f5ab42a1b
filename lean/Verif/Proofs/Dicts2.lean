import Verif.Proofs.Dicts
/-!
# Parts and messages share no dictionaries: the invariant
-/
set_option autoImplicit false

namespace Verif.Mms
open Verif Verif.Spec.Dicts

/-- a part or a message -/
inductive Obj
  | part (r : Nat)
  | msg (m : Nat)
  deriving DecidableEq

def Live (s : Store) : Obj → Prop
  | .part r => r < s.nParts
  | .msg m => m < s.nMsgs

/-- its dictionary of headers -/
def hdrOf (s : Store) : Obj → Nat
  | .part r => (s.parts r).headers
  | .msg m => s.msgs m

/-- the dictionaries of parameters in its headers -/
def hRefs (s : Store) (o : Obj) : List Nat := refs (s.headers (hdrOf s o))

/-- all its dictionaries of parameters -/
def own (s : Store) (o : Obj) : List Nat :=
  (match o with | .part r => [(s.parts r).ctParams] | .msg _ => []) ++ hRefs s o

/-- no two objects have a dictionary in common, and no dictionary occurs twice in the headers of an object -/
structure Sep (s : Store) : Prop where
  hdrLt : ∀ o, Live s o → hdrOf s o < s.nHeaders
  ownLt : ∀ o, Live s o → ∀ d ∈ own s o, d < s.nParams
  hdrNe : ∀ o o', Live s o → Live s o' → o ≠ o' → hdrOf s o ≠ hdrOf s o'
  ownNe : ∀ o o', Live s o → Live s o' → o ≠ o' → ∀ d ∈ own s o, d ∉ own s o'
  nodup : ∀ o, Live s o → (hRefs s o).Nodup

/-- only the object `o`, possibly a new one, is changed -/
structure Local (s s' : Store) (o : Obj) : Prop where
  np : s.nParams ≤ s'.nParams
  nh : s.nHeaders ≤ s'.nHeaders
  live : ∀ o', Live s' o' ↔ Live s o' ∨ o' = o
  parts : ∀ r, Obj.part r ≠ o → s'.parts r = s.parts r
  msgs : ∀ m, Obj.msg m ≠ o → s'.msgs m = s.msgs m
  headers : ∀ h < s.nHeaders, (Live s o → h ≠ hdrOf s o) → s'.headers h = s.headers h
  params : ∀ d < s.nParams, (Live s o → d ∉ own s o) → s'.params d = s.params d
  hdr : (Live s o ∧ hdrOf s' o = hdrOf s o) ∨ s.nHeaders ≤ hdrOf s' o
  hdrLt : hdrOf s' o < s'.nHeaders
  own : ∀ d ∈ own s' o, (Live s o ∧ d ∈ Mms.own s o) ∨ s.nParams ≤ d
  ownLt : ∀ d ∈ Mms.own s' o, d < s'.nParams
  nodup : (hRefs s' o).Nodup

/-- the object `o` is as before -/
structure Frame (s s' : Store) (o : Obj) : Prop where
  parts : ∀ r, Obj.part r = o → s'.parts r = s.parts r
  msgs : ∀ m, Obj.msg m = o → s'.msgs m = s.msgs m
  hdr : hdrOf s' o = hdrOf s o
  headers : s'.headers (hdrOf s o) = s.headers (hdrOf s o)
  own : own s' o = own s o
  params : ∀ d ∈ Mms.own s o, s'.params d = s.params d

theorem Local.frame {s s' : Store} {o : Obj} (hs : Sep s) (hl : Local s s' o) {o' : Obj} (hne : o' ≠ o) (hlv : Live s o') :
    Frame s s' o' := by
  have h1 : ∀ r, Obj.part r = o' → s'.parts r = s.parts r := fun r h => hl.parts r (h ▸ hne)
  have h2 : ∀ m, Obj.msg m = o' → s'.msgs m = s.msgs m := fun m h => hl.msgs m (h ▸ hne)
  have h3 : hdrOf s' o' = hdrOf s o' := by
    cases o' with
    | part r => simp only [hdrOf, h1 r rfl]
    | msg m => exact h2 m rfl
  have h4 : s'.headers (hdrOf s o') = s.headers (hdrOf s o') :=
    hl.headers _ (hs.hdrLt _ hlv) (fun ho => hs.hdrNe _ _ hlv ho hne)
  have h5 : Mms.own s' o' = Mms.own s o' := by
    unfold Mms.own hRefs
    rw [h3, h4]
    cases o' with
    | part r => simp only [h1 r rfl]
    | msg m => rfl
  exact ⟨h1, h2, h3, h4, h5, fun d hd => hl.params _ (hs.ownLt _ hlv _ hd) (fun ho => hs.ownNe _ _ hlv ho hne _ hd)⟩

theorem Local.sep {s s' : Store} {o : Obj} (hs : Sep s) (hl : Local s s' o) : Sep s' := by
  have other : ∀ {o'}, Live s' o' → o' ≠ o → Live s o' := fun h hne => ((hl.live _).1 h).resolve_right hne
  refine ⟨?_, ?_, ?_, ?_, ?_⟩
  · intro o' hv
    by_cases he : o' = o
    · rw [he]; exact hl.hdrLt
    · rw [(hl.frame hs he (other hv he)).hdr]
      exact Nat.lt_of_lt_of_le (hs.hdrLt _ (other hv he)) hl.nh
  · intro o' hv d hd
    by_cases he : o' = o
    · rw [he] at hd; exact hl.ownLt d hd
    · rw [(hl.frame hs he (other hv he)).own] at hd
      exact Nat.lt_of_lt_of_le (hs.ownLt _ (other hv he) d hd) hl.np
  · have key : ∀ o', Live s' o' → o' ≠ o → hdrOf s' o' ≠ hdrOf s' o := by
      intro o' hv he
      have hv' := other hv he
      rw [(hl.frame hs he hv').hdr]
      rcases hl.hdr with ⟨ho, h⟩ | h
      · rw [h]; exact hs.hdrNe _ _ hv' ho he
      · have := hs.hdrLt _ hv'
        omega
    intro o1 o2 h1 h2 hne
    by_cases e1 : o1 = o
    · subst e1
      exact fun h => key o2 h2 (Ne.symm hne) h.symm
    · by_cases e2 : o2 = o
      · subst e2; exact key o1 h1 hne
      · rw [(hl.frame hs e1 (other h1 e1)).hdr, (hl.frame hs e2 (other h2 e2)).hdr]
        exact hs.hdrNe _ _ (other h1 e1) (other h2 e2) hne
  · have key : ∀ o', Live s' o' → o' ≠ o → ∀ d ∈ Mms.own s' o', d ∉ Mms.own s' o := by
      intro o' hv he d hd hd'
      have hv' := other hv he
      rw [(hl.frame hs he hv').own] at hd
      rcases hl.own d hd' with ⟨ho, h⟩ | h
      · exact hs.ownNe _ _ hv' ho he d hd h
      · have := hs.ownLt _ hv' d hd
        omega
    intro o1 o2 h1 h2 hne d hd hd'
    by_cases e1 : o1 = o
    · subst e1
      exact key o2 h2 (Ne.symm hne) d hd' hd
    · by_cases e2 : o2 = o
      · subst e2; exact key o1 h1 hne d hd hd'
      · rw [(hl.frame hs e1 (other h1 e1)).own] at hd
        rw [(hl.frame hs e2 (other h2 e2)).own] at hd'
        exact hs.ownNe _ _ (other h1 e1) (other h2 e2) hne d hd hd'
  · intro o' hv
    by_cases he : o' = o
    · rw [he]; exact hl.nodup
    · have hf := hl.frame hs he (other hv he)
      unfold hRefs
      rw [hf.hdr, hf.headers]
      exact hs.nodup _ (other hv he)

/-- whether `content_type_parameters` is the dictionary in the Content-Type header -/
def Linked (s : Store) (r : Nat) (b : Bool) : Prop :=
  if b then ∃ c, (s.headers (s.parts r).headers).get (py! "Content-Type") = some (.ct c (s.parts r).ctParams)
  else (s.parts r).ctParams ∉ refs (s.headers (s.parts r).headers)

theorem Frame.part {s s' : Store} {r : Nat} (h : Frame s s' (.part r)) : s'.part r = s.part r ∧ ∀ b, Linked s' r b ↔ Linked s r b := by
  have h1 := h.parts r rfl
  have h2 : s'.headers (s.parts r).headers = s.headers (s.parts r).headers := h.headers
  refine ⟨?_, fun b => by unfold Linked; rw [h1, h2]⟩
  unfold Store.part
  have h3 : s'.dict (s.headers (s.parts r).headers) = s.dict (s.headers (s.parts r).headers) :=
    dict_congr (fun d hd => h.params d (List.mem_append_right _ hd))
  rw [h1, h2, h3, h.params _ (by simp [Mms.own])]

theorem Frame.msg {s s' : Store} {m : Nat} (h : Frame s s' (.msg m)) : s'.msg m = s.msg m := by
  have h1 := h.msgs m rfl
  have h2 : s'.headers (s.msgs m) = s.headers (s.msgs m) := h.headers
  unfold Store.msg
  have h3 : s'.dict (s.headers (s.msgs m)) = s.dict (s.headers (s.msgs m)) :=
    dict_congr (fun d hd => h.params d (List.mem_append_right _ hd))
  rw [h1, h2, h3]

/-- the store holds what the parts and messages of the world hold -/
structure Holds (s : Store) (w : World) : Prop where
  sep : Sep s
  nParts : s.nParts = w.parts.length
  nMsgs : s.nMsgs = w.msgs.length
  parts : ∀ r o, w.parts[r]? = some o → s.part r = o.part ∧ Linked s r o.same
  msgs : ∀ m h, w.msgs[m]? = some h → s.msg m = h

theorem Holds.frames {s s' : Store} {w : World} {o : Obj} (hh : Holds s w) (hl : Local s s' o) :
    (∀ r x, .part r ≠ o → w.parts[r]? = some x → s'.part r = x.part ∧ Linked s' r x.same) ∧
    (∀ m x, .msg m ≠ o → w.msgs[m]? = some x → s'.msg m = x) := by
  constructor
  · intro r x hne hx
    obtain ⟨hr, _⟩ := List.getElem?_eq_some_iff.1 hx
    have hf := (hl.frame hh.sep hne (show r < s.nParts by rw [hh.nParts]; exact hr)).part
    have := hh.parts r x hx
    exact ⟨hf.1.trans this.1, (hf.2 _).2 this.2⟩
  · intro m x hne hx
    obtain ⟨hr, _⟩ := List.getElem?_eq_some_iff.1 hx
    exact ((hl.frame hh.sep hne (show m < s.nMsgs by rw [hh.nMsgs]; exact hr)).msg).trans (hh.msgs m x hx)

theorem Holds.setPart {s s' : Store} {w : World} {r : Nat} {o' : Own} (hh : Holds s w) (hl : Local s s' (.part r))
    (hp : s'.nParts = s.nParts) (hm : s'.nMsgs = s.nMsgs) (hv : s'.part r = o'.part)
    (hk : Linked s' r o'.same) : Holds s' { w with parts := w.parts.set r o' } := by
  obtain ⟨h1, h2⟩ := hh.frames hl
  refine ⟨hl.sep hh.sep, by rw [hp, hh.nParts, List.length_set], by rw [hm, hh.nMsgs], ?_, fun m h => h2 m h (by simp)⟩
  intro r' x hx
  rw [List.getElem?_set] at hx
  split at hx
  · next he =>
    subst he
    split at hx
    · injection hx with hx; subst hx; exact ⟨hv, hk⟩
    · cases hx
  · next he => exact h1 r' x (fun h => he (by injection h with h; exact h.symm)) hx

theorem Holds.addPart {s s' : Store} {w : World} {o' : Own} (hh : Holds s w) (hl : Local s s' (.part s.nParts))
    (hp : s'.nParts = s.nParts + 1) (hm : s'.nMsgs = s.nMsgs) (hv : s'.part s.nParts = o'.part) (hk : Linked s' s.nParts o'.same) :
    Holds s' { w with parts := w.parts ++ [o'] } := by
  obtain ⟨h1, h2⟩ := hh.frames hl
  refine ⟨hl.sep hh.sep, by simp [hp, hh.nParts], by rw [hm, hh.nMsgs], ?_, fun m h => h2 m h (by simp)⟩
  intro r' x hx
  rw [List.getElem?_append] at hx
  split at hx
  · next he => exact h1 r' x (fun h => by injection h with h; rw [h, hh.nParts] at he; omega) hx
  · next he =>
    have hr' : r' = s.nParts := by
      rw [hh.nParts]
      rcases Nat.lt_or_ge (r' - w.parts.length) 1 with h | h
      · omega
      · rw [List.getElem?_eq_none (by simpa using h)] at hx
        cases hx
    subst hr'
    rw [hh.nParts, Nat.sub_self] at hx
    injection hx with hx
    subst hx
    exact ⟨hv, hk⟩

theorem Holds.setMsg {s s' : Store} {w : World} {m : Nat} {h' : Dict HVal} (hh : Holds s w) (hl : Local s s' (.msg m))
    (hp : s'.nParts = s.nParts) (hm : s'.nMsgs = s.nMsgs) (hv : s'.msg m = h') :
    Holds s' { w with msgs := w.msgs.set m h' } := by
  obtain ⟨h1, h2⟩ := hh.frames hl
  refine ⟨hl.sep hh.sep, by rw [hp, hh.nParts], by rw [hm, hh.nMsgs, List.length_set], fun r o => h1 r o (by simp), ?_⟩
  intro m' x hx
  rw [List.getElem?_set] at hx
  split at hx
  · next he =>
    subst he
    split at hx
    · injection hx with hx; subst hx; exact hv
    · cases hx
  · next he => exact h2 m' x (fun h => he (by injection h with h; exact h.symm)) hx

theorem Holds.addMsg {s s' : Store} {w : World} {h' : Dict HVal} (hh : Holds s w) (hl : Local s s' (.msg s.nMsgs))
    (hp : s'.nParts = s.nParts) (hm : s'.nMsgs = s.nMsgs + 1) (hv : s'.msg s.nMsgs = h') :
    Holds s' { w with msgs := w.msgs ++ [h'] } := by
  obtain ⟨h1, h2⟩ := hh.frames hl
  refine ⟨hl.sep hh.sep, by rw [hp, hh.nParts], by simp [hm, hh.nMsgs], fun r o => h1 r o (by simp), ?_⟩
  intro m' x hx
  rw [List.getElem?_append] at hx
  split at hx
  · next he => exact h2 m' x (fun h => by injection h with h; rw [h, hh.nMsgs] at he; omega) hx
  · next he =>
    have hr' : m' = s.nMsgs := by
      rw [hh.nMsgs]
      rcases Nat.lt_or_ge (m' - w.msgs.length) 1 with h | h
      · omega
      · rw [List.getElem?_eq_none (by simpa using h)] at hx
        cases hx
    subst hr'
    rw [hh.nMsgs, Nat.sub_self] at hx
    injection hx with hx
    subst hx
    exact hv

end Verif.Mms

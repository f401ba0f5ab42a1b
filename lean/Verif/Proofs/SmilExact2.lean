import Verif.Proofs.SmilExact
import Verif.Props.SmilText
/-!
# Lemmas: the SMIL text with labels of any type (continued)
-/
set_option autoImplicit false

namespace Verif.Mms
open Verif.Props (write_empty write_full attr_eq escape_eq)

/-! ### which elements are in the document -/

/-- media elements have attributes that come before `src`, all of them ASCII -/
structure NodeOk (n : NodeX) : Prop where
  tag : ∀ c ∈ n.tag, c ≤ 127
  keys : ∀ a ∈ n.attrs, strLe (py! "src") a.1 = false
  vals : ∀ a ∈ n.attrs, (∀ c ∈ a.1, c ≤ 127) ∧ ∀ c ∈ a.2, c ≤ 127

/-- `st` has exactly the elements `l`, the ones other than `text` in this order -/
structure Has (st : SmilX) (l : List NodeX) : Prop where
  perm : st.nodes.Perm l
  nodup : (l.map NodeX.uid).Nodup
  lt : ∀ n ∈ l, n.uid < st.uid
  text : ∀ t, st.textNode = some t → t ∈ l ∧ t.tag = py! "text"
  media : st.nodes.filter (fun n => n.tag ≠ py! "text") = l.filter (fun n => n.tag ≠ py! "text")
  ok : ∀ n ∈ l, NodeOk n

theorem intStr_ascii (n : Int) : ∀ c ∈ intStr n, c ≤ 127 := by
  have hn : ∀ k, ∀ c ∈ natStr k, c ≤ 127 := fun k c hc => by
    have := natStr_digits k c hc
    omega
  unfold intStr
  split
  · intro c hc
    rcases List.mem_cons.1 hc with rfl | hc
    · omega
    · exact hn _ _ hc
  · exact hn _

theorem timing_ok (d b e : Int) : (∀ a ∈ timing d b e, strLe (py! "src") a.1 = false) ∧
    ∀ a ∈ timing d b e, (∀ c ∈ a.1, c ≤ 127) ∧ ∀ c ∈ a.2, c ≤ 127 := by
  unfold timing
  split
  · constructor
    · intro a ha
      simp only [List.mem_cons, List.not_mem_nil, or_false] at ha
      rcases ha with rfl | rfl <;> rfl
    · intro a ha
      simp only [List.mem_cons, List.not_mem_nil, or_false] at ha
      rcases ha with rfl | rfl
      · exact ⟨show ∀ c ∈ (py! "begin"), c ≤ 127 by decide, intStr_ascii _⟩
      · exact ⟨show ∀ c ∈ (py! "end"), c ≤ 127 by decide, intStr_ascii _⟩
  · exact ⟨fun a ha => (by cases ha), fun a ha => (by cases ha)⟩

theorem node_region {u : Nat} {tag : Str} {src : HVal} {r : Str} {d b e : Int} (ht : ∀ c ∈ tag, c ≤ 127) (hr : ∀ c ∈ r, c ≤ 127) :
    NodeOk { uid := u, tag := tag, src := src, attrs := (py! "region", r) :: timing d b e } := by
  refine ⟨ht, ?_, ?_⟩
  · intro a ha
    rcases List.mem_cons.1 ha with rfl | ha
    · rfl
    · exact (timing_ok d b e).1 a ha
  · intro a ha
    rcases List.mem_cons.1 ha with rfl | ha
    · exact ⟨show ∀ c ∈ (py! "region"), c ≤ 127 by decide, hr⟩
    · exact (timing_ok d b e).2 a ha

/-- the values that become the sources of image and audio of a page, in this order -/
def Values (p : PageX) (vs : List HVal) : Prop :=
  List.Forall₂ (fun (x : Py HVal × Int × Int) v => x.1 = .ok v) (p.image.toList ++ p.audio.toList) vs

/-- the texts of a page -/
def Texts (p : PageX) (ts : List PyStr) : Prop :=
  List.Forall₂ (fun (x : Py PyStr × Int × Int) t => x.1 = .ok t) p.text.toList ts

theorem image_nodes {p : PageX} {uid : Nat} {l : List NodeX} (h : smilImageX p uid = .ok l) :
    (∀ n ∈ l, n.uid = uid ∧ n.tag = py! "img" ∧ NodeOk n) ∧ l.length ≤ 1 ∧
      List.Forall₂ (fun (x : Py HVal × Int × Int) v => x.1 = .ok v) p.image.toList (l.map NodeX.src) := by
  unfold smilImageX at h
  cases hp : p.image with
  | none => rw [hp] at h; cases h; exact ⟨by simp, by simp, .nil⟩
  | some x =>
    obtain ⟨part, b, e⟩ := x
    rw [hp] at h
    obtain ⟨src, hs, h⟩ := bind_ok_invE h
    cases h
    refine ⟨?_, by simp, .cons hs .nil⟩
    intro n hn
    rw [List.mem_singleton] at hn
    subst hn
    exact ⟨rfl, rfl, node_region (by decide) (by decide)⟩

theorem text_nodes {p : PageX} {uid : Nat} {o : Option NodeX} (h : smilTextX p uid = .ok o) :
    (∀ n ∈ o, n.uid = uid ∧ n.tag = py! "text" ∧ NodeOk n) ∧
      ∃ ts, Texts p ts ∧ o.toList.map NodeX.src = ts.map strVal := by
  unfold smilTextX at h
  unfold Texts
  cases hp : p.text with
  | none => rw [hp] at h; cases h; exact ⟨fun n hn => (by cases hn), [], .nil, rfl⟩
  | some x =>
    obtain ⟨part, b, e⟩ := x
    rw [hp] at h
    obtain ⟨src, hs, h⟩ := bind_ok_invE h
    cases h
    refine ⟨?_, [src], .cons hs .nil, rfl⟩
    intro n hn
    cases hn
    exact ⟨rfl, rfl, node_region (by decide) (by decide)⟩

theorem filter_perm {t : NodeX} {l : List NodeX} (hn : (l.map NodeX.uid).Nodup) (ht : t ∈ l) :
    (removeNodeX t.uid l ++ [t]).Perm l := by
  induction l with
  | nil => cases ht
  | cons a l ih =>
    simp only [List.map_cons, List.nodup_cons] at hn
    unfold removeNodeX at ih ⊢
    by_cases hta : a = t
    · subst hta
      rw [List.filter_cons_of_neg (by simp)]
      have : l.filter (fun n => n.uid ≠ a.uid) = l := by
        rw [List.filter_eq_self]
        intro n hn'
        simp only [decide_eq_true_eq]
        intro he
        exact hn.1 (List.mem_map.2 ⟨n, hn', he⟩)
      rw [this]
      exact List.perm_append_comm.trans (by simp)
    · have htl : t ∈ l := by
        rcases List.mem_cons.1 ht with h | h
        · exact absurd h.symm hta
        · exact h
      rw [List.filter_cons_of_pos (by
        simp only [decide_eq_true_eq]
        intro he
        exact hn.1 (List.mem_map.2 ⟨t, htl, he.symm⟩))]
      exact (ih hn.2 htl).cons a

theorem uid_inj {a b : NodeX} {l : List NodeX} (hn : (l.map NodeX.uid).Nodup) (ha : a ∈ l) (hb : b ∈ l) (h : a.uid = b.uid) :
    a = b := by
  induction l with
  | nil => cases ha
  | cons c l ih =>
    simp only [List.map_cons, List.nodup_cons] at hn
    rcases List.mem_cons.1 ha with rfl | ha
    · rcases List.mem_cons.1 hb with rfl | hb
      · rfl
      · exact absurd (List.mem_map.2 ⟨b, hb, h.symm⟩) hn.1
    · rcases List.mem_cons.1 hb with hbc | hb
      · exact absurd (List.mem_map.2 ⟨a, ha, hbc ▸ h⟩) hn.1
      · exact ih hn.2 ha hb

theorem filter_media {t : NodeX} {l l' : List NodeX} (hn : (l.map NodeX.uid).Nodup) (ht : t ∈ l) (htt : t.tag = py! "text")
    (hp : ∀ n ∈ l', n ∈ l) :
    (removeNodeX t.uid l').filter (fun n => n.tag ≠ py! "text") = l'.filter (fun n => n.tag ≠ py! "text") := by
  unfold removeNodeX
  rw [List.filter_filter]
  refine List.filter_congr ?_
  intro n hn'
  by_cases h : n.tag = py! "text"
  · simp [h]
  · have : n.uid ≠ t.uid := by
      intro he
      have := uid_inj hn (hp n hn') ht he
      exact h (this ▸ htt)
    simp [h, this]

theorem remove_flat (u : Nat) (l : List ParX) :
    (l.map (fun p => ({ p with kids := removeNodeX u p.kids } : ParX))).flatMap ParX.kids = removeNodeX u (l.flatMap ParX.kids) := by
  induction l with
  | nil => rfl
  | cons p l ih =>
    simp only [List.map_cons, List.flatMap_cons, ih]
    unfold removeNodeX
    rw [List.filter_append]

/-- a step adds the elements of the page -/
theorem step_has {st st' : SmilX} {p : PageX} {l : List NodeX} (h : Step st p st') (hl : Has st l) :
    ∃ new vs ts, Has st' (l ++ new) ∧ Values p vs ∧ Texts p ts ∧
      (new.filter (fun n => n.tag ≠ py! "text")).map NodeX.src = vs ∧
      (new.filter (fun n => n.tag = py! "text")).map NodeX.src = ts.map strVal := by
  have base : ∀ img txt, smilImageX p st.uid = .ok img → smilTextX p (st.uid + 1) = .ok txt →
      ((l ++ (img ++ txt.toList)).map NodeX.uid).Nodup ∧ (∀ n ∈ l ++ (img ++ txt.toList), n.uid < st.uid + 2) ∧
      (∀ n ∈ l ++ (img ++ txt.toList), NodeOk n) ∧
      (img ++ txt.toList).filter (fun n => n.tag ≠ py! "text") = img ∧
      (img ++ txt.toList).filter (fun n => n.tag = py! "text") = txt.toList := by
    intro img txt hi ht
    obtain ⟨i1, i2, -⟩ := image_nodes hi
    obtain ⟨t1, -⟩ := text_nodes ht
    refine ⟨?_, ?_, ?_, ?_, ?_⟩
    · rw [List.map_append, List.nodup_append]
      refine ⟨hl.nodup, ?_, ?_⟩
      · rcases img with _ | ⟨a, _ | ⟨b, r⟩⟩
        · cases txt <;> simp
        · cases txt with
          | none => simp
          | some t =>
            have := (i1 a (by simp)).1
            have := (t1 t rfl).1
            simp
            omega
        · simp at i2
      · intro a ha b hb hab
        obtain ⟨n, hn, rfl⟩ := List.mem_map.1 ha
        obtain ⟨k, hk, rfl⟩ := List.mem_map.1 hb
        have h1 := hl.lt n hn
        rcases List.mem_append.1 hk with hk | hk
        · have := (i1 k hk).1
          omega
        · have := (t1 k (by simpa using hk)).1
          omega
    · intro n hn
      rcases List.mem_append.1 hn with hn | hn
      · have := hl.lt n hn
        omega
      · rcases List.mem_append.1 hn with hn | hn
        · have := (i1 n hn).1
          omega
        · have := (t1 n (by simpa using hn)).1
          omega
    · intro n hn
      rcases List.mem_append.1 hn with hn | hn
      · exact hl.ok n hn
      · rcases List.mem_append.1 hn with hn | hn
        · exact (i1 n hn).2.2
        · exact (t1 n (by simpa using hn)).2.2
    · rw [List.filter_append]
      have h1 : img.filter (fun n => n.tag ≠ py! "text") = img := by
        rw [List.filter_eq_self]
        intro n hn
        simp [(i1 n hn).2.1]
      have h2 : txt.toList.filter (fun n => n.tag ≠ py! "text") = [] := by
        rw [List.filter_eq_nil_iff]
        intro n hn
        simp [(t1 n (by simpa using hn)).2.1]
      rw [h1, h2, List.append_nil]
    · rw [List.filter_append]
      have h1 : img.filter (fun n => n.tag = py! "text") = [] := by
        rw [List.filter_eq_nil_iff]
        intro n hn
        simp [(i1 n hn).2.1]
      have h2 : txt.toList.filter (fun n => n.tag = py! "text") = txt.toList := by
        rw [List.filter_eq_self]
        intro n hn
        simp [(t1 n (by simpa using hn)).2.1]
      rw [h1, h2, List.nil_append]
  cases h with
  | quiet img txt hi ht ha =>
    obtain ⟨b1, b2, b3, b4, b5⟩ := base img txt hi ht
    obtain ⟨i1, i2, i3⟩ := image_nodes hi
    obtain ⟨t1, ts, t2, t3⟩ := text_nodes ht
    refine ⟨img ++ txt.toList, img.map NodeX.src, ts, ⟨?_, b1, ?_, ?_, ?_, b3⟩, ?_, t2, by rw [b4], by rw [b5, t3]⟩
    · simp only [SmilX.nodes, List.flatMap_append, List.flatMap_cons, List.flatMap_nil, List.append_nil]
      exact hl.perm.append_right _
    · intro n hn
      have := b2 n hn
      simp only
      omega
    · intro t htn
      cases txt with
      | none =>
        obtain ⟨h1, h2⟩ := hl.text t htn
        exact ⟨List.mem_append_left _ h1, h2⟩
      | some t' =>
        cases htn
        exact ⟨by simp, (t1 _ rfl).2.1⟩
    · simp only [SmilX.nodes, List.flatMap_append, List.flatMap_cons, List.flatMap_nil, List.append_nil]
      have := hl.media
      simp only [SmilX.nodes] at this
      simp only [List.filter_append, this]
    · unfold Values
      rw [ha]
      simpa using i3
  | loud img txt hi ht src b e ha t htn =>
    obtain ⟨b1, b2, b3, b4, b5⟩ := base img txt hi ht
    obtain ⟨i1, i2, i3⟩ := image_nodes hi
    obtain ⟨t1, ts, t2, t3⟩ := text_nodes ht
    have htl : t ∈ l ++ (img ++ txt.toList) ∧ t.tag = py! "text" := by
      cases txt with
      | none =>
        obtain ⟨h1, h2⟩ := hl.text t htn
        exact ⟨List.mem_append_left _ h1, h2⟩
      | some t' =>
        cases htn
        exact ⟨by simp, (t1 _ rfl).2.1⟩
    have hX : (st.nodes ++ (img ++ txt.toList)).Perm (l ++ (img ++ txt.toList)) := hl.perm.append_right _
    have hXn : ((st.nodes ++ (img ++ txt.toList)).map NodeX.uid).Nodup := (hX.map _).nodup_iff.2 b1
    have htX : t ∈ st.nodes ++ (img ++ txt.toList) := hX.mem_iff.2 htl.1
    have hnodes : ∀ (au : NodeX), List.flatMap ParX.kids (st.pars.map (fun (q : ParX) => { q with kids := removeNodeX t.uid q.kids }) ++
        [(⟨p.duration, removeNodeX t.uid (img ++ txt.toList) ++ [t, au]⟩ : ParX)]) =
        removeNodeX t.uid (st.nodes ++ (img ++ txt.toList)) ++ [t] ++ [au] := by
      intro au
      rw [List.flatMap_append, remove_flat]
      simp only [List.flatMap_cons, List.flatMap_nil, List.append_nil]
      unfold SmilX.nodes removeNodeX
      rw [List.filter_append (st.pars.flatMap ParX.kids)]
      simp
    refine ⟨img ++ txt.toList ++ [{ uid := st.uid + 2, tag := py! "audio", src := src, attrs := timing p.duration b e }],
      img.map NodeX.src ++ [src], ts, ⟨?_, ?_, ?_, ?_, ?_, ?_⟩, ?_, t2, ?_, ?_⟩
    · unfold SmilX.nodes
      rw [hnodes, ← List.append_assoc l]
      exact ((filter_perm hXn htX).trans hX).append_right _
    · rw [← List.append_assoc, List.map_append, List.nodup_append]
      refine ⟨b1, by simp, ?_⟩
      intro a ha' c hc hac
      obtain ⟨n, hn, rfl⟩ := List.mem_map.1 ha'
      simp only [List.map_cons, List.map_nil, List.mem_singleton] at hc
      have := b2 n hn
      omega
    · intro n hn
      rw [← List.append_assoc] at hn
      rcases List.mem_append.1 hn with hn | hn
      · have := b2 n hn
        simp only
        omega
      · rw [List.mem_singleton] at hn
        subst hn
        simp only
        omega
    · intro t' ht'
      cases ht'
      refine ⟨?_, htl.2⟩
      rw [← List.append_assoc]
      exact List.mem_append_left _ htl.1
    · unfold SmilX.nodes
      rw [hnodes, List.filter_append, List.filter_append, filter_media hXn htX htl.2 (fun n hn => hn)]
      have h1 : [t].filter (fun n => n.tag ≠ py! "text") = [] := by simp [htl.2]
      rw [h1, List.append_nil, List.filter_append, hl.media, ← List.append_assoc l, List.filter_append (l ++ _), List.filter_append l]
    · intro n hn
      rw [← List.append_assoc] at hn
      rcases List.mem_append.1 hn with hn | hn
      · exact b3 n hn
      · rw [List.mem_singleton] at hn
        subst hn
        exact ⟨show ∀ c ∈ (py! "audio"), c ≤ 127 by decide, (timing_ok _ _ _).1, (timing_ok _ _ _).2⟩
    · unfold Values
      rw [ha]
      exact List.rel_append i3 (.cons rfl .nil)
    · rw [List.filter_append, b4]
      simp
    · rw [List.filter_append, b5, List.map_append, t3]
      simp

end Verif.Mms

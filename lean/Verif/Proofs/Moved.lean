import Verif.Proofs.Slides
import Verif.Spec.Moved
/-!
# Lemmas for C53: where the texts are shown
-/
set_option autoImplicit false

namespace Verif.Mms

open Verif.Spec.Slides (Slide Medium timeAttrs LastText TextShown Arranged AudioTexts)

def imgNode (uid : Nat) (s : Slide) : List MediaNode :=
  s.image.toList.map fun m => { uid := uid, tag := py! "img", attrs := [(py! "src", m.src), (py! "region", py! "Image")] ++ timeAttrs s.duration m.begin_ m.end_ }

def txtNode (uid : Nat) (s : Slide) : Option MediaNode :=
  s.text.map fun m => { uid := uid, tag := py! "text", attrs := [(py! "src", m.src), (py! "region", py! "Text")] ++ timeAttrs s.duration m.begin_ m.end_ }

def audNode (uid : Nat) (s : Slide) : List MediaNode :=
  s.audio.toList.map fun m => { uid := uid, tag := py! "audio", attrs := (py! "src", m.src) :: timeAttrs s.duration m.begin_ m.end_ }

/-- `smilPage` in terms of the slide -/
def slideStep (st : SmilSt) (s : Slide) : Py SmilSt :=
  let cur := (txtNode (st.uid + 1) s).or st.textNode
  match s.audio with
  | none => .ok { pars := st.pars ++ [⟨s.duration, imgNode st.uid s ++ (txtNode (st.uid + 1) s).toList⟩], textNode := cur, uid := st.uid + 3 }
  | some _ =>
    match cur with
    | none => .error .nameError
    | some t => .ok { pars := st.pars.map (fun p => { p with kids := removeNode t.uid p.kids }) ++
        [⟨s.duration, imgNode st.uid s ++ t :: audNode (st.uid + 2) s⟩], textNode := cur, uid := st.uid + 3 }

theorem imgNode_uid {u : Nat} {s : Slide} {n : MediaNode} (h : n ∈ imgNode u s) : n.uid = u := by
  simp only [imgNode, List.mem_map] at h
  obtain ⟨_, _, rfl⟩ := h
  rfl

theorem audNode_uid {u : Nat} {s : Slide} {n : MediaNode} (h : n ∈ audNode u s) : n.uid = u := by
  simp only [audNode, List.mem_map] at h
  obtain ⟨_, _, rfl⟩ := h
  rfl

theorem txtNode_uid {u : Nat} {s : Slide} {n : MediaNode} (h : txtNode u s = some n) : n.uid = u := by
  simp only [txtNode, Option.map_eq_some_iff] at h
  obtain ⟨_, _, rfl⟩ := h
  rfl

theorem smilPage_slide {env : Env} {p : Page} {s : Slide} (h : PageIs env p s) (st : SmilSt)
    (hlt : ∀ t, st.textNode = some t → t.uid < st.uid) : smilPage env st p = slideStep st s := by
  obtain ⟨pd, pi, pa, pt⟩ := p
  obtain ⟨sd, si, stx, sa⟩ := s
  obtain ⟨hd, hi, ht, ha⟩ := h
  simp only at hd hi ht ha
  subst hd
  unfold smilPage slideStep
  have h1 : smilImage env ⟨pd, pi, pa, pt⟩ st.uid = .ok (imgNode st.uid ⟨pd, si, stx, sa⟩) := by
    unfold smilImage imgNode
    cases hi with
    | none => rfl
    | some part b e src hs => simp only [srcOf_ok hs, bind, Except.bind, timing_eq]; rfl
  have h2 : smilText env ⟨pd, pi, pa, pt⟩ (st.uid + 1) = .ok (txtNode (st.uid + 1) ⟨pd, si, stx, sa⟩) := by
    unfold smilText txtNode
    cases ht with
    | none => rfl
    | some part b e src hs => simp only [hs, bind, Except.bind, timing_eq]; rfl
  simp only [h1, h2, bind, Except.bind]
  cases ha with
  | none =>
    cases txtNode (st.uid + 1) ⟨pd, si, stx, none⟩ <;> rfl
  | some part b e src hs =>
    simp only [srcOf_ok hs]
    have himg : ∀ u, u ≠ st.uid → removeNode u (imgNode st.uid ⟨pd, si, stx, some ⟨src, b, e⟩⟩) = imgNode st.uid ⟨pd, si, stx, some ⟨src, b, e⟩⟩ :=
      fun u hu => removeNode_ne (fun n hn => by rw [imgNode_uid hn]; exact fun h => hu h.symm)
    cases htx : txtNode (st.uid + 1) ⟨pd, si, stx, some ⟨src, b, e⟩⟩ with
    | some t =>
      have hu := txtNode_uid htx
      have hr : removeNode t.uid (imgNode st.uid ⟨pd, si, stx, some ⟨src, b, e⟩⟩ ++ [t]) =
          imgNode st.uid ⟨pd, si, stx, some ⟨src, b, e⟩⟩ := by
        have h0 := himg t.uid (by omega)
        unfold removeNode at h0 ⊢
        rw [List.filter_append, h0]
        simp
      simp only [Option.some_or, hr, audNode, timing_eq, Option.toList_some, List.map_cons, List.map_nil, List.cons_append, List.nil_append]
    | none =>
      cases htn : st.textNode with
      | none => rfl
      | some t =>
        have := hlt t htn
        simp only [Option.none_or, List.append_nil, himg t.uid (by omega), audNode, timing_eq, Option.toList_some, List.map_cons, List.map_nil, List.cons_append, List.nil_append]

/-- the slide of the last text -/
def Cur (pre : List Slide) (i : Nat) : Prop :=
  (∃ s, pre[i]? = some s ∧ s.text.isSome) ∧ ∀ k s, i < k → pre[k]? = some s → s.text = none

theorem Cur.lt {pre : List Slide} {i : Nat} (h : Cur pre i) : i < pre.length := by
  obtain ⟨⟨s, h, _⟩, _⟩ := h
  exact (List.getElem?_eq_some_iff.1 h).1

theorem Cur.unique {pre : List Slide} {i i' : Nat} (h : Cur pre i) (h' : Cur pre i') : i = i' := by
  obtain ⟨⟨s, h1, h2⟩, h3⟩ := h
  obtain ⟨⟨s', h1', h2'⟩, h3'⟩ := h'
  rcases Nat.lt_trichotomy i i' with hlt | he | hlt
  · rw [h3 i' s' hlt h1'] at h2'; cases h2'
  · exact he
  · rw [h3' i s hlt h1] at h2; cases h2

theorem lastText_unique {l : List Slide} {j i i' : Nat} (h : LastText l j i) (h' : LastText l j i') : i = i' := by
  obtain ⟨h0, ⟨s, h1, h2⟩, h3⟩ := h
  obtain ⟨h0', ⟨s', h1', h2'⟩, h3'⟩ := h'
  rcases Nat.lt_trichotomy i i' with hlt | he | hlt
  · rw [h3 i' s' hlt h0' h1'] at h2'; cases h2'
  · exact he
  · rw [h3' i s hlt h0 h1] at h2; cases h2

theorem getElem?_snoc {α : Type} (pre : List α) (s : α) (k : Nat) :
    (pre ++ [s])[k]? = if k < pre.length then pre[k]? else if k = pre.length then some s else none := by
  split
  · rename_i h; rw [List.getElem?_append_left h]
  · rename_i h
    rw [List.getElem?_append_right (by omega)]
    split
    · rename_i h2; subst h2; simp
    · rw [List.getElem?_eq_none]; simp; omega

theorem lastText_snoc {pre : List Slide} {s : Slide} {j i : Nat} (hj : j < pre.length) :
    LastText (pre ++ [s]) j i ↔ LastText pre j i := by
  unfold LastText
  constructor
  · rintro ⟨h0, ⟨x, h1, h2⟩, h3⟩
    refine ⟨h0, ⟨x, ?_, h2⟩, fun k y hk hk' hy => h3 k y hk hk' ?_⟩
    · rwa [getElem?_snoc, if_pos (by omega)] at h1
    · rwa [getElem?_snoc, if_pos (by omega)]
  · rintro ⟨h0, ⟨x, h1, h2⟩, h3⟩
    refine ⟨h0, ⟨x, ?_, h2⟩, fun k y hk hk' hy => h3 k y hk hk' ?_⟩
    · rwa [getElem?_snoc, if_pos (by omega)]
    · rwa [getElem?_snoc, if_pos (by omega)] at hy

/-- at the last slide -/
theorem lastText_end {pre : List Slide} {s : Slide} {i : Nat} : LastText (pre ++ [s]) pre.length i ↔ Cur (pre ++ [s]) i := by
  constructor
  · rintro ⟨h0, h1, h3⟩
    refine ⟨h1, fun k y hk hy => h3 k y hk ?_ hy⟩
    have := (List.getElem?_eq_some_iff.1 hy).1
    simp at this; omega
  · rintro h
    have := h.lt
    simp at this
    exact ⟨by omega, h.1, fun k y hk _ hy => h.2 k y hk hy⟩

theorem cur_snoc {pre : List Slide} {s : Slide} {i : Nat} :
    Cur (pre ++ [s]) i ↔ (s.text.isSome ∧ i = pre.length) ∨ (s.text = none ∧ Cur pre i) := by
  constructor
  · intro h
    have hl := h.lt
    simp only [List.length_append, List.length_singleton] at hl
    obtain ⟨⟨x, h1, h2⟩, h3⟩ := h
    by_cases hi : i = pre.length
    · subst hi
      rw [getElem?_snoc, if_neg (by omega), if_pos rfl] at h1
      cases h1
      exact .inl ⟨h2, rfl⟩
    · refine .inr ⟨h3 pre.length s (by omega) (by rw [getElem?_snoc, if_neg (by omega), if_pos rfl]), ⟨x, ?_, h2⟩, ?_⟩
      · rwa [getElem?_snoc, if_pos (by omega)] at h1
      · intro k y hk hy
        have := (List.getElem?_eq_some_iff.1 hy).1
        exact h3 k y hk (by rwa [getElem?_snoc, if_pos (by omega)])
  · rintro (⟨h1, rfl⟩ | ⟨h1, h2⟩)
    · refine ⟨⟨s, by rw [getElem?_snoc, if_neg (by omega), if_pos rfl], h1⟩, fun k y hk hy => ?_⟩
      rw [getElem?_snoc, if_neg (by omega), if_neg (by omega)] at hy
      cases hy
    · obtain ⟨⟨x, h3, h4⟩, h5⟩ := h2
      have := (List.getElem?_eq_some_iff.1 h3).1
      refine ⟨⟨x, by rwa [getElem?_snoc, if_pos (by omega)], h4⟩, fun k y hk hy => ?_⟩
      rw [getElem?_snoc] at hy
      split at hy
      · exact h5 k y hk hy
      · split at hy
        · cases hy; exact h1
        · cases hy

theorem textShown_snoc {pre : List Slide} {s : Slide} {j i : Nat} (hj : j < pre.length) :
    TextShown (pre ++ [s]) j i ↔ TextShown pre j i ∧ (Cur (pre ++ [s]) i → s.audio = none) := by
  unfold TextShown
  rw [lastText_snoc hj, getElem?_snoc, if_pos hj]
  constructor
  · rintro ⟨h1, h2, h3⟩
    refine ⟨⟨h1, h2, fun k y hk hy hl => h3 k y hk ?_ ?_⟩, fun hc => h3 pre.length s hj ?_ (lastText_end.2 hc)⟩
    · have := (List.getElem?_eq_some_iff.1 hy).1
      rwa [getElem?_snoc, if_pos (by omega)]
    · have := (List.getElem?_eq_some_iff.1 hy).1
      rwa [lastText_snoc (by omega)]
    · rw [getElem?_snoc, if_neg (by omega), if_pos rfl]
  · rintro ⟨⟨h1, h2, h3⟩, h4⟩
    refine ⟨h1, h2, fun k y hk hy hl => ?_⟩
    rw [getElem?_snoc] at hy
    split at hy
    · rename_i hlt
      exact h3 k y hk hy ((lastText_snoc hlt).1 hl)
    · split at hy
      · rename_i he
        cases hy
        subst he
        exact h4 (lastText_end.1 hl)
      · cases hy

theorem textShown_end {pre : List Slide} {s : Slide} {i : Nat} :
    TextShown (pre ++ [s]) pre.length i ↔ Cur (pre ++ [s]) i ∧ (i = pre.length ∨ s.audio.isSome) := by
  unfold TextShown
  rw [lastText_end]
  have hg : (pre ++ [s])[pre.length]? = some s := by rw [getElem?_snoc, if_neg (by omega), if_pos rfl]
  constructor
  · rintro ⟨h1, h2, _⟩
    refine ⟨h1, h2.imp id ?_⟩
    rintro ⟨x, hx, h⟩
    rw [hg] at hx
    cases hx
    exact h
  · rintro ⟨h1, h2⟩
    refine ⟨h1, h2.imp id (fun h => ⟨s, hg, h⟩), fun k y hk hy _ => ?_⟩
    rw [getElem?_snoc, if_neg (by omega), if_neg (by omega)] at hy
    cases hy

/-- the children of the `par` of slide `j` -/
def Kids (pre : List Slide) (j : Nat) (s : Slide) (kids : List MediaNode) : Prop :=
  ∃ t, kids = imgNode (3 * j) s ++ t ++ audNode (3 * j + 2) s ∧
    (∀ i si, TextShown pre j i → pre[i]? = some si → t = (txtNode (3 * i + 1) si).toList) ∧
    ((∀ i, ¬ TextShown pre j i) → t = [])

structure Inv (pre : List Slide) (st : SmilSt) : Prop where
  uid : st.uid = 3 * pre.length
  cur : ∀ i si, Cur pre i → pre[i]? = some si → st.textNode = txtNode (3 * i + 1) si
  noText : (∀ i, ¬ Cur pre i) → st.textNode = none
  len : st.pars.length = pre.length
  pars : ∀ (j : Nat) (s : Slide) (p : ParNode), pre[j]? = some s → st.pars[j]? = some p → p.duration = s.duration ∧ Kids pre j s p.kids

theorem Inv.lt {pre : List Slide} {st : SmilSt} (h : Inv pre st) : ∀ t, st.textNode = some t → t.uid < st.uid := by
  intro t ht
  by_cases hc : ∃ i, Cur pre i
  · obtain ⟨i, hi⟩ := hc
    obtain ⟨si, hsi, _⟩ := hi.1
    rw [h.cur i si hi hsi] at ht
    have := txtNode_uid ht
    have := hi.lt
    rw [h.uid]; omega
  · rw [h.noText (fun i hi => hc ⟨i, hi⟩)] at ht
    cases ht

theorem txtNode_isSome {u : Nat} {s : Slide} : (txtNode u s).isSome = s.text.isSome := by
  simp [txtNode]

/-- the text node after a slide -/
theorem Inv.node {pre : List Slide} {st : SmilSt} (h : Inv pre st) (s : Slide) :
    (∀ i si, Cur (pre ++ [s]) i → (pre ++ [s])[i]? = some si → (txtNode (st.uid + 1) s).or st.textNode = txtNode (3 * i + 1) si) ∧
    ((∀ i, ¬ Cur (pre ++ [s]) i) → (txtNode (st.uid + 1) s).or st.textNode = none) := by
  constructor
  · intro i si hc hi
    rcases cur_snoc.1 hc with ⟨h1, rfl⟩ | ⟨h1, h2⟩
    · rw [getElem?_snoc, if_neg (by omega), if_pos rfl] at hi
      cases hi
      rw [h.uid]
      have : (txtNode (3 * pre.length + 1) s).isSome := by rw [txtNode_isSome]; exact h1
      obtain ⟨t, ht⟩ := Option.isSome_iff_exists.1 this
      rw [ht]; rfl
    · rw [getElem?_snoc, if_pos h2.lt] at hi
      have : txtNode (st.uid + 1) s = none := by simp [txtNode, h1]
      rw [this, Option.none_or]
      exact h.cur i si h2 hi
  · intro hn
    have h1 : s.text = none := by
      cases ht : s.text with
      | none => rfl
      | some m => exact absurd (cur_snoc.2 (.inl ⟨by rw [ht]; rfl, rfl⟩)) (hn pre.length)
    have : txtNode (st.uid + 1) s = none := by simp [txtNode, h1]
    rw [this, Option.none_or]
    exact h.noText (fun i hi => hn i (cur_snoc.2 (.inr ⟨h1, hi⟩)))

theorem textShown_lt {pre : List Slide} {j i : Nat} (h : TextShown pre j i) : j < pre.length := by
  obtain ⟨⟨_, ⟨s, h1, _⟩, _⟩, h2, _⟩ := h
  rcases h2 with rfl | ⟨x, hx, _⟩
  · exact (List.getElem?_eq_some_iff.1 h1).1
  · exact (List.getElem?_eq_some_iff.1 hx).1

theorem removeNode_kids {u j : Nat} {s : Slide} {t : List MediaNode} (hu : u % 3 = 1) :
    removeNode u (imgNode (3 * j) s ++ t ++ audNode (3 * j + 2) s) =
      imgNode (3 * j) s ++ removeNode u t ++ audNode (3 * j + 2) s := by
  have h1 := removeNode_ne (uid := u) (l := imgNode (3 * j) s) (fun n hn => by rw [imgNode_uid hn]; omega)
  have h2 := removeNode_ne (uid := u) (l := audNode (3 * j + 2) s) (fun n hn => by rw [audNode_uid hn]; omega)
  unfold removeNode at h1 h2 ⊢
  rw [List.filter_append, List.filter_append, h1, h2]

theorem removeNode_txt {i i' : Nat} {s : Slide} : removeNode (3 * i + 1) (txtNode (3 * i' + 1) s).toList =
    if i = i' then [] else (txtNode (3 * i' + 1) s).toList := by
  cases h : txtNode (3 * i' + 1) s with
  | none => simp [removeNode]
  | some t =>
    have := txtNode_uid h
    split
    · rename_i he; subst he
      simp [removeNode, this]
    · rename_i he
      exact removeNode_ne (fun n hn => by
        simp only [Option.toList_some, List.mem_singleton] at hn
        subst hn; omega)

theorem slideStep_ok {pre : List Slide} {st : SmilSt} (h : Inv pre st) (s : Slide)
    (ha : s.audio.isSome → ∃ i, Cur (pre ++ [s]) i) : ∃ st', slideStep st s = .ok st' ∧ Inv (pre ++ [s]) st' := by
  have hnode := h.node s
  have hlen : (pre ++ [s]).length = pre.length + 1 := by simp
  unfold slideStep
  cases hau : s.audio with
  | none =>
    refine ⟨_, rfl, ?_, hnode.1, hnode.2, ?_, ?_⟩
    · simp only [h.uid, hlen]; omega
    · simp [h.len]
    · intro j sj p hj hp
      simp only at hp
      rw [getElem?_snoc] at hj hp
      rw [h.len] at hp
      by_cases hjl : j < pre.length
      · rw [if_pos hjl] at hj hp
        obtain ⟨h1, t, h2, h3, h4⟩ := h.pars j sj p hj hp
        refine ⟨h1, t, h2, ?_, ?_⟩
        · intro i si hs hi
          have hs' := ((textShown_snoc hjl).1 hs).1
          have : i < pre.length := Nat.lt_of_le_of_lt hs'.1.1 hjl
          rw [getElem?_snoc, if_pos this] at hi
          exact h3 i si hs' hi
        · intro hn
          exact h4 (fun i hi => hn i ((textShown_snoc hjl).2 ⟨hi, fun _ => hau⟩))
      · rw [if_neg hjl] at hj hp
        split at hj
        · rename_i he
          subst he
          rw [if_pos rfl] at hp
          cases hj; cases hp
          refine ⟨rfl, (txtNode (st.uid + 1) s).toList, ?_, ?_, ?_⟩
          · have : audNode (3 * pre.length + 2) s = [] := by simp [audNode, hau]
            rw [this, List.append_nil, h.uid]
          · intro i si hs hi
            obtain ⟨hc, h2⟩ := textShown_end.1 hs
            rcases h2 with rfl | h2
            · rw [getElem?_snoc, if_neg (by omega), if_pos rfl] at hi
              cases hi
              rw [h.uid]
            · rw [hau] at h2; cases h2
          · intro hn
            have : s.text = none := by
              cases ht : s.text with
              | none => rfl
              | some m =>
                exact absurd (textShown_end.2 ⟨cur_snoc.2 (.inl ⟨by rw [ht]; rfl, rfl⟩), .inl rfl⟩) (hn pre.length)
            simp [txtNode, this]
        · cases hj
  | some au =>
    obtain ⟨i, hi⟩ := ha (by rw [hau]; rfl)
    obtain ⟨si, hsi, hst⟩ := hi.1
    have hcur := hnode.1 i si hi hsi
    have hsome : (txtNode (3 * i + 1) si).isSome := by rw [txtNode_isSome]; exact hst
    obtain ⟨t, ht⟩ := Option.isSome_iff_exists.1 hsome
    have hu := txtNode_uid ht
    rw [ht] at hcur
    simp only [hcur]
    refine ⟨_, rfl, ?_, ?_, ?_, ?_, ?_⟩
    · simp only [h.uid, hlen]; omega
    · intro i' si' h1 h2
      simp only
      have := hnode.1 i' si' h1 h2
      rw [hcur] at this
      exact this
    · intro hn; exact absurd hi (hn i)
    · simp [h.len]
    · intro j sj p hj hp
      simp only at hp
      rw [getElem?_snoc] at hj hp
      rw [List.length_map, h.len] at hp
      by_cases hjl : j < pre.length
      · rw [if_pos hjl] at hj hp
        rw [List.getElem?_map] at hp
        obtain ⟨q, hq, rfl⟩ := Option.map_eq_some_iff.1 hp
        obtain ⟨h1, tt, h2, h3, h4⟩ := h.pars j sj q hj hq
        refine ⟨h1, removeNode t.uid tt, ?_, ?_, ?_⟩
        · simp only [h2]
          exact removeNode_kids (by omega)
        · intro i' si' hs hi'
          obtain ⟨hs', hx⟩ := (textShown_snoc hjl).1 hs
          have hlt : i' < pre.length := Nat.lt_of_le_of_lt hs'.1.1 hjl
          rw [getElem?_snoc, if_pos hlt] at hi'
          rw [h3 i' si' hs' hi', hu, removeNode_txt, if_neg]
          rintro rfl
          have := hx hi
          rw [hau] at this
          cases this
        · intro hn
          by_cases hs : ∃ i', TextShown pre j i'
          · obtain ⟨i', hs⟩ := hs
            obtain ⟨si', hsi', _⟩ := hs.1.2.1
            have he : i = i' := by
              by_contra hne
              refine hn i' ((textShown_snoc hjl).2 ⟨hs, fun hc => absurd (hi.unique hc) hne⟩)
            rw [h3 i' si' hs hsi', hu, removeNode_txt, if_pos he]
          · rw [h4 (fun i' hs' => hs ⟨i', hs'⟩)]
            rfl
      · rw [if_neg hjl] at hj hp
        split at hj
        · rename_i he
          subst he
          rw [if_pos rfl] at hp
          cases hj; cases hp
          refine ⟨rfl, [t], ?_, ?_, ?_⟩
          · simp only [h.uid, List.append_assoc, List.cons_append, List.nil_append]
          · intro i' si' hs hi'
            obtain ⟨hc, _⟩ := textShown_end.1 hs
            have := hi.unique hc
            subst this
            rw [hsi] at hi'
            cases hi'
            rw [ht]; rfl
          · intro hn
            exact absurd (textShown_end.2 ⟨hi, .inr (by rw [hau]; rfl)⟩) (hn i)
        · cases hj

theorem slideStep_err {pre : List Slide} {st : SmilSt} (h : Inv pre st) (s : Slide)
    (ha : s.audio.isSome) (hn : ∀ i, ¬ Cur (pre ++ [s]) i) : slideStep st s = .error .nameError := by
  unfold slideStep
  obtain ⟨m, hm⟩ := Option.isSome_iff_exists.1 ha
  simp only [hm, (h.node s).2 hn]

theorem inv_start : Inv [] { pars := [], textNode := none, uid := 0 } where
  uid := rfl
  cur := fun i si _ hi => by simp at hi
  noText := fun _ => rfl
  len := rfl
  pars := fun j s p hj => by simp at hj

theorem lastText_append {pre post : List Slide} {j i : Nat} (hj : j < pre.length) :
    LastText (pre ++ post) j i ↔ LastText pre j i := by
  unfold LastText
  constructor
  · rintro ⟨h0, ⟨x, h1, h2⟩, h3⟩
    refine ⟨h0, ⟨x, ?_, h2⟩, fun k y hk hk' hy => h3 k y hk hk' ?_⟩
    · rwa [List.getElem?_append_left (by omega)] at h1
    · rwa [List.getElem?_append_left (by omega)]
  · rintro ⟨h0, ⟨x, h1, h2⟩, h3⟩
    refine ⟨h0, ⟨x, ?_, h2⟩, fun k y hk hk' hy => h3 k y hk hk' ?_⟩
    · rwa [List.getElem?_append_left (by omega)]
    · rwa [List.getElem?_append_left (by omega)] at hy

theorem smilPages_inv {env : Env} {ps : List Page} {ss : List Slide} (h : List.Forall₂ (PageIs env) ps ss) :
    ∀ (pre : List Slide) (st : SmilSt), Inv pre st →
      ((∀ j s, pre.length ≤ j → (pre ++ ss)[j]? = some s → s.audio.isSome → ∃ i, LastText (pre ++ ss) j i) →
        ∃ st', smilPages env st ps = .ok st' ∧ Inv (pre ++ ss) st') ∧
      ((∃ j s, pre.length ≤ j ∧ (pre ++ ss)[j]? = some s ∧ s.audio.isSome ∧ ∀ i, ¬ LastText (pre ++ ss) j i) →
        smilPages env st ps = .error .nameError) := by
  induction h with
  | nil =>
    intro pre st hi
    refine ⟨fun _ => ⟨st, rfl, by simpa using hi⟩, ?_⟩
    rintro ⟨j, s, hj, hs, _⟩
    rw [List.append_nil] at hs
    have := (List.getElem?_eq_some_iff.1 hs).1
    omega
  | @cons p s ps ss h1 h2 ih =>
    intro pre st hi
    have happ : pre ++ s :: ss = (pre ++ [s]) ++ ss := by simp
    have hcur : ∀ i, LastText (pre ++ s :: ss) pre.length i ↔ Cur (pre ++ [s]) i := by
      intro i
      rw [happ, lastText_append (by simp), lastText_end]
    have hget : (pre ++ s :: ss)[pre.length]? = some s := by simp
    rw [smilPages, smilPage_slide h1 st hi.lt]
    by_cases ha : s.audio.isSome → ∃ i, Cur (pre ++ [s]) i
    · obtain ⟨st1, e1, i1⟩ := slideStep_ok hi s ha
      rw [e1]
      obtain ⟨a1, a2⟩ := ih (pre ++ [s]) st1 i1
      simp only [bind, Except.bind]
      rw [happ]
      refine ⟨fun hall => a1 (fun j x hj => hall j x (by simp at hj; omega)), ?_⟩
      rintro ⟨j, x, hj, hx, hau, hn⟩
      refine a2 ⟨j, x, ?_, hx, hau, hn⟩
      by_contra hc
      have hje : j = pre.length := by simp at hc; omega
      subst hje
      rw [← happ] at hx hn
      rw [hget] at hx
      cases hx
      obtain ⟨i, hi⟩ := ha hau
      exact hn i ((hcur i).2 hi)
    · push Not at ha
      obtain ⟨hau, hn⟩ := ha
      rw [slideStep_err hi s hau hn]
      refine ⟨fun hall => ?_, fun _ => rfl⟩
      obtain ⟨i, hi⟩ := hall pre.length s (by omega) hget hau
      exact absurd ((hcur i).1 hi) (hn i)

theorem arranged_of_kids {pre : List Slide} {j : Nat} {s : Slide} {kids : List MediaNode} (h : Kids pre j s kids) :
    Arranged pre j s (kids.map (fun n => (n.tag, n.attrs))) := by
  obtain ⟨t, rfl, h1, h2⟩ := h
  refine ⟨t.map (fun n => (n.tag, n.attrs)), ?_, ?_, ?_⟩
  · simp [imgNode, audNode, Spec.Slides.Slide.imageElems, Spec.Slides.Slide.audioElems, Function.comp_def]
  · intro i si hs hi
    rw [h1 i si hs hi]
    cases ht : si.text <;> simp [txtNode, Spec.Slides.Slide.textElems, ht]
  · intro hn
    rw [h2 hn]; rfl

end Verif.Mms

import Verif.Proofs.SmilExact2
/-!
# Lemmas: the SMIL text with labels of any type: writing it
-/
set_option autoImplicit false

namespace Verif.Mms
open Verif.Props (write_empty write_full attr_eq escape_eq)

/-! ### the same document as in the simpler model -/

theorem step_sim {env : Env} {st st' : SmilX} {p : PageX} {q : Page} (h : Step st p st') (hs : PageSim env p q)
    (hb : ∀ vs, Values p vs → ∀ v ∈ vs, badOf v = none) : smilPage env st.lower q = .ok st'.lower := by
  have himg : ∀ img, smilImageX p st.uid = .ok img → smilImage env q st.uid = .ok (img.map NodeX.lower) := by
    intro img hi
    refine imageSim hs hi ?_
    intro n hn
    cases h with
    | quiet img' txt hi' ht ha =>
      rw [hi] at hi'
      cases hi'
      refine hb (img.map NodeX.src) ?_ _ (List.mem_map_of_mem hn)
      unfold Values
      rw [ha]
      simpa using (image_nodes hi).2.2
    | loud img' txt hi' ht src b e ha t htn =>
      rw [hi] at hi'
      cases hi'
      refine hb (img.map NodeX.src ++ [src]) ?_ _ (List.mem_append_left _ (List.mem_map_of_mem hn))
      unfold Values
      rw [ha]
      exact List.rel_append (image_nodes hi).2.2 (.cons rfl .nil)
  unfold smilPage
  have hu : st.lower.uid = st.uid := rfl
  cases h with
  | quiet img txt hi ht ha =>
    have h1 := himg img hi
    have h2 := textSim hs ht
    have h3 : q.audio = none := by
      have := hs.audio
      rw [ha] at this
      cases hq : q.audio with
      | none => rfl
      | some x => rw [hq] at this; cases this
    simp only [hu, h1, h2, h3, bind, Except.bind]
    cases txt <;> simp [SmilX.lower, ParX.lower, hs.duration]
  | loud img txt hi ht src b e ha t htn =>
    have h1 := himg img hi
    have h2 := textSim hs ht
    obtain ⟨c, h3, h4⟩ : ∃ c, q.audio = some (c, b, e) ∧ srcOf env c = .ok (charsOf src) := by
      have := hs.audio
      rw [ha] at this
      cases hq : q.audio with
      | none => rw [hq] at this; cases this
      | some x =>
        rw [hq] at this
        cases this with
        | some _ c _ _ hr =>
          refine ⟨c, rfl, hr src rfl ?_⟩
          refine hb (img.map NodeX.src ++ [src]) ?_ _ (List.mem_append_right _ (List.mem_singleton.2 rfl))
          unfold Values
          rw [ha]
          exact List.rel_append (image_nodes hi).2.2 (.cons rfl .nil)
    have hr : ∀ (u : Nat) (l : List ParX), (l.map (fun p => ({ p with kids := removeNodeX u p.kids } : ParX))).map ParX.lower =
        (l.map ParX.lower).map (fun p => ({ p with kids := removeNode u p.kids } : ParNode)) := by
      intro u l
      rw [List.map_map, List.map_map]
      refine List.map_congr_left ?_
      intro x _
      simp only [Function.comp, ParX.lower, lower_remove]
    simp only [hu, h1, h2, h3, h4, bind, Except.bind]
    cases txt with
    | none =>
      have htn : st.textNode = some t := htn
      have htl : st.lower.textNode = some t.lower := by simp only [SmilX.lower, htn, Option.map_some]
      simp only [Option.map_none, htl]
      simp only [SmilX.lower, List.map_append, hr, Option.map_some]
      simp [ParX.lower, lower_remove, NodeX.lower, hs.duration]
    | some t' =>
      cases htn
      simp only [Option.map_some]
      simp only [SmilX.lower, List.map_append, hr, Option.map_some]
      simp [ParX.lower, lower_remove, NodeX.lower, hs.duration]

/-- the values of all pages, in order -/
def AllValues (ps : List PageX) (vs : List HVal) : Prop := ∃ l, List.Forall₂ Values ps l ∧ vs = l.flatten

/-- the texts of all pages, in order -/
def AllTexts (ps : List PageX) (ts : List PyStr) : Prop := ∃ l, List.Forall₂ Texts ps l ∧ ts = l.flatten

theorem pages_has {ps : List PageX} {st st' : SmilX} {l : List NodeX} (h : smilPagesX st ps = .ok st')
    (hl : Has st l) : ∃ new vs ts, Has st' (l ++ new) ∧ AllValues ps vs ∧ AllTexts ps ts ∧
      (new.filter (fun n => n.tag ≠ py! "text")).map NodeX.src = vs ∧
      (new.filter (fun n => n.tag = py! "text")).map NodeX.src = ts.map strVal := by
  induction ps generalizing st l with
  | nil =>
    cases h
    exact ⟨[], [], [], by rw [List.append_nil]; exact hl, ⟨[], .nil, rfl⟩, ⟨[], .nil, rfl⟩, rfl, rfl⟩
  | cons p ps ih =>
    obtain ⟨st1, h1, h2⟩ := bind_ok_invE h
    obtain ⟨n1, v1, t1, a1, a2, a3, a4, a5⟩ := step_has ((step_iff _ _ _).1 h1) hl
    obtain ⟨n2, v2, t2, b1, ⟨lv, b2, rfl⟩, ⟨lt, b3, rfl⟩, b4, b5⟩ := ih h2 a1
    refine ⟨n1 ++ n2, v1 ++ lv.flatten, t1 ++ lt.flatten, by rw [← List.append_assoc]; exact b1, ⟨v1 :: lv, .cons a2 b2, by simp⟩,
      ⟨t1 :: lt, .cons a3 b3, by simp⟩, ?_, ?_⟩
    · rw [List.filter_append, List.map_append, a4, b4]
    · rw [List.filter_append, List.map_append, a5, b5, List.map_append]

theorem values_unique {p : PageX} {a b : List HVal} (ha : Values p a) (hb : Values p b) : a = b := by
  unfold Values at ha hb
  generalize p.image.toList ++ p.audio.toList = l at ha hb
  induction ha generalizing b with
  | nil => cases hb; rfl
  | cons h1 _ ih =>
    cases hb with
    | cons h2 h3 =>
      rw [h1] at h2
      cases h2
      rw [ih h3]

theorem pages_sim {env : Env} {ps : List PageX} {qs : List Page} {st st' : SmilX} (h : smilPagesX st ps = .ok st')
    (hs : List.Forall₂ (PageSim env) ps qs) (hb : ∀ vs, AllValues ps vs → ∀ v ∈ vs, badOf v = none)
    {l : List NodeX} (hl : Has st l) : smilPages env st.lower qs = .ok st'.lower := by
  induction hs generalizing st l with
  | nil => cases h; rfl
  | @cons p q ps qs h1 h2 ih =>
    obtain ⟨st1, g1, g2⟩ := bind_ok_invE h
    have hst := (step_iff _ _ _).1 g1
    obtain ⟨n1, v1, t1, a1, a2, -, -, -⟩ := step_has hst hl
    obtain ⟨n2, v2, t2, -, ⟨lv, b2, rfl⟩, -, -, -⟩ := pages_has g2 a1
    have key := hb (v1 ++ lv.flatten) ⟨v1 :: lv, .cons a2 b2, by simp⟩
    have s1 := step_sim hst h1 (fun vs hvs v hv => by
      rw [values_unique hvs a2] at hv
      exact key v (List.mem_append_left _ hv))
    have s2 := ih g2 (fun vs ⟨l', hl', e⟩ v hv => by
      have := hb (v1 ++ vs) ⟨v1 :: l', .cons a2 hl', by simp [e]⟩
      exact this v (List.mem_append_right _ hv)) a1
    simp only [smilPages, s1, bind, Except.bind, s2]

/-! ### writing -/

/-- a value that makes the text `unicode` -/
def IsUni (v : HVal) : Prop := ∃ s, v = .v (.uni s) ∧ s ≠ []
/-- a value with octets that are not ASCII -/
def NotAscii (v : HVal) : Prop := ∃ s, v = .v (.str s) ∧ ∃ c ∈ s, 127 < c

/-- chunks of type `str` that are not ASCII -/
def notAscii (l : List Chunk) : Bool := l.any (fun c => !c.isUni && c.chars.any (127 < ·))

/-- the chunks are for this text with these values -/
def Writes (r : Py (List Chunk)) (text : Str) (vs : List HVal) : Prop :=
  (∃ e, vs.findSome? badOf = some e ∧ r = .error e) ∨
  (vs.findSome? badOf = none ∧ ∃ l, r = .ok l ∧ l.flatMap Chunk.chars = text ∧
    (l.any Chunk.isUni = true ↔ ∃ v ∈ vs, IsUni v) ∧ (notAscii l = true ↔ ∃ v ∈ vs, NotAscii v))

theorem writes_nil : Writes (.ok []) [] [] :=
  .inr ⟨rfl, [], rfl, rfl, by simp, by simp [notAscii]⟩

theorem writes_append {r1 r2 : Py (List Chunk)} {t1 t2 : Str} {v1 v2 : List HVal} (h1 : Writes r1 t1 v1) (h2 : Writes r2 t2 v2) :
    Writes (do let a ← r1; let b ← r2; .ok (a ++ b)) (t1 ++ t2) (v1 ++ v2) := by
  rcases h1 with ⟨e, a1, rfl⟩ | ⟨a1, l, rfl, a2, a3, a4⟩
  · exact .inl ⟨e, by rw [List.findSome?_append, a1]; rfl, rfl⟩
  · rcases h2 with ⟨e, b1, rfl⟩ | ⟨b1, l', rfl, b2, b3, b4⟩
    · exact .inl ⟨e, by rw [List.findSome?_append, a1, b1]; rfl, rfl⟩
    · refine .inr ⟨by rw [List.findSome?_append, a1, b1]; rfl, l ++ l', rfl, by rw [List.flatMap_append, a2, b2], ?_, ?_⟩
      · rw [List.any_append, Bool.or_eq_true, a3, b3]
        simp only [List.mem_append, or_and_right, exists_or]
      · unfold notAscii at a4 b4 ⊢
        rw [List.any_append, Bool.or_eq_true, a4, b4]
        simp only [List.mem_append, or_and_right, exists_or]

theorem not_ascii_str {s : Str} (h : ∀ c ∈ s, c ≤ 127) : notAscii [.str s] = false := by
  simp only [notAscii, List.any_cons, List.any_nil, Bool.or_false, Chunk.isUni, Chunk.chars, Bool.not_false, Bool.true_and]
  rw [← Bool.not_eq_true]
  simpa using h

theorem writes_wrap {r : Py (List Chunk)} {t : Str} {vs : List HVal} {pre post : Str} (h : Writes r t vs)
    (h1 : ∀ c ∈ pre, c ≤ 127) (h2 : ∀ c ∈ post, c ≤ 127) :
    Writes (do let c ← r; .ok ([.str pre] ++ c ++ [.str post])) (pre ++ t ++ post) vs := by
  rcases h with ⟨e, a1, rfl⟩ | ⟨a1, l, rfl, a2, a3, a4⟩
  · exact .inl ⟨e, a1, rfl⟩
  · refine .inr ⟨a1, [.str pre] ++ l ++ [.str post], rfl, ?_, ?_, ?_⟩
    · rw [List.flatMap_append, List.flatMap_append, a2]
      simp [Chunk.chars]
    · rw [List.any_append, List.any_append, ← a3]
      simp [Chunk.isUni]
    · have e1 := not_ascii_str h1
      have e2 := not_ascii_str h2
      unfold notAscii at a4 e1 e2 ⊢
      rw [List.any_append, List.any_append, ← a4, e1, e2]
      simp

theorem escape_ascii {s : Str} : (∃ c ∈ xmlEscape s, 127 < c) ↔ ∃ c ∈ s, 127 < c := by
  unfold xmlEscape
  constructor
  · rintro ⟨c, hc, h⟩
    obtain ⟨x, hx, hc⟩ := List.mem_flatMap.1 hc
    refine ⟨x, hx, ?_⟩
    repeat' split at hc
    all_goals first
      | (simp only [List.mem_cons, List.not_mem_nil, or_false] at hc; omega)
  · rintro ⟨c, hc, h⟩
    refine ⟨c, List.mem_flatMap.2 ⟨c, hc, ?_⟩, h⟩
    rw [if_neg (by omega), if_neg (by omega), if_neg (by omega), if_neg (by omega)]
    simp

theorem writes_data (v : HVal) : Writes (writeData v) (xmlEscape (charsOf v)) [v] := by
  cases h : writeData v with
  | error e => exact .inl ⟨e, by simp [badOf, h], rfl⟩
  | ok l =>
    obtain ⟨h1, h2, h3, h4⟩ := writeData_ok h
    refine .inr ⟨by simp [badOf, h], l, rfl, h1, ?_, ?_⟩
    · rw [h2]
      simp only [List.mem_singleton, exists_eq_left, IsUni]
    · simp only [List.mem_singleton, exists_eq_left, NotAscii, notAscii, List.any_eq_true, Bool.and_eq_true,
        Bool.not_eq_true', decide_eq_true_eq]
      constructor
      · rintro ⟨c, hc, hu, x, hx, hlt⟩
        obtain ⟨s, rfl, rfl⟩ := h3 c hc hu
        exact ⟨s, rfl, escape_ascii.1 ⟨x, hx, hlt⟩⟩
      · rintro ⟨s, rfl, hs⟩
        obtain ⟨x, hx, hlt⟩ := escape_ascii.2 hs
        refine ⟨_, h4 s rfl ?_, rfl, x, hx, hlt⟩
        rintro rfl
        obtain ⟨_, hc, _⟩ := hs
        cases hc

theorem insert_src {x : Str} {l : Dict Str} (h : ∀ a ∈ l, strLe (py! "src") a.1 = false) :
    insertAttr (py! "src", x) l = l ++ [(py! "src", x)] := by
  induction l with
  | nil => rfl
  | cons b l ih =>
    have hb := h b (by simp)
    simp only [insertAttr, List.cons_append]
    rw [hb, ih (fun a ha => h a (List.mem_cons_of_mem _ ha))]
    simp

theorem mem_insertAttr {a b : Str × Str} {l : Dict Str} : b ∈ insertAttr a l ↔ b = a ∨ b ∈ l := by
  induction l with
  | nil => simp [insertAttr]
  | cons c l ih =>
    simp only [insertAttr]
    split
    · simp
    · simp only [List.mem_cons, ih]
      exact ⟨fun h => by tauto, fun h => by tauto⟩

theorem mem_sortAttrs {b : Str × Str} {l : Dict Str} : b ∈ sortAttrs l ↔ b ∈ l := by
  induction l with
  | nil => simp [sortAttrs]
  | cons a l ih => rw [sortAttrs, mem_insertAttr, ih, List.mem_cons]

theorem attr_ascii {l : Dict Str} (h : ∀ a ∈ l, (∀ c ∈ a.1, c ≤ 127) ∧ ∀ c ∈ a.2, c ≤ 127) :
    ∀ c ∈ (sortAttrs l).flatMap xmlAttr, c ≤ 127 := by
  intro c hc
  obtain ⟨a, ha, hc⟩ := List.mem_flatMap.1 hc
  obtain ⟨h1, h2⟩ := h a (mem_sortAttrs.1 ha)
  unfold xmlAttr at hc
  simp only [List.mem_append, List.mem_cons, List.not_mem_nil, or_false] at hc
  rcases hc with (((rfl | hc) | rfl | rfl) | hc) | rfl
  · omega
  · exact h1 c hc
  · omega
  · omega
  · by_contra hlt
    obtain ⟨x, hx, hx'⟩ := escape_ascii.1 ⟨c, hc, by omega⟩
    have := h2 x hx
    omega
  · omega

theorem writes_node {n : NodeX} (h : NodeOk n) {indent : Str} (hi : ∀ c ∈ indent, c ≤ 127) :
    Writes (n.write indent) (Xml.write indent n.lower.toXml) [n.src] := by
  have h1 := writes_wrap (writes_data n.src) (pre := indent ++ [60] ++ n.tag ++ (sortAttrs n.attrs).flatMap xmlAttr ++ py! " src=\"")
    (post := py! "\"/>\n") (by
      intro c hc
      simp only [List.mem_append, List.mem_singleton] at hc
      rcases hc with (((hc | rfl) | hc) | hc) | hc
      · exact hi c hc
      · omega
      · exact h.tag c hc
      · exact attr_ascii h.vals c hc
      · clear * - hc; revert c; decide) (by decide)
  have h2 : Xml.write indent n.lower.toXml = indent ++ [60] ++ n.tag ++ (sortAttrs n.attrs).flatMap xmlAttr ++ py! " src=\"" ++
      xmlEscape (charsOf n.src) ++ py! "\"/>\n" := by
    unfold MediaNode.toXml NodeX.lower
    rw [write_empty]
    have : sortAttrs ((py! "src", charsOf n.src) :: n.attrs) = sortAttrs n.attrs ++ [(py! "src", charsOf n.src)] := by
      rw [sortAttrs, insert_src]
      intro a ha
      exact h.keys a (mem_sortAttrs.1 ha)
    rw [this, List.flatMap_append]
    simp only [List.flatMap_cons, List.flatMap_nil, List.append_nil, xmlAttr]
    simp only [List.append_assoc]
    rfl
  rw [h2]
  exact h1

theorem writes_nodes {l : List NodeX} (h : ∀ n ∈ l, NodeOk n) {indent : Str} (hi : ∀ c ∈ indent, c ≤ 127) :
    Writes (writeNodes indent l) ((l.map (fun n => n.lower.toXml)).flatMap (Xml.write indent)) (l.map NodeX.src) := by
  induction l with
  | nil => exact writes_nil
  | cons n l ih =>
    have := writes_append (writes_node (h n (by simp)) hi) (ih (fun n hn => h n (List.mem_cons_of_mem _ hn)))
    exact this

theorem writes_par {p : ParX} (h : ∀ n ∈ p.kids, NodeOk n) {indent : Str} (hi : ∀ c ∈ indent, c ≤ 127) :
    Writes (p.write indent) (Xml.write indent p.lower.toXml) (p.kids.map NodeX.src) := by
  have hd : sortAttrs [(py! "duration", intStr p.duration)] = [(py! "duration", intStr p.duration)] := rfl
  have hopen : ∀ c ∈ indent ++ [60] ++ py! "par" ++ xmlAttr (py! "duration", intStr p.duration), c ≤ 127 := by
    have ha := attr_ascii (l := [(py! "duration", intStr p.duration)]) (by
      intro a ha
      rw [List.mem_singleton] at ha
      subst ha
      exact ⟨show ∀ c ∈ (py! "duration"), c ≤ 127 by decide, intStr_ascii _⟩)
    rw [hd] at ha
    intro c hc
    rcases List.mem_append.1 hc with hc | hc
    · rcases List.mem_append.1 hc with hc | hc
      · rcases List.mem_append.1 hc with hc | hc
        · exact hi c hc
        · rw [List.mem_singleton] at hc; omega
      · clear * - hc; revert c; decide
    · exact ha c (by simpa using hc)
  obtain ⟨d, kids⟩ := p
  unfold ParX.write ParX.lower ParNode.toXml
  cases kids with
  | nil =>
    refine .inr ⟨rfl, _, rfl, ?_, by simp [Chunk.isUni], ?_⟩
    · simp only [List.map_nil]
      rw [write_empty]
      simp only [sortAttrs, insertAttr, List.flatMap_cons, List.flatMap_nil, List.append_nil, Chunk.chars]
    · rw [not_ascii_str (by
        intro c hc
        rcases List.mem_append.1 hc with hc | hc
        · exact hopen c hc
        · clear * - hc; revert c; decide)]
      simp
  | cons k ks =>
    have h1 := writes_wrap (writes_nodes h (indent := indent ++ [9]) (by
      intro c hc
      rcases List.mem_append.1 hc with hc | hc
      · exact hi c hc
      · rw [List.mem_singleton] at hc; omega))
      (pre := indent ++ [60] ++ py! "par" ++ xmlAttr (py! "duration", intStr d) ++ py! ">\n") (post := indent ++ py! "</par>\n") (by
        intro c hc
        rcases List.mem_append.1 hc with hc | hc
        · exact hopen c hc
        · clear * - hc; revert c; decide) (by
        intro c hc
        rcases List.mem_append.1 hc with hc | hc
        · exact hi c hc
        · clear * - hc; revert c; decide)
    have h2 : Xml.write indent (Xml.elem (py! "par") [(py! "duration", intStr d)]
        (List.map MediaNode.toXml (List.map NodeX.lower (k :: ks)))) =
        indent ++ [60] ++ py! "par" ++ xmlAttr (py! "duration", intStr d) ++ py! ">\n" ++
        ((k :: ks).map (fun n => n.lower.toXml)).flatMap (Xml.write (indent ++ [9])) ++ (indent ++ py! "</par>\n") := by
      rw [write_full _ _ _ _ (by simp), List.map_map]
      simp only [sortAttrs, insertAttr, List.flatMap_cons, List.flatMap_nil, List.append_nil]
      simp only [List.append_assoc]
      rfl
    rw [h2]
    exact h1

theorem writes_pars {l : List ParX} (h : ∀ p ∈ l, ∀ n ∈ p.kids, NodeOk n) {indent : Str} (hi : ∀ c ∈ indent, c ≤ 127) :
    Writes (writePars indent l) ((l.map (fun p => p.lower.toXml)).flatMap (Xml.write indent)) ((l.flatMap ParX.kids).map NodeX.src) := by
  induction l with
  | nil => exact writes_nil
  | cons p l ih =>
    have := writes_append (writes_par (h p (by simp)) hi) (ih (fun p hp => h p (List.mem_cons_of_mem _ hp)))
    rw [List.flatMap_cons, List.map_append]
    exact this

theorem writes_body {l : List ParX} (h : ∀ p ∈ l, ∀ n ∈ p.kids, NodeOk n) :
    Writes (writeBody [9] l) (Xml.write [9] (.elem (py! "body") [] (l.map (fun p => p.lower.toXml))))
      ((l.flatMap ParX.kids).map NodeX.src) := by
  cases l with
  | nil =>
    refine .inr ⟨rfl, [.str (py! "\t<body/>\n")], rfl, ?_, by simp [Chunk.isUni], ?_⟩
    · simp only [List.map_nil]
      rw [write_empty]
      rfl
    · rw [not_ascii_str (by decide)]
      simp
  | cons p ps =>
    have h1 := writes_wrap (writes_pars h (indent := [9] ++ [9]) (by decide)) (pre := [9] ++ py! "<body>\n")
      (post := [9] ++ py! "</body>\n") (by decide) (by decide)
    rw [write_full _ _ _ _ (by simp)]
    have h2 : ([9] ++ [60] ++ py! "body" ++ (sortAttrs ([] : Dict Str)).flatMap xmlAttr ++ ([62, 10] ++
        List.flatMap (Xml.write ([9] ++ [9])) (List.map (fun p => p.lower.toXml) (p :: ps)) ++ [9] ++ [60, 47] ++ py! "body" ++ [62, 10]) : Str) =
        [9] ++ py! "<body>\n" ++ List.flatMap (Xml.write ([9] ++ [9])) (List.map (fun p => p.lower.toXml) (p :: ps)) ++ ([9] ++ py! "</body>\n") := by
      simp only [sortAttrs, List.flatMap_nil, List.append_assoc]
      rfl
    rw [h2]
    exact h1

end Verif.Mms

import Verif.Model.Message
import Verif.Spec.Xml
/-!
# The XML writer against the XML reader
-/
set_option autoImplicit false

namespace Verif.Mms
open Verif.Spec.Xml

theorem normal_plain : ∀ {v : List Nat}, Plain v → normal v = v
  | [], _ => by simp [normal]
  | c :: r, h => by
    have hc := h c (by simp)
    rw [normal, if_neg (by omega), if_neg (by omega), normal_plain (fun x hx => h x (by simp [hx]))]

theorem escape_cons (c : Nat) (r : Str) : xmlEscape (c :: r) = xmlEscape [c] ++ xmlEscape r := by
  simp [xmlEscape]

theorem escape_other {c : Nat} (h : c ≠ 38 ∧ c ≠ 60 ∧ c ≠ 34 ∧ c ≠ 62) (r : Str) : xmlEscape (c :: r) = c :: xmlEscape r := by
  simp [xmlEscape, h.1, h.2.1, h.2.2.1, h.2.2.2]

theorem expand_ref (e : List Nat × Nat) (he : e ∈ entities) (r : List Nat) :
    expand (38 :: (e.1 ++ r)) = (expand r).map (e.2 :: ·) := by
  have : entities.find? (fun x => x.1.isPrefixOf (e.1 ++ r)) = some e := by
    simp only [entities, List.mem_cons, List.not_mem_nil, or_false] at he
    rcases he with rfl | rfl | rfl | rfl | rfl <;> simp [entities, List.isPrefixOf]
  rw [expand, if_pos rfl, this]
  simp

theorem dropLf_other {d : Nat} (h : d ≠ 10) (r : List Nat) : dropLf (d :: r) = d :: r := by
  unfold dropLf
  split
  · rename_i h'; injection h' with h' _; exact absurd h' h
  · rfl

theorem dropLf_mem {x : Nat} {r : List Nat} (h : x ∈ dropLf r) : x ∈ r := by
  unfold dropLf at h
  split at h
  · simp [h]
  · exact h

theorem dropLf_escape (r : Str) : dropLf (xmlEscape r) = xmlEscape (dropLf r) := by
  cases r with
  | nil => rfl
  | cons d r =>
    by_cases hd : d = 10
    · subst hd
      rw [escape_other (by omega)]
      rfl
    · rw [dropLf_other hd]
      have : ∃ e t, e ≠ 10 ∧ xmlEscape (d :: r) = e :: t := by
        rw [escape_cons]
        unfold xmlEscape
        simp only [List.flatMap_cons, List.flatMap_nil, List.append_nil]
        split
        · exact ⟨_, _, by decide, rfl⟩
        · split
          · exact ⟨_, _, by decide, rfl⟩
          · split
            · exact ⟨_, _, by decide, rfl⟩
            · split
              · exact ⟨_, _, by decide, rfl⟩
              · exact ⟨_, _, hd, rfl⟩
      obtain ⟨e, t, he, h⟩ := this
      rw [h, dropLf_other he]

theorem expand_escape : ∀ (k : Nat) (v : List Nat), v.length ≤ k → Chars v → expand (xmlEscape v) = some (normal v)
  | _, [], _, _ => by simp [xmlEscape, expand, normal]
  | 0, c :: r, h, _ => by simp at h
  | k + 1, c :: r, hk, h => by
    have hr : Chars r := fun x hx => h x (by simp [hx])
    have hk' : r.length ≤ k := by simpa using hk
    have ih := expand_escape k r hk' hr
    have hc := h c (by simp)
    have special : ∀ (e : List Nat × Nat), e ∈ entities → e.2 = c → c ≠ 13 ∧ c ≠ 10 ∧ c ≠ 9 → xmlEscape [c] = 38 :: e.1 →
        expand (xmlEscape (c :: r)) = some (normal (c :: r)) := by
      intro e he hec hn hx
      rw [escape_cons, hx, List.cons_append, expand_ref e he, ih, hec, normal, if_neg hn.1, if_neg (by omega)]
      rfl
    by_cases h38 : c = 38
    · exact special (py! "amp;", 38) (by decide) h38.symm (by omega) (by subst h38; rfl)
    by_cases h60 : c = 60
    · exact special (py! "lt;", 60) (by decide) h60.symm (by omega) (by subst h60; rfl)
    by_cases h34 : c = 34
    · exact special (py! "quot;", 34) (by decide) h34.symm (by omega) (by subst h34; rfl)
    by_cases h62 : c = 62
    · exact special (py! "gt;", 62) (by decide) h62.symm (by omega) (by subst h62; rfl)
    rw [escape_other ⟨h38, h60, h34, h62⟩, expand, if_neg h38, if_neg h60, normal]
    by_cases h13 : c = 13
    · rw [if_pos h13, if_pos h13]
      rw [dropLf_escape, expand_escape k (dropLf r) (Nat.le_trans (dropLf_le r) hk') (fun x hx => hr x (dropLf_mem hx))]
      rfl
    · rw [if_neg h13, if_neg h13]
      by_cases hw : c = 10 ∨ c = 9
      · rw [if_pos hw, if_pos hw, ih]; rfl
      · rw [if_neg hw, if_neg hw, if_neg (by omega), ih]; rfl

theorem escape_no_quote (v : Str) : ∀ c ∈ xmlEscape v, c ≠ 34 := by
  intro c hc
  unfold xmlEscape at hc
  obtain ⟨x, _, hx⟩ := List.mem_flatMap.1 hc
  split at hx
  · simp at hx; omega
  · split at hx
    · simp at hx; omega
    · split at hx
      · simp at hx; omega
      · split at hx
        · simp at hx; omega
        · simp at hx; omega

theorem takeWhile_append_stop {p : Nat → Bool} {l : List Nat} {c : Nat} {r : List Nat} (h : ∀ x ∈ l, p x = true)
    (hc : p c = false) : (l ++ c :: r).takeWhile p = l ∧ (l ++ c :: r).dropWhile p = c :: r := by
  induction l with
  | nil => simp [hc]
  | cons a l ih =>
    have ha := h a (by simp)
    obtain ⟨h1, h2⟩ := ih (fun x hx => h x (by simp [hx]))
    exact ⟨by simp [ha, h1], by simp [ha, h2]⟩

theorem quoted_escape {v : Str} (hv : Chars v) (rest : List Nat) :
    quoted 34 (xmlEscape v ++ 34 :: rest) = some (normal v, rest) := by
  obtain ⟨h1, h2⟩ := takeWhile_append_stop (p := fun x => decide (x ≠ 34)) (l := xmlEscape v) (c := 34) (r := rest)
    (fun x hx => by simpa using escape_no_quote v x hx) (by simp)
  unfold quoted
  rw [h1, h2]
  simp only [expand_escape v.length v (Nat.le_refl _) hv, Option.map_some]

theorem name_append {n : List Nat} (h : IsName n) {c : Nat} (hc : isNameChar c = false) (rest : List Nat) :
    name (n ++ c :: rest) = some (n, c :: rest) := by
  obtain ⟨a, r, rfl, h1, h2⟩ := h
  have hall : ∀ x ∈ a :: r, isNameChar x = true := by
    intro x hx
    rcases List.mem_cons.1 hx with rfl | hx
    · unfold isNameChar; rw [h1]; rfl
    · exact h2 x hx
  obtain ⟨h3, h4⟩ := takeWhile_append_stop (r := rest) hall hc
  unfold name
  simp only [List.cons_append, h1, if_true]
  rw [← List.cons_append, h3, h4]

theorem nameStart_not_ws {c : Nat} (h : isNameStart c = true) : isWs c = false ∧ c ≠ 47 ∧ c ≠ 62 := by
  simp only [isNameStart, Bool.or_eq_true, Bool.and_eq_true, decide_eq_true_eq, beq_iff_eq] at h
  refine ⟨?_, by omega, by omega⟩
  simp only [isWs, Bool.or_eq_false_iff, beq_eq_false_iff_ne]
  omega

theorem skipWs_start {c : Nat} {r : List Nat} (h : isWs c = false) : skipWs (c :: r) = c :: r := by
  simp [skipWs, h]

theorem attr_write {a : Str × Str} (hn : IsName a.1) (hv : Chars a.2) (rest : List Nat) :
    attr (a.1 ++ [61, 34] ++ xmlEscape a.2 ++ [34] ++ rest) = some ((a.1, normal a.2), rest) := by
  have : a.1 ++ [61, 34] ++ xmlEscape a.2 ++ [34] ++ rest = a.1 ++ 61 :: (34 :: (xmlEscape a.2 ++ 34 :: rest)) := by simp
  rw [this]
  unfold attr
  rw [name_append hn (by decide)]
  simp only [Option.bind_some, eqValue]
  rw [skipWs_start (by decide)]
  simp only []
  rw [skipWs_start (by decide)]
  simp only []
  rw [quoted_escape hv]
  rfl

/-- attributes that can be written -/
def AttrsOk (l : Dict Str) : Prop := (∀ a ∈ l, IsName a.1 ∧ Chars a.2) ∧ (l.map (·.1)).Nodup

theorem attrs_write : ∀ (l : Dict Str) (n c : Nat) (rest : List Nat), AttrsOk l → l.length < n → c = 47 ∨ c = 62 →
    attrs n (l.flatMap xmlAttr ++ c :: rest) = some (l.map fun a => (a.1, normal a.2), c :: rest)
  | [], 0, _, _, _, h, _ => by simp at h
  | _ :: _, 0, _, _, _, h, _ => by simp at h
  | [], n + 1, c, rest, _, _, hc => by
    have hs : skipWs (c :: rest) = c :: rest := skipWs_start (by rcases hc with rfl | rfl <;> decide)
    simp only [List.flatMap_nil, List.nil_append, attrs]
    rw [hs]
    simp only []
    rw [if_pos hc]
    rfl
  | a :: l, n + 1, c, rest, hok, hn, hc => by
    obtain ⟨hn1, hv1⟩ := hok.1 a (by simp)
    have hok' : AttrsOk l := ⟨fun x hx => hok.1 x (by simp [hx]), by have := hok.2; simp only [List.map_cons, List.nodup_cons] at this; exact this.2⟩
    have ih := attrs_write l n c rest hok' (by simpa using hn) hc
    obtain ⟨b, r, hab, hb, hr⟩ := id hn1
    have hb' := nameStart_not_ws hb
    have e : (a :: l).flatMap xmlAttr ++ c :: rest = 32 :: b :: (r ++ [61, 34] ++ xmlEscape a.2 ++ [34] ++ (l.flatMap xmlAttr ++ c :: rest)) := by
      simp [xmlAttr, hab]
    have e2 : b :: (r ++ [61, 34] ++ xmlEscape a.2 ++ [34] ++ (l.flatMap xmlAttr ++ c :: rest)) =
        a.1 ++ [61, 34] ++ xmlEscape a.2 ++ [34] ++ (l.flatMap xmlAttr ++ c :: rest) := by simp [hab]
    have hs : skipWs ((a :: l).flatMap xmlAttr ++ c :: rest) = b :: (r ++ [61, 34] ++ xmlEscape a.2 ++ [34] ++ (l.flatMap xmlAttr ++ c :: rest)) := by
      rw [e, skipWs, if_pos (by decide), skipWs_start hb'.1]
    rw [attrs, hs]
    simp only []
    rw [if_neg (by omega), if_neg (by rw [e]; intro h; have := congrArg List.length h; simp at this), e2, attr_write hn1 hv1]
    simp only [Option.bind_some, ih]
    rw [if_neg]
    · rfl
    · rw [List.any_eq_true]
      rintro ⟨x, hx, hx'⟩
      obtain ⟨y, hy, rfl⟩ := List.mem_map.1 hx
      have := hok.2
      simp only [List.map_cons, List.nodup_cons] at this
      apply this.1
      rw [← (beq_iff_eq.1 hx')]
      exact List.mem_map_of_mem (f := (·.1)) hy

mutual
/-- documents that can be written -/
def Good : Xml → Prop
  | .elem tag attrs kids => IsName tag ∧ AttrsOk attrs ∧ GoodAll kids
def GoodAll : List Xml → Prop
  | [] => True
  | x :: xs => Good x ∧ GoodAll xs
end

mutual
/-- what is read: attributes in order of their names, normalised -/
def Xml.read : Xml → Tree
  | .elem tag attrs kids => .node tag ((sortAttrs attrs).map fun a => (a.1, normal a.2)) (Xml.readAll kids)
def Xml.readAll : List Xml → List Tree
  | [] => []
  | x :: xs => x.read :: Xml.readAll xs
end

theorem insertAttr_perm (a : Str × Str) : ∀ l : Dict Str, (insertAttr a l).Perm (a :: l)
  | [] => .refl _
  | b :: r => by
    unfold insertAttr
    split
    · exact .refl _
    · exact ((insertAttr_perm a r).cons b).trans (.swap a b r)

theorem sortAttrs_perm : ∀ l : Dict Str, (sortAttrs l).Perm l
  | [] => .refl _
  | a :: r => (insertAttr_perm a _).trans ((sortAttrs_perm r).cons a)

theorem AttrsOk.sort {l : Dict Str} (h : AttrsOk l) : AttrsOk (sortAttrs l) :=
  ⟨fun a ha => h.1 a ((sortAttrs_perm l).mem_iff.1 ha), ((sortAttrs_perm l).map _).nodup_iff.2 h.2⟩

theorem flatMap_attr_len (l : Dict Str) : l.length ≤ (l.flatMap xmlAttr).length := by
  induction l with
  | nil => simp
  | cons a l ih =>
    have : 1 ≤ (xmlAttr a).length := by simp [xmlAttr]
    simp only [List.flatMap_cons, List.length_append, List.length_cons]
    omega

theorem skipWs_append {w : List Nat} (h : ∀ c ∈ w, isWs c = true) (s : List Nat) : skipWs (w ++ s) = skipWs s := by
  induction w with
  | nil => rfl
  | cons a w ih => simp [skipWs, h a (by simp), ih (fun c hc => h c (by simp [hc]))]

/-- the written element without the indentation before it and the newline after it -/
def Xml.bare (indent : Str) : Xml → Str
  | .elem tag attrs kids =>
    [60] ++ tag ++ (sortAttrs attrs).flatMap xmlAttr ++
      (match kids with
       | [] => [47, 62]
       | k :: ks => [62, 10] ++ Xml.writeAll (indent ++ [9]) (k :: ks) ++ indent ++ [60, 47] ++ tag ++ [62])

theorem write_bare (indent : Str) (x : Xml) : x.write indent = indent ++ (x.bare indent ++ [10]) := by
  cases x with
  | elem tag attrs kids =>
    cases kids <;> simp [Xml.write, Xml.bare]

mutual
theorem elem_write : ∀ (x : Xml) (indent : Str) (n : Nat) (rest : List Nat), Good x → (∀ c ∈ indent, isWs c = true) →
    (x.bare indent).length ≤ n → elem n (x.bare indent ++ rest) = some (x.read, rest)
  | .elem tag as kids, indent, 0, rest, _, _, hn => by simp [Xml.bare] at hn
  | .elem tag as kids, indent, n + 1, rest, hg, hi, hn => by
    simp only [Good] at hg
    obtain ⟨ht, ha, hk⟩ := hg
    obtain ⟨b, r, htb, _⟩ := id ht
    have hlen : (sortAttrs as).length < n := by
      have h1 := flatMap_attr_len (sortAttrs as)
      have h2 : ((sortAttrs as).flatMap xmlAttr).length + 3 + tag.length ≤ (Xml.bare indent (.elem tag as kids)).length := by
        cases kids <;> simp [Xml.bare] <;> omega
      have h3 : 1 ≤ tag.length := by rw [htb]; simp
      omega
    have step : ∀ c t, c = 47 ∨ c = 62 → name (tag ++ ((sortAttrs as).flatMap xmlAttr ++ c :: t)) =
        some (tag, (sortAttrs as).flatMap xmlAttr ++ c :: t) := by
      intro c t hc
      cases hs : sortAttrs as with
      | nil => exact name_append ht (by rcases hc with rfl | rfl <;> decide) t
      | cons a l =>
        have : (a :: l).flatMap xmlAttr ++ c :: t = 32 :: (a.1 ++ [61, 34] ++ xmlEscape a.2 ++ [34] ++ (l.flatMap xmlAttr ++ c :: t)) := by
          simp [xmlAttr]
        rw [this]
        exact name_append ht (by decide) _
    cases kids with
    | nil =>
      have e : Xml.bare indent (.elem tag as []) ++ rest = 60 :: (tag ++ ((sortAttrs as).flatMap xmlAttr ++ 47 :: 62 :: rest)) := by
        simp [Xml.bare]
      rw [e, elem]
      simp only [step 47 _ (.inl rfl), Option.bind_some, attrs_write _ n 47 _ ha.sort hlen (.inl rfl), Xml.read, Xml.readAll]
    | cons k ks =>
      have e : Xml.bare indent (.elem tag as (k :: ks)) ++ rest = 60 :: (tag ++ ((sortAttrs as).flatMap xmlAttr ++
          62 :: (10 :: (Xml.writeAll (indent ++ [9]) (k :: ks) ++ (indent ++ 60 :: 47 :: (tag ++ 62 :: rest)))))) := by
        simp [Xml.bare]
      have hl2 : (Xml.writeAll (indent ++ [9]) (k :: ks)).length < n := by
        have : (Xml.writeAll (indent ++ [9]) (k :: ks)).length + 6 ≤ (Xml.bare indent (.elem tag as (k :: ks))).length := by
          simp [Xml.bare]; omega
        omega
      have hc : content n (10 :: (Xml.writeAll (indent ++ [9]) (k :: ks) ++ (indent ++ 60 :: 47 :: (tag ++ 62 :: rest)))) =
          some (Xml.readAll (k :: ks), tag ++ 62 :: rest) :=
        content_write (k :: ks) (indent ++ [9]) n (10 :: []) indent (tag ++ 62 :: rest) hk
          (fun c hc => by rcases List.mem_append.1 hc with h | h; exact hi c h; simp at h; subst h; decide)
          hl2 (by simp; decide) hi
      rw [e, elem]
      simp only [step 62 _ (.inr rfl), Option.bind_some, attrs_write _ n 62 _ ha.sort hlen (.inr rfl), hc,
        name_append ht (show isNameChar 62 = false by decide)]
      rw [skipWs_start (by decide)]
      simp only [if_true, Xml.read]
theorem content_write : ∀ (xs : List Xml) (indent : Str) (n : Nat) (w w' rest : List Nat), GoodAll xs →
    (∀ c ∈ indent, isWs c = true) → (Xml.writeAll indent xs).length < n → (∀ c ∈ w, isWs c = true) → (∀ c ∈ w', isWs c = true) →
    content n (w ++ (Xml.writeAll indent xs ++ (w' ++ 60 :: 47 :: rest))) = some (Xml.readAll xs, rest)
  | _, _, 0, _, _, _, _, _, h, _, _ => by simp at h
  | [], indent, n + 1, w, w', rest, _, _, _, hw, hw' => by
    rw [content, skipWs_append hw, Xml.writeAll, List.nil_append, skipWs_append hw', skipWs_start (by decide)]
    rfl
  | x :: xs, indent, n + 1, w, w', rest, hg, hi, hn, hw, hw' => by
    simp only [GoodAll] at hg
    have hx : (x.bare indent).length + 1 + (Xml.writeAll indent xs).length ≤ (Xml.writeAll indent (x :: xs)).length := by
      rw [Xml.writeAll, write_bare]; simp; omega
    have hb : ∃ b r, x.bare indent = 60 :: b :: r ∧ b ≠ 47 := by
      cases x with
      | elem tag as kids =>
        obtain ⟨⟨b, r, htb, hb, _⟩, _⟩ := (by simpa only [Good] using hg.1 : IsName tag ∧ AttrsOk as ∧ GoodAll kids)
        refine ⟨b, _, by unfold Xml.bare; rw [htb]; simp only [List.cons_append, List.nil_append]; rfl, (nameStart_not_ws hb).2.1⟩
    have hb1 : 1 ≤ (x.bare indent).length := by obtain ⟨b, r, e, _⟩ := hb; rw [e]; simp
    have h1 := elem_write x indent n ([10] ++ (Xml.writeAll indent xs ++ (w' ++ 60 :: 47 :: rest))) hg.1 hi (by omega)
    have h2 := content_write xs indent n [10] w' rest hg.2 hi (by omega) (by simp; decide) hw'
    obtain ⟨b, r, e, hb⟩ := hb
    have e1 : skipWs (w ++ (Xml.writeAll indent (x :: xs) ++ (w' ++ 60 :: 47 :: rest))) =
        x.bare indent ++ ([10] ++ (Xml.writeAll indent xs ++ (w' ++ 60 :: 47 :: rest))) := by
      rw [skipWs_append hw, Xml.writeAll, write_bare]
      simp only [List.append_assoc]
      rw [skipWs_append hi, e]
      exact skipWs_start (by decide)
    rw [content, e1]
    have e3 : ∀ t, x.bare indent ++ t = 60 :: b :: (r ++ t) := by intro t; rw [e]; rfl
    split
    · rename_i h'; rw [e3] at h'; injection h' with _ h'; injection h' with h' _; exact absurd h' hb
    · rw [h1]
      simp only [Option.bind_some, h2, Xml.readAll]
end

/-- what is written is read -/
theorem parse_write (x : Xml) (h : Good x) : parse (x.write []) = some x.read := by
  rw [write_bare]
  have hb : ∃ r, x.bare [] = 60 :: r := by
    cases x with
    | elem tag as kids => exact ⟨_, by unfold Xml.bare; simp only [List.cons_append, List.nil_append]; rfl⟩
  obtain ⟨r, e⟩ := hb
  unfold parse
  have : skipWs ([] ++ (x.bare [] ++ [10])) = x.bare [] ++ [10] := by
    rw [List.nil_append, e]; exact skipWs_start (by decide)
  rw [this, elem_write x [] _ [10] h (by simp) (by simp; omega)]
  rfl

mutual
/-- the document with its attribute values as an application sees them -/
def Xml.tree : Xml → Tree
  | .elem tag attrs kids => .node tag (attrs.map fun a => (a.1, normal a.2)) (Xml.trees kids)
def Xml.trees : List Xml → List Tree
  | [] => []
  | x :: xs => x.tree :: Xml.trees xs
end

theorem trees_eq : ∀ l : List Xml, Xml.trees l = l.map Xml.tree
  | [] => rfl
  | x :: l => by rw [Xml.trees, trees_eq l]; rfl

theorem goodAll_iff : ∀ l : List Xml, GoodAll l ↔ ∀ x ∈ l, Good x
  | [] => by simp [GoodAll]
  | x :: l => by simp [GoodAll, goodAll_iff l]

mutual
theorem read_same : ∀ x : Xml, Same x.read x.tree
  | .elem _ attrs kids => by
    simp only [Xml.read, Xml.tree, Same]
    exact ⟨trivial, (sortAttrs_perm attrs).map _, readAll_same kids⟩
theorem readAll_same : ∀ l : List Xml, SameAll (Xml.readAll l) (Xml.trees l)
  | [] => by simp only [Xml.readAll, Xml.trees, SameAll]
  | x :: l => by simp only [Xml.readAll, Xml.trees, SameAll]; exact ⟨read_same x, readAll_same l⟩
end

theorem isName_dec (s : List Nat) (h : (match s with | [] => false | c :: r => isNameStart c && r.all isNameChar) = true) : IsName s := by
  cases s with
  | nil => cases h
  | cons c r =>
    simp only [Bool.and_eq_true, List.all_eq_true] at h
    exact ⟨c, r, rfl, h.1, h.2⟩

theorem plain_chars {v : List Nat} (h : Plain v) : Chars v := fun c hc => .inl (h c hc)

theorem digits_plain : ∀ n : Nat, Plain (Spec.Slides.digits n)
  | n => by
    rw [Spec.Slides.digits]
    split
    · intro c hc; simp at hc; omega
    · rename_i h
      intro c hc
      rcases List.mem_append.1 hc with hc | hc
      · exact digits_plain (n / 10) c hc
      · simp at hc; omega
termination_by n => n

theorem decimal_plain (n : Int) : Plain (Spec.Slides.decimal n) := by
  unfold Spec.Slides.decimal
  split
  · intro c hc
    rcases List.mem_cons.1 hc with rfl | hc
    · decide
    · exact digits_plain _ c hc
  · exact digits_plain _

end Verif.Mms

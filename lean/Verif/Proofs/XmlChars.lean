import Verif.Proofs.Xml
/-!
# The XML reader accepts only characters that may occur in XML, and the writer writes all characters of attribute values
-/
set_option autoImplicit false

namespace Verif.Mms
open Verif.Spec.Xml

/-- what was read before `rest` are XML characters -/
def ReadOk (s rest : List Nat) : Prop := ∃ p, s = p ++ rest ∧ Chars p

theorem ReadOk.refl (s : List Nat) : ReadOk s s := ⟨[], rfl, by intro c hc; simp at hc⟩

theorem ReadOk.trans {a b c : List Nat} (h : ReadOk a b) (h' : ReadOk b c) : ReadOk a c := by
  obtain ⟨p, rfl, hp⟩ := h
  obtain ⟨q, rfl, hq⟩ := h'
  refine ⟨p ++ q, by simp, fun x hx => ?_⟩
  rcases List.mem_append.1 hx with hx | hx
  · exact hp x hx
  · exact hq x hx

theorem ReadOk.cons {c : Nat} {r : List Nat} (h : 32 ≤ c ∨ c = 9 ∨ c = 10 ∨ c = 13) : ReadOk (c :: r) r :=
  ⟨[c], rfl, by intro x hx; simp only [List.mem_cons, List.not_mem_nil, or_false] at hx; subst hx; exact h⟩

theorem ws_char {c : Nat} (h : isWs c = true) : 32 ≤ c ∨ c = 9 ∨ c = 10 ∨ c = 13 := by
  simp only [isWs, Bool.or_eq_true, beq_iff_eq] at h
  omega

theorem skipWs_ok : ∀ s : List Nat, ReadOk s (skipWs s)
  | [] => .refl _
  | c :: r => by
    unfold skipWs
    split
    · rename_i h
      exact (ReadOk.cons (ws_char h)).trans (skipWs_ok r)
    · exact .refl _

theorem nameChar_char {c : Nat} (h : isNameChar c = true) : 32 ≤ c := by
  simp only [isNameChar, isNameStart, Bool.or_eq_true, Bool.and_eq_true, decide_eq_true_eq, beq_iff_eq] at h
  omega

theorem takeWhile_all {p : Nat → Bool} : ∀ {s : List Nat} {x : Nat}, x ∈ s.takeWhile p → p x = true
  | [], x, h => by simp at h
  | c :: r, x, h => by
    simp only [List.takeWhile_cons] at h
    split at h
    · rename_i hc
      rcases List.mem_cons.1 h with rfl | h
      · exact hc
      · exact takeWhile_all h
    · simp at h

theorem name_ok {s : List Nat} {p : List Nat × List Nat} (h : name s = some p) : ReadOk s p.2 := by
  unfold name at h
  cases s with
  | nil => cases h
  | cons c r =>
    simp only at h
    split at h
    · cases h
      exact ⟨_, (List.takeWhile_append_dropWhile (p := isNameChar)).symm, fun x hx => .inl (nameChar_char (takeWhile_all hx))⟩
    · cases h

theorem expand_chars : ∀ (n : Nat) (s t : List Nat), s.length ≤ n → expand s = some t → Chars s
  | _, [], _, _, _ => by intro c hc; simp at hc
  | 0, _ :: _, _, hn, _ => by simp at hn
  | n + 1, c :: r, t, hn, h => by
    simp only [List.length_cons] at hn
    have hcons : (32 ≤ c ∨ c = 9 ∨ c = 10 ∨ c = 13) → Chars r → Chars (c :: r) := by
      intro h1 h2 x hx
      rcases List.mem_cons.1 hx with rfl | hx
      · exact h1
      · exact h2 x hx
    rw [expand] at h
    split at h
    · subst c
      refine hcons (by omega) ?_
      split at h
      · rename_i e he
        have hpre := List.find?_some he
        have hmem := List.mem_of_find?_eq_some he
        obtain ⟨t', h1, _⟩ := Option.map_eq_some_iff.1 h
        have ih := expand_chars n _ _ (by simp only [List.length_drop]; omega) h1
        obtain ⟨r', hr'⟩ := List.isPrefixOf_iff_prefix.1 hpre
        have he' : Chars e.1 := by
          simp only [entities, List.mem_cons, List.not_mem_nil, or_false] at hmem
          rcases hmem with rfl | rfl | rfl | rfl | rfl <;> (unfold Chars; decide)
        rw [← hr'] at ih ⊢
        simp only [List.drop_left'] at ih
        intro x hx
        rcases List.mem_append.1 hx with hx | hx
        · exact he' x hx
        · exact ih x hx
      · cases h
    · split at h
      · cases h
      · split at h
        · subst c
          refine hcons (by omega) ?_
          obtain ⟨t', h1, _⟩ := Option.map_eq_some_iff.1 h
          have ih := expand_chars n _ _ (by have := dropLf_le r; omega) h1
          intro x hx
          unfold dropLf at ih
          split at ih
          · rcases List.mem_cons.1 hx with rfl | hx
            · omega
            · exact ih x hx
          · exact ih x hx
        · split at h
          · obtain ⟨t', h1, _⟩ := Option.map_eq_some_iff.1 h
            exact hcons (by omega) (expand_chars n _ _ (by omega) h1)
          · split at h
            · cases h
            · obtain ⟨t', h1, _⟩ := Option.map_eq_some_iff.1 h
              exact hcons (by omega) (expand_chars n _ _ (by omega) h1)

theorem quoted_ok {q : Nat} (hq : 32 ≤ q) {s : List Nat} {p : List Nat × List Nat} (h : quoted q s = some p) : ReadOk s p.2 := by
  unfold quoted at h
  split at h
  · cases h
  · rename_i x rest hd
    obtain ⟨t, h1, rfl⟩ := Option.map_eq_some_iff.1 h
    have hs := (List.takeWhile_append_dropWhile (p := (· ≠ q)) (l := s)).symm
    rw [hd] at hs
    have hx : x = q := by
      have := List.head_dropWhile_not (fun y => decide (y ≠ q)) (l := s) (by rw [hd]; simp)
      simp only [hd, List.head_cons] at this
      simpa using this
    refine ⟨s.takeWhile (· ≠ q) ++ [x], by rw [List.append_assoc]; exact hs, fun y hy => ?_⟩
    rcases List.mem_append.1 hy with hy | hy
    · exact expand_chars _ _ _ (Nat.le_refl _) h1 y hy
    · simp only [List.mem_cons, List.not_mem_nil, or_false] at hy
      omega

theorem eqValue_ok {s : List Nat} {p : List Nat × List Nat} (h : eqValue s = some p) : ReadOk s p.2 := by
  unfold eqValue at h
  refine (skipWs_ok s).trans ?_
  split at h
  · rename_i s1 e1
    rw [e1]
    refine (ReadOk.cons (by omega)).trans ((skipWs_ok s1).trans ?_)
    split at h
    · rename_i s2 e2
      rw [e2]
      exact (ReadOk.cons (by omega)).trans (quoted_ok (by omega) h)
    · rename_i s2 e2
      rw [e2]
      exact (ReadOk.cons (by omega)).trans (quoted_ok (by omega) h)
    · cases h
  · cases h

theorem attr_ok {s : List Nat} {p : (List Nat × List Nat) × List Nat} (h : attr s = some p) : ReadOk s p.2 := by
  unfold attr at h
  obtain ⟨a, h1, h⟩ := Option.bind_eq_some_iff.1 h
  obtain ⟨v, h2, rfl⟩ := Option.map_eq_some_iff.1 h
  exact (name_ok h1).trans (eqValue_ok h2)

theorem attrs_ok : ∀ {n : Nat} {s : List Nat} {p : List (List Nat × List Nat) × List Nat}, attrs n s = some p → ReadOk s p.2
  | 0, _, _, h => by simp [attrs] at h
  | n + 1, s, p, h => by
    unfold attrs at h
    refine (skipWs_ok s).trans ?_
    split at h
    · cases h
    · rename_i c r e
      rw [e]
      split at h
      · cases h
        exact .refl _
      · split at h
        · cases h
        · obtain ⟨a, h1, h⟩ := Option.bind_eq_some_iff.1 h
          obtain ⟨l, h2, h⟩ := Option.bind_eq_some_iff.1 h
          split at h
          · cases h
          · cases h
            exact (attr_ok h1).trans (attrs_ok (p := l) h2)

mutual
theorem elem_ok : ∀ {n : Nat} {s : List Nat} {p : Tree × List Nat}, elem n s = some p → ReadOk s p.2
  | 0, _, _, h => by simp [elem] at h
  | n + 1, s, p, h => by
    unfold elem at h
    split at h
    · refine (ReadOk.cons (by omega)).trans ?_
      obtain ⟨a, h1, h⟩ := Option.bind_eq_some_iff.1 h
      obtain ⟨q, h2, h⟩ := Option.bind_eq_some_iff.1 h
      refine (name_ok h1).trans ((attrs_ok h2).trans ?_)
      split at h
      · rename_i s1 e1
        cases h
        rw [e1]
        exact (ReadOk.cons (by omega)).trans (ReadOk.cons (by omega))
      · rename_i s1 e1
        rw [e1]
        obtain ⟨k, h3, h⟩ := Option.bind_eq_some_iff.1 h
        obtain ⟨e, h4, h⟩ := Option.bind_eq_some_iff.1 h
        refine (ReadOk.cons (by omega)).trans ((content_ok h3).trans ((name_ok h4).trans ((skipWs_ok _).trans ?_)))
        split at h
        · rename_i s2 e2
          rw [e2]
          split at h
          · cases h
            exact ReadOk.cons (by omega)
          · cases h
        · cases h
      · cases h
    · cases h
theorem content_ok : ∀ {n : Nat} {s : List Nat} {p : List Tree × List Nat}, content n s = some p → ReadOk s p.2
  | 0, _, _, h => by simp [content] at h
  | n + 1, s, p, h => by
    unfold content at h
    refine (skipWs_ok s).trans ?_
    split at h
    · rename_i s1 e1
      cases h
      rw [e1]
      exact (ReadOk.cons (by omega)).trans (ReadOk.cons (by omega))
    · obtain ⟨t, h1, h⟩ := Option.bind_eq_some_iff.1 h
      obtain ⟨ts, h2, h⟩ := Option.bind_eq_some_iff.1 h
      cases h
      exact (elem_ok h1).trans (content_ok (p := ts) h2)
end

/-- a document has only XML characters -/
theorem parse_chars {s : List Nat} {t : Tree} (h : parse s = some t) : Chars s := by
  unfold parse at h
  split at h
  · rename_i t' rest he
    split at h
    · rename_i hr
      obtain ⟨p, hp, hc⟩ := (skipWs_ok s).trans (elem_ok he)
      rw [hp]
      intro c hc'
      rcases List.mem_append.1 hc' with h' | h'
      · exact hc c h'
      · exact ws_char (List.all_eq_true.1 hr c h')
    · cases h
  · cases h

/-! the writer -/

theorem mem_escape {c : Nat} {v : Str} (h : c ∈ v) (hc : c < 32) : c ∈ xmlEscape v := by
  unfold xmlEscape
  refine List.mem_flatMap.2 ⟨c, h, ?_⟩
  rw [if_neg (by omega), if_neg (by omega), if_neg (by omega), if_neg (by omega)]
  simp

mutual
/-- a control character in some attribute value -/
def CtlIn (c : Nat) : Xml → Prop
  | .elem _ attrs kids => (∃ a ∈ attrs, c ∈ a.2) ∨ CtlInAll c kids
def CtlInAll (c : Nat) : List Xml → Prop
  | [] => False
  | x :: xs => CtlIn c x ∨ CtlInAll c xs
end

theorem ctlInAll_iff (c : Nat) : ∀ l : List Xml, CtlInAll c l ↔ ∃ x ∈ l, CtlIn c x
  | [] => by simp [CtlInAll]
  | x :: l => by simp [CtlInAll, ctlInAll_iff c l]

mutual
theorem mem_write {c : Nat} (hc : c < 32) : ∀ (x : Xml) (indent : Str), CtlIn c x → c ∈ x.write indent
  | .elem tag as kids, indent, h => by
    unfold Xml.write
    simp only [CtlIn] at h
    rcases h with ⟨a, ha, hv⟩ | h
    · have : c ∈ (sortAttrs as).flatMap xmlAttr := by
        refine List.mem_flatMap.2 ⟨a, (sortAttrs_perm as).mem_iff.2 ha, ?_⟩
        unfold xmlAttr
        simp only [List.mem_append]
        exact .inl (.inr (mem_escape hv hc))
      simp only [List.mem_append]
      exact .inl (.inr this)
    · cases kids with
      | nil => simp [CtlInAll] at h
      | cons k ks =>
        have := mem_writeAll hc (k :: ks) (indent ++ [9]) h
        simp only [List.mem_append]
        exact .inr (.inl (.inl (.inl (.inl (.inr this)))))
theorem mem_writeAll {c : Nat} (hc : c < 32) : ∀ (l : List Xml) (indent : Str), CtlInAll c l → c ∈ Xml.writeAll indent l
  | [], _, h => by simp [CtlInAll] at h
  | x :: xs, indent, h => by
    unfold Xml.writeAll
    simp only [CtlInAll] at h
    rcases h with h | h
    · exact List.mem_append_left _ (mem_write hc x indent h)
    · exact List.mem_append_right _ (mem_writeAll hc xs indent h)
end

/-- a document with such a character in an attribute value cannot be read -/
theorem parse_ctl {c : Nat} {x : Xml} (hc : ¬ (32 ≤ c ∨ c = 9 ∨ c = 10 ∨ c = 13)) (h : CtlIn c x) : parse (x.write []) = none := by
  cases hp : parse (x.write []) with
  | none => rfl
  | some t => exact absurd (parse_chars hp c (mem_write (by omega) x [] h)) hc

end Verif.Mms

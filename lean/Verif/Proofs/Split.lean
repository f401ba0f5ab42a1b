import Verif.Model.Submit
import Verif.Proofs.Gsm2
import Mathlib.Tactic.Linarith
/-!
# Lemmas about splitting long messages
-/
set_option autoImplicit false

namespace Verif.Submit
open Verif
open Verif.Spec.Gsm

/-- length of the next part -/
def partLen (size : Nat) (rest : Str) : Nat := if (rest.take size).getLast? = some 27 then size - 1 else size

/-- the parts the loop cuts off `rest` -/
inductive Chunks (size : Nat) : Str → List Str → Prop
  | nil : Chunks size [] []
  | cons (rest : Str) (parts : List Str) : rest ≠ [] → Chunks size (rest.drop (partLen size rest)) parts →
      Chunks size rest (rest.take (partLen size rest) :: parts)

theorem partLen_pos {size : Nat} {rest : Str} (hs : 2 ≤ size) : 1 ≤ partLen size rest ∧ partLen size rest ≤ size := by
  unfold partLen; split <;> omega

theorem slice_eq (text : Str) (pi k : Nat) : slice text pi (pi + k) = (text.drop pi).take k := by
  unfold slice
  rw [List.take_drop]

theorem splitLoop_chunks (text : Str) (size : Nat) (hs : 2 ≤ size) :
    ∀ (fuel pi : Nat), 0 < fuel → text.length < fuel + pi →
      ∃ parts, splitLoop text text.length size fuel pi (pi + size) = .ok parts ∧ Chunks size (text.drop pi) parts := by
  intro fuel
  induction fuel with
  | zero =>
    intro pi h
    omega
  | succ fuel ih =>
    intro pi _ h
    rw [splitLoop]
    by_cases hp : pi < text.length
    · rw [if_pos hp, slice_eq]
      have hne : text.drop pi ≠ [] := by
        intro h0; rw [List.drop_eq_nil_iff] at h0; omega
      have hne2 : (text.drop pi).take size ≠ [] := by
        intro h0
        rw [List.take_eq_nil_iff] at h0
        rcases h0 with h0 | h0
        · omega
        · exact hne h0
      obtain ⟨c, hc⟩ : ∃ c, ((text.drop pi).take size).getLast? = some c :=
        ⟨_, List.getLast?_eq_some_getLast hne2⟩
      rw [hc]
      simp only []
      have hk : (if (c == 27) = true then pi + size - 1 else pi + size) = pi + partLen size (text.drop pi) := by
        unfold partLen
        rw [hc]
        by_cases h27 : c = 27
        · subst h27; simp; omega
        · simp [h27]
      rw [hk]
      obtain ⟨h1, h2⟩ := partLen_pos (rest := text.drop pi) hs
      obtain ⟨parts, hp1, hp2⟩ := ih (pi + partLen size (text.drop pi)) (by omega) (by omega)
      rw [hp1, slice_eq]
      refine ⟨_, rfl, Chunks.cons _ _ hne ?_⟩
      rw [List.drop_drop]; exact hp2
    · rw [if_neg hp]
      refine ⟨[], rfl, ?_⟩
      rw [List.drop_eq_nil_of_le (by omega)]
      exact .nil

theorem splitLoop_ok (text : Str) (size : Nat) (hs : 2 ≤ size) :
    ∃ parts, splitLoop text text.length size (text.length + 1) 0 size = .ok parts ∧ Chunks size text parts := by
  have := splitLoop_chunks text size hs (text.length + 1) 0 (by omega) (by omega)
  simpa using this

theorem chunks_flatten {size : Nat} {rest : Str} {parts : List Str} (h : Chunks size rest parts) :
    parts.flatten = rest := by
  induction h with
  | nil => rfl
  | cons rest parts _ _ ih => rw [List.flatten_cons, ih, List.take_append_drop]

theorem chunks_bound {size : Nat} (hs : 2 ≤ size) {rest : Str} {parts : List Str} (h : Chunks size rest parts) :
    ∀ p ∈ parts, p ≠ [] ∧ p.length ≤ size := by
  induction h with
  | nil => simp
  | cons rest parts hne _ ih =>
    intro p hp
    obtain ⟨h1, h2⟩ := partLen_pos (rest := rest) hs
    rcases List.mem_cons.1 hp with rfl | hp
    · constructor
      · intro h0
        rw [List.take_eq_nil_iff] at h0
        rcases h0 with h0 | h0
        · omega
        · exact hne h0
      · rw [List.length_take]; omega
    · exact ih p hp

theorem chunks_det {size : Nat} {rest : Str} {p q : List Str} (hp : Chunks size rest p) (hq : Chunks size rest q) :
    p = q := by
  induction hp generalizing q with
  | nil =>
    cases hq with
    | nil => rfl
    | cons _ _ h _ => exact absurd rfl h
  | cons rest parts hne _ ih =>
    cases hq with
    | nil => exact absurd rfl hne
    | cons _ _ _ hq => rw [ih hq]

/-- without escapes all parts but the last are full -/
theorem chunks_count {size : Nat} (hs : 2 ≤ size) {rest : Str} {parts : List Str} (h : Chunks size rest parts)
    (hesc : 27 ∉ rest) : parts.length = (rest.length + size - 1) / size := by
  induction h with
  | nil =>
    simp only [List.length_nil, Nat.zero_add]
    exact (Nat.div_eq_of_lt (by omega)).symm
  | cons rest parts hne _ ih =>
    have hk : partLen size rest = size := by
      unfold partLen
      rw [if_neg]
      intro h0
      exact hesc (List.mem_of_mem_take (List.mem_of_getLast? h0))
    rw [hk] at ih
    have := ih (fun h0 => hesc (List.mem_of_mem_drop h0))
    rw [List.length_cons, this, List.length_drop]
    have hpos : 0 < rest.length := List.length_pos_iff.2 hne
    by_cases hl : rest.length ≤ size
    · have e1 : rest.length - size + size - 1 = size - 1 := by omega
      rw [e1, Nat.div_eq_of_lt (by omega)]
      have : (rest.length + size - 1) / size = 1 := by
        apply Nat.div_eq_of_lt_le <;> omega
      omega
    · have e1 : rest.length + size - 1 = (rest.length - size + size - 1) + size := by omega
      rw [e1, Nat.add_div_right _ (by omega)]

/-- general bounds on the number of parts: each part but the last has at least `size - 1` items -/
theorem chunks_count_le {size : Nat} (hs : 2 ≤ size) {rest : Str} {parts : List Str} (h : Chunks size rest parts) :
    rest.length ≤ parts.length * size ∧ (parts ≠ [] → (parts.length - 1) * (size - 1) < rest.length) := by
  induction h with
  | nil => simp
  | cons rest parts hne hc ih =>
    obtain ⟨h1, h2⟩ := partLen_pos (rest := rest) hs
    have hpos : 0 < rest.length := List.length_pos_iff.2 hne
    obtain ⟨ih1, ih2⟩ := ih
    rw [List.length_drop] at ih1 ih2
    constructor
    · rw [List.length_cons, Nat.add_mul, Nat.one_mul]; omega
    · intro _
      rw [List.length_cons, Nat.add_sub_cancel]
      cases parts with
      | nil => simpa using hpos
      | cons p ps =>
        have := ih2 (by simp)
        simp only [List.length_cons, Nat.add_sub_cancel] at this ⊢
        have hk : size - 1 ≤ partLen size rest := by unfold partLen; split <;> omega
        rw [Nat.add_mul, Nat.one_mul]; omega

theorem chunks_two {size : Nat} (hs : 2 ≤ size) {rest : Str} {parts : List Str} (h : Chunks size rest parts)
    (hl : size < rest.length) : 2 ≤ parts.length := by
  have := (chunks_count_le hs h).1
  by_contra hc
  have : parts.length * size ≤ 1 * size := Nat.mul_le_mul_right _ (by omega)
  omega

/-! ## Escapes -/

theorem spells_nil {l : List Nat} (h : Spells [] l) : l = [] := by
  obtain ⟨p, hp, rfl⟩ := h
  cases hp; rfl

/-- an escape septet starts a code, so the text can be cut before it -/
theorem spells_cut_esc {t a b : List Nat} (h : Spells t (a ++ 27 :: b)) :
    ∃ t1 t2, t = t1 ++ t2 ∧ Spells t1 a ∧ Spells t2 (27 :: b) := by
  obtain ⟨p, hp, he⟩ := h
  induction hp generalizing a with
  | nil => simp at he
  | @cons c s t ps hc hps ih =>
    cases a with
    | nil =>
      refine ⟨[], c :: t, rfl, ⟨[], .nil, rfl⟩, ⟨s :: ps, .cons hc hps, ?_⟩⟩
      simpa using he
    | cons x a =>
      rw [List.flatten_cons, List.cons_append] at he
      have hc' := hc
      rcases hc with ⟨i, h1, h2, rfl⟩ | ⟨g, hg, rfl⟩
      · simp only [List.cons_append, List.nil_append, List.cons.injEq] at he
        obtain ⟨rfl, he⟩ := he
        obtain ⟨t1, t2, rfl, ⟨q, hq, rfl⟩, h4⟩ := ih he
        exact ⟨c :: t1, t2, rfl, ⟨[x] :: q, .cons hc' hq, rfl⟩, h4⟩
      · simp only [List.cons_append, List.nil_append, List.cons.injEq] at he
        obtain ⟨rfl, he⟩ := he
        have hg' := Gsm.extension_lt _ hg
        cases a with
        | nil =>
          simp only [List.nil_append, List.cons.injEq] at he
          exact absurd he.1.symm hg'.2
        | cons y a =>
          simp only [List.cons_append, List.cons.injEq] at he
          obtain ⟨rfl, he⟩ := he
          obtain ⟨t1, t2, rfl, ⟨q, hq, rfl⟩, h4⟩ := ih he
          exact ⟨c :: t1, t2, rfl, ⟨[27, y] :: q, .cons hc' hq, rfl⟩, h4⟩

/-- and it can be cut after any septet that is not an escape -/
theorem spells_cut {t a b : List Nat} (h : Spells t (a ++ b)) (ha : a.getLast? ≠ some 27) :
    ∃ t1 t2, t = t1 ++ t2 ∧ Spells t1 a ∧ Spells t2 b := by
  obtain ⟨p, hp, he⟩ := h
  induction hp generalizing a with
  | nil =>
    rw [List.flatten_nil, List.append_eq_nil_iff] at he
    obtain ⟨rfl, rfl⟩ := he
    exact ⟨[], [], rfl, ⟨[], .nil, rfl⟩, ⟨[], .nil, rfl⟩⟩
  | @cons c s t ps hc hps ih =>
    cases a with
    | nil =>
      refine ⟨[], c :: t, rfl, ⟨[], .nil, rfl⟩, ⟨s :: ps, .cons hc hps, ?_⟩⟩
      simpa using he
    | cons x a =>
      rw [List.flatten_cons, List.cons_append] at he
      have hc' := hc
      rcases hc with ⟨i, h1, h2, rfl⟩ | ⟨g, hg, rfl⟩
      · simp only [List.cons_append, List.nil_append, List.cons.injEq] at he
        obtain ⟨rfl, he⟩ := he
        have hla : a.getLast? ≠ some 27 := by
          cases a with
          | nil => simp
          | cons y a => rw [List.getLast?_cons_cons] at ha; exact ha
        obtain ⟨t1, t2, rfl, ⟨q, hq, rfl⟩, h4⟩ := ih hla he
        exact ⟨c :: t1, t2, rfl, ⟨[x] :: q, .cons hc' hq, rfl⟩, h4⟩
      · simp only [List.cons_append, List.nil_append, List.cons.injEq] at he
        obtain ⟨rfl, he⟩ := he
        cases a with
        | nil => simp at ha
        | cons y a =>
          simp only [List.cons_append, List.cons.injEq] at he
          obtain ⟨rfl, he⟩ := he
          have hla : a.getLast? ≠ some 27 := by
            cases a with
            | nil => simp
            | cons z a => rw [List.getLast?_cons_cons, List.getLast?_cons_cons] at ha; exact ha
          obtain ⟨t1, t2, rfl, ⟨q, hq, rfl⟩, h4⟩ := ih hla he
          exact ⟨c :: t1, t2, rfl, ⟨[27, y] :: q, .cons hc' hq, rfl⟩, h4⟩

theorem not_spells_esc (t : List Nat) : ¬ Spells t [27] := by
  rintro ⟨p, hp, he⟩
  cases hp with
  | nil => simp at he
  | cons hc hps =>
    rcases hc with ⟨i, h1, h2, rfl⟩ | ⟨g, hg, rfl⟩
    · simp at he; exact h1 he.1.symm
    · simp at he

/-- every part of a spelled text is itself a spelled piece of the text -/
theorem chunks_spells {size : Nat} {g : Str} {parts : List Str} (h : Chunks size g parts) (hs : 2 ≤ size) :
    ∀ t, Spells t g → ∃ ts, List.Forall₂ Spells ts parts ∧ ts.flatten = t := by
  induction h with
  | nil =>
    intro t ht
    obtain ⟨p, hp, he⟩ := ht
    cases hp with
    | nil => exact ⟨[], .nil, rfl⟩
    | cons hc _ =>
      exfalso
      have := Gsm.code_ne_nil hc
      rw [List.flatten_cons] at he
      exact this (List.append_eq_nil_iff.1 he.symm).1
  | cons rest parts hne _ ih =>
    intro t ht
    have hcut : ∃ t1 t2, t = t1 ++ t2 ∧ Spells t1 (rest.take (partLen size rest)) ∧
        Spells t2 (rest.drop (partLen size rest)) := by
      unfold partLen
      by_cases he : (rest.take size).getLast? = some 27
      · rw [if_pos he]
        obtain ⟨ys, hys⟩ := List.getLast?_eq_some_iff.1 he
        have hr : rest = ys ++ 27 :: rest.drop size := by
          conv_lhs => rw [← List.take_append_drop size rest, hys]
          simp
        have hlen : ys.length = size - 1 := by
          have h1 : (rest.take size).length = ys.length + 1 := by rw [hys]; simp
          rw [List.length_take] at h1
          by_cases hl : size ≤ rest.length
          · omega
          · exfalso
            have h0 : rest.drop size = [] := List.drop_eq_nil_of_le (by omega)
            rw [h0] at hr
            rw [hr] at ht
            obtain ⟨t1, t2, _, _, h4⟩ := spells_cut_esc ht
            exact not_spells_esc _ h4
        have htk : rest.take (size - 1) = ys := by rw [hr, ← hlen, List.take_left]
        have hdr : rest.drop (size - 1) = 27 :: rest.drop size := by
          conv_lhs => rw [hr, ← hlen, List.drop_left]
        rw [htk, hdr]
        exact spells_cut_esc (by rw [← hr]; exact ht)
      · rw [if_neg he]
        exact spells_cut (by rw [List.take_append_drop]; exact ht) he
    obtain ⟨t1, t2, rfl, h1, h2⟩ := hcut
    obtain ⟨ts, h3, h4⟩ := ih t2 h2
    exact ⟨t1 :: ts, .cons h1 h3, by rw [List.flatten_cons, h4]⟩

end Verif.Submit

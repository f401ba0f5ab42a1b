import Verif.Spec.Codecs
/-!
# The registry of codecs
-/
set_option autoImplicit false

namespace Verif.Codecs
open Verif.Spec.Codecs

/-- the search functions that a program registers -/
def funcsOf : List Ev → List Search
  | [] => []
  | .imported :: es => getregentry :: funcsOf es
  | .registered f :: es => f :: funcsOf es
  | .lookedUp _ :: es => funcsOf es

theorem search_append (a b : List Search) (k : Str) :
    search (a ++ b) k = match search a k with | some c => some c | none => search b k := by
  induction a with
  | nil => rfl
  | cons f a ih =>
    simp only [List.cons_append, search]
    cases f k with
    | some c => rfl
    | none => exact ih

/-- what is remembered is what would be found -/
def Fresh (r : Registry) : Prop := ∀ p ∈ r.cache, search r.funcs p.1 = some p.2

theorem fresh_register {r : Registry} (h : Fresh r) (f : Search) : Fresh (register f r) := by
  intro p hp
  simp only [register, search_append, h p hp]

theorem lookup_fst {r : Registry} (h : Fresh r) (name : Str) : (lookup name r).1 = search r.funcs (normalize name) := by
  unfold lookup
  cases hc : r.cache.find? (fun p => p.1 == normalize name) with
  | some p =>
    have h1 := h p (List.mem_of_find?_eq_some hc)
    have h2 := List.find?_some hc
    simp only [beq_iff_eq] at h2
    rw [h2] at h1
    exact h1.symm
  | none =>
    dsimp only
    cases search r.funcs (normalize name) with
    | some c => rfl
    | none => rfl

theorem lookup_snd {r : Registry} (h : Fresh r) (name : Str) :
    (lookup name r).2.funcs = r.funcs ∧ Fresh (lookup name r).2 := by
  unfold lookup
  cases hc : r.cache.find? (fun p => p.1 == normalize name) with
  | some p => exact ⟨rfl, h⟩
  | none =>
    dsimp only
    cases hs : search r.funcs (normalize name) with
    | none => exact ⟨rfl, h⟩
    | some c =>
      refine ⟨rfl, fun p hp => ?_⟩
      rcases List.mem_cons.1 hp with rfl | hp
      · exact hs
      · exact h p hp

theorem foldl_step (evs : List Ev) : ∀ {r : Registry}, Fresh r →
    Fresh (evs.foldl step r) ∧ (evs.foldl step r).funcs = r.funcs ++ funcsOf evs := by
  induction evs with
  | nil => intro r h; exact ⟨h, by simp [funcsOf]⟩
  | cons e es ih =>
    intro r h
    cases e with
    | imported =>
      obtain ⟨a, b⟩ := ih (fresh_register h getregentry)
      exact ⟨a, b.trans (by simp [register, funcsOf])⟩
    | registered f =>
      obtain ⟨a, b⟩ := ih (fresh_register h f)
      exact ⟨a, b.trans (by simp [register, funcsOf])⟩
    | lookedUp name =>
      obtain ⟨x, y⟩ := lookup_snd h name
      obtain ⟨a, b⟩ := ih y
      exact ⟨a, b.trans (by rw [x, funcsOf])⟩

theorem run_lookup (evs : List Ev) (name : Str) : (lookup name (run evs)).1 = search (funcsOf evs) (normalize name) := by
  obtain ⟨a, b⟩ := foldl_step evs (r := ⟨[], []⟩) (fun p hp => by cases hp)
  unfold run
  rw [lookup_fst a, b, List.nil_append]

theorem search_without (evs : List Ev) (k : Str) (hk : k ≠ py! "gsm0338") :
    search (funcsOf (without evs)) k = search (funcsOf evs) k := by
  induction evs with
  | nil => rfl
  | cons e es ih =>
    cases e with
    | imported =>
      have : without (.imported :: es) = without es := rfl
      rw [this, ih]
      simp only [funcsOf, search, getregentry, if_neg hk]
    | registered f =>
      have : without (.registered f :: es) = .registered f :: without es := rfl
      rw [this]
      simp only [funcsOf, search, ih]
    | lookedUp n =>
      have : without (.lookedUp n :: es) = .lookedUp n :: without es := rfl
      rw [this]
      simp only [funcsOf, ih]

theorem search_gsm (evs : List Ev) (hu : Unclaimed evs) :
    (Ev.imported ∈ evs → search (funcsOf evs) (py! "gsm0338") = some gsmCodec) ∧
    (Ev.imported ∉ evs → search (funcsOf evs) (py! "gsm0338") = none) := by
  induction evs with
  | nil => exact ⟨fun h => (by cases h), fun _ => rfl⟩
  | cons e es ih =>
    have hu' : Unclaimed es := fun f hf => hu f (List.mem_cons_of_mem _ hf)
    obtain ⟨i1, i2⟩ := ih hu'
    cases e with
    | imported => exact ⟨fun _ => rfl, fun h => absurd List.mem_cons_self h⟩
    | registered f =>
      have hf : f (py! "gsm0338") = none := hu f List.mem_cons_self
      simp only [funcsOf, search, hf]
      refine ⟨fun h => i1 ?_, fun h => i2 fun hc => h (List.mem_cons_of_mem _ hc)⟩
      rcases List.mem_cons.1 h with h | h
      · cases h
      · exact h
    | lookedUp n =>
      simp only [funcsOf]
      refine ⟨fun h => i1 ?_, fun h => i2 fun hc => h (List.mem_cons_of_mem _ hc)⟩
      rcases List.mem_cons.1 h with h | h
      · cases h
      · exact h

theorem normalize_char {c d : Nat} (hd : 97 ≤ d ∧ d ≤ 122 ∨ 48 ≤ d ∧ d ≤ 57)
    (h : (if c = 32 then 45 else if 65 ≤ c ∧ c ≤ 90 then c + 32 else c) = d) : c = d ∨ 97 ≤ d ∧ c + 32 = d := by
  split at h
  · omega
  · split at h <;> omega

theorem normalize_iff (name : Str) : normalize name = py! "gsm0338" ↔ Spelling name := by
  constructor
  · intro h
    have hl : name.length = 7 := by
      have := congrArg List.length h
      simpa [normalize] using this
    match name, hl with
    | [a, b, c, d, e, f, g], _ =>
      have h' : normalize [a, b, c, d, e, f, g] = [103, 115, 109, 48, 51, 51, 56] := h
      simp only [normalize, List.map_cons, List.map_nil, List.cons.injEq, and_true] at h'
      obtain ⟨h1, h2, h3, h4, h5, h6, h7⟩ := h'
      have k1 := normalize_char (by omega) h1
      have k2 := normalize_char (by omega) h2
      have k3 := normalize_char (by omega) h3
      have k4 := normalize_char (by omega) h4
      have k5 := normalize_char (by omega) h5
      have k6 := normalize_char (by omega) h6
      have k7 := normalize_char (by omega) h7
      have e4 : d = 48 := by omega
      have e5 : e = 51 := by omega
      have e6 : f = 51 := by omega
      have e7 : g = 56 := by omega
      subst e4 e5 e6 e7
      have q1 : a = 103 ∨ a = 71 := by omega
      have q2 : b = 115 ∨ b = 83 := by omega
      have q3 : c = 109 ∨ c = 77 := by omega
      refine ⟨if a = 103 then 'g' else 'G', if b = 115 then 's' else 'S', if c = 109 then 'm' else 'M', ?_, ?_, ?_, ?_⟩
      · split <;> simp
      · split <;> simp
      · split <;> simp
      · rcases q1 with rfl | rfl <;> rcases q2 with rfl | rfl <;> rcases q3 with rfl | rfl <;> rfl
  · rintro ⟨g, s, m, hg, hs, hm, rfl⟩
    rcases hg with rfl | rfl <;> rcases hs with rfl | rfl <;> rcases hm with rfl | rfl <;> rfl

theorem errorsOf_eq {errors : Option Str} {e : Gsm.Errors} (h : Asks errors e) : errorsOf errors = e := by
  cases h with
  | unsaid => rfl
  | strict => rfl
  | replace => rfl
  | ignore => rfl
  | unknown e h =>
    simp only [List.mem_cons, List.not_mem_nil, or_false, not_or] at h
    simp only [errorsOf, if_neg h.1, if_neg h.2.1, if_neg h.2.2]

end Verif.Codecs

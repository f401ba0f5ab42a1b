import Verif.Proofs.Submit4
import Verif.Proofs.Submit5
import Verif.Spec.Sending
/-!
# No division in parts has fewer parts than the greedy one
-/
set_option autoImplicit false

namespace Verif.Submit
open Verif.Spec Verif.Spec.Sms Verif.Spec.Submit Verif.Spec.Gsm

/-- pieces that, if full, do not end within an escape cover at most as much as the same number of greedy parts -/
theorem chunks_least {size : Nat} (hs : 2 ≤ size) : ∀ (qs : List Str) (y rest : Str) (parts : List Str),
    Chunks size rest parts → qs.flatten = y ++ rest → (∀ q ∈ qs, q.length ≤ size ∧ (q.length = size → q.getLast? ≠ some 27)) →
    parts.length ≤ qs.length
  | [], y, rest, parts, hc, hf, _ => by
    rw [List.flatten_nil] at hf
    have h0 := (List.append_eq_nil_iff.1 hf.symm).2
    subst h0
    cases hc with
    | nil => simp
    | cons _ _ h _ => exact absurd rfl h
  | q :: qs, y, rest, parts, hc, hf, hq => by
    have ih := chunks_least hs qs
    have hq' : ∀ q ∈ qs, q.length ≤ size ∧ (q.length = size → q.getLast? ≠ some 27) := fun x hx => hq x (by simp [hx])
    obtain ⟨hl, he⟩ := hq q (by simp)
    cases hc with
    | nil => simp
    | cons rest parts hne hc =>
      rw [List.flatten_cons] at hf
      rw [List.length_cons, List.length_cons]
      refine Nat.succ_le_succ ?_
      rcases List.append_eq_append_iff.1 hf with ⟨a, ha, hb⟩ | ⟨z, hz, hb⟩
      · -- the first piece lies within `y`
        refine ih (a ++ rest.take (partLen size rest)) _ _ hc ?_ hq'
        rw [hb, List.append_assoc, List.take_append_drop]
      · -- the first piece reaches `z` of `rest`
        have hzl : z.length ≤ partLen size rest := by
          have h1 : y.length + z.length ≤ size := by rw [← List.length_append, ← hz]; exact hl
          unfold partLen
          split
          · rename_i h27
            by_contra hlt
            have hy : y = [] := List.length_eq_zero_iff.1 (by omega)
            have hzs : z.length = size := by omega
            have ht : rest.take size = z := by rw [hb, ← hzs, List.take_left]
            rw [ht] at h27
            rw [hz, hy, List.nil_append] at he
            exact he hzs h27
          · omega
        have hsplit : qs.flatten = (qs.flatten.take (partLen size rest - z.length)) ++ rest.drop (partLen size rest) := by
          conv_lhs => rw [← List.take_append_drop (partLen size rest - z.length) qs.flatten]
          congr 1
          generalize partLen size rest = k at hzl
          rw [hb, List.drop_append, List.drop_eq_nil_of_le hzl, List.nil_append]
        exact ih _ _ _ hc hsplit hq'

/-- a spelling does not end with the escape -/
theorem spells_last {u us : List Nat} (h : Spells u us) : us.getLast? ≠ some 27 := by
  intro he
  obtain ⟨ys, rfl⟩ := List.getLast?_eq_some_iff.1 he
  obtain ⟨t1, t2, _, _, h4⟩ := spells_cut_esc h
  exact not_spells_esc _ h4

theorem spells_append' {a b c d : List Nat} (h : Spells a c) (h' : Spells b d) : Spells (a ++ b) (c ++ d) := by
  obtain ⟨p, hp, rfl⟩ := h
  obtain ⟨q, hq, rfl⟩ := h'
  exact ⟨p ++ q, List.rel_append hp hq, by rw [List.flatten_append]⟩

theorem spells_len {t g : List Nat} (h : Spells t g) : g.length ≤ 2 * t.length := by
  obtain ⟨parts, hp, rfl⟩ := h
  induction hp with
  | nil => simp
  | cons h1 _ ih =>
    rw [List.flatten_cons, List.length_append, List.length_cons]
    rcases h1 with ⟨i, _, _, rfl⟩ | ⟨g, _, rfl⟩ <;> simp only [List.length_cons, List.length_nil] <;> omega

/-- spellings of the parts, one by one -/
theorem fits_pieces {n : Nat} : ∀ (ts : List (List Nat)), (∀ u ∈ ts, Fits .gsm n u) →
    ∃ qs : List Str, qs.length = ts.length ∧ Spells ts.flatten qs.flatten ∧ ∀ q ∈ qs, q.length ≤ n ∧ q.getLast? ≠ some 27
  | [], _ => ⟨[], rfl, ⟨[], .nil, rfl⟩, by simp⟩
  | t :: ts, h => by
    obtain ⟨us, h1, h2⟩ := h t (by simp)
    obtain ⟨qs, h3, h4, h5⟩ := fits_pieces ts (fun u hu => h u (by simp [hu]))
    refine ⟨us :: qs, by simp [h3], ?_, ?_⟩
    · rw [List.flatten_cons, List.flatten_cons]
      exact spells_append' h1 h4
    · intro q hq
      rcases List.mem_cons.1 hq with rfl | hq
      · exact ⟨h2, spells_last h1⟩
      · exact h5 q hq

theorem sending_pos {al : Alphabet} {t : List Nat} {ts : List (List Nat)} (h : Sending al t ts) : 1 ≤ ts.length := by
  rcases h.2 with ⟨u, rfl, _⟩ | ⟨h, _⟩
  · simp
  · omega

theorem gsmCut_least {t g : List Nat} {ts : List Str} (hg : Spells t g) (h : GsmCut t g ts) {ts' : List (List Nat)}
    (h' : Sending .gsm t ts') : ts.length ≤ ts'.length := by
  rcases h.2 with ⟨_, rfl⟩ | ⟨h2, parts, hp, hf⟩
  · exact sending_pos h'
  · rcases h'.2 with ⟨u, rfl, us, hu, hl⟩ | ⟨_, hq⟩
    · have : u = t := by simpa using h'.1
      subst this
      have := spells_unique hg hu
      subst this
      simp only [single] at hl
      omega
    · obtain ⟨qs, h3, h4, h5⟩ := fits_pieces ts' hq
      rw [h'.1] at h4
      have := spells_unique hg h4
      rw [hf.length_eq, ← h3]
      exact chunks_least (by decide) qs [] g parts hp (by rw [this]; rfl) (fun q hq => ⟨(h5 q hq).1, fun _ => (h5 q hq).2⟩)

theorem ucsCut_least {t : List Nat} {ts : List Str} (h : UcsCut t ts) {ts' : List (List Nat)} (h27 : NoFullEsc ts')
    (h' : Sending .ucs2 t ts') : ts.length ≤ ts'.length := by
  rcases h with ⟨_, rfl⟩ | ⟨h2, hp⟩
  · exact sending_pos h'
  · rcases h'.2 with ⟨u, rfl, us, hu, hl⟩ | ⟨hl2, hq⟩
    · have : u = t := by simpa using h'.1
      subst this
      have : us = u := hu
      subst this
      simp only [single] at hl
      omega
    · refine chunks_least (by decide) ts' [] t ts hp (by rw [h'.1]; rfl) ?_
      intro q hqm
      obtain ⟨us, hu, hl⟩ := hq q hqm
      have : us = q := hu
      subst this
      exact ⟨hl, fun h1 => h27 hl2 us hqm h1⟩

/-- no part the loop cuts off is full and ends with ESC -/
theorem chunks_noFullEsc {size : Nat} (hs : 2 ≤ size) {rest : Str} {parts : List Str} (h : Chunks size rest parts) :
    ∀ q ∈ parts, q.length = size → q.getLast? ≠ some 27 := by
  induction h with
  | nil => simp
  | cons rest parts _ _ ih =>
    intro q hq hl
    rcases List.mem_cons.1 hq with rfl | hq
    · rw [List.length_take] at hl
      unfold partLen at hl ⊢
      split at hl
      · omega
      · rename_i hne
        rw [if_neg hne]
        exact hne
    · exact ih q hq hl

theorem ucsCut_noFullEsc {t : List Nat} {ts : List Str} (h : UcsCut t ts) : NoFullEsc ts := by
  intro h2 q hq hl
  rcases h with ⟨_, rfl⟩ | ⟨_, hp⟩
  · simp at h2
  · exact chunks_noFullEsc (by decide) hp q hq hl

theorem division_sending {al : Alphabet} {t : List Nat} {ts : List (List Nat)} (h : Division al t ts) : Sending al t ts := by
  obtain ⟨h1, units, hu, h2⟩ := h
  refine ⟨h1, ?_⟩
  rcases h2 with ⟨hl, rfl⟩ | ⟨_, h3, h4, _⟩
  · exact .inl ⟨t, rfl, units, hu, hl⟩
  · refine .inr ⟨h3, fun u hm => ?_⟩
    obtain ⟨_, us, a, _, b⟩ := h4 u hm
    exact ⟨us, a, b⟩

/-- leaving items out never takes more parts -/
theorem chunks_mono {size : Nat} (hs : 2 ≤ size) {r1 r2 : Str} {p1 p2 : List Str} (h1 : Chunks size r1 p1)
    (h2 : Chunks size r2 p2) (h : List.Sublist r1 r2) : p1.length ≤ p2.length := by
  induction h2 generalizing r1 p1 with
  | nil =>
    rw [List.sublist_nil] at h
    subst h
    cases h1 with
    | nil => simp
    | cons _ _ h0 _ => exact absurd rfl h0
  | cons r2 p2 hne _ ih =>
    cases h1 with
    | nil => simp
    | cons r1 p1 hne1 hc1 =>
      rw [List.length_cons, List.length_cons]
      refine Nat.succ_le_succ (ih hc1 ?_)
      have hcut : List.Sublist r1 (r2.take (partLen size r2) ++ r2.drop (partLen size r2)) := by
        rw [List.take_append_drop]; exact h
      obtain ⟨a, b, hab, ha, hb⟩ := List.sublist_append_iff.1 hcut
      have hal : a.length ≤ partLen size r1 := by
        have e1 := ha.length_le
        rw [List.length_take] at e1
        by_contra hlt
        have e2 : size - 1 ≤ partLen size r1 := by unfold partLen; split <;> omega
        have e3 := (partLen_pos (rest := r2) hs).2
        have e4 : partLen size r2 = size := by omega
        have e5 : partLen size r1 = size - 1 := by omega
        have e6 : a.length = size := by omega
        rw [e4] at ha
        have hsz : size ≤ r2.length := by omega
        have e7 : a = r2.take size := ha.eq_of_length (by rw [List.length_take]; omega)
        have e8 : r1.take size = r2.take size := by rw [hab, ← e7, ← e6, List.take_left]
        unfold partLen at e4 e5
        rw [e8] at e5
        split at e5
        · rename_i h27
          rw [if_pos h27] at e4
          omega
        · omega
      generalize partLen size r1 = k at hal
      rw [hab, List.drop_append, List.drop_eq_nil_of_le hal, List.nil_append]
      exact (List.drop_sublist _ _).trans hb

/-- the spelling of a text with characters left out -/
theorem spells_sublist {t v g : List Nat} (h : Spells t g) (hv : v.Sublist t) : ∃ g', Spells v g' ∧ g'.Sublist g := by
  obtain ⟨p, hp, rfl⟩ := h
  induction hv generalizing p with
  | slnil => cases hp; exact ⟨[], ⟨[], .nil, rfl⟩, List.Sublist.refl _⟩
  | cons a _ ih =>
    cases hp with
    | cons hc hp =>
      obtain ⟨g', h1, h2⟩ := ih _ hp
      exact ⟨g', h1, by rw [List.flatten_cons]; exact h2.trans (List.sublist_append_right _ _)⟩
  | cons_cons a _ ih =>
    cases hp with
    | @cons _ q _ ps hc hp =>
      obtain ⟨g', ⟨r, hr, rfl⟩, h2⟩ := ih _ hp
      exact ⟨q ++ r.flatten, ⟨q :: r, .cons hc hr, rfl⟩, by
        rw [List.flatten_cons]; exact (List.Sublist.refl q).append h2⟩

/-- how `to_pdu` cuts the text -/
def Cut (al : Alphabet) (t : List Nat) (ts : List Str) : Prop :=
  match al with
  | .gsm => ∃ g, Spells t g ∧ GsmCut t g ts
  | .ucs2 => UcsCut t ts
  | .bin => ts = [t] ∧ t.length ≤ 140

theorem cut_pos {al : Alphabet} {t : List Nat} {ts : List Str} (h : Cut al t ts) : 1 ≤ ts.length := by
  cases al with
  | gsm =>
    obtain ⟨g, _, h⟩ := h
    rcases h.2 with ⟨_, rfl⟩ | ⟨h2, parts, hp, hf⟩
    · simp
    · have := chunks_two (by decide) hp (by omega)
      rw [hf.length_eq]; omega
  | bin => rw [h.1]; simp
  | ucs2 =>
    rcases h with ⟨_, rfl⟩ | ⟨h2, hp⟩
    · simp
    · have := chunks_two (by decide) hp (by omega)
      omega

theorem cut_mono {al : Alphabet} {t v : List Nat} {ts vs : List Str} (h : Cut al t ts) (h' : Cut al v vs)
    (hv : v.Sublist t) : vs.length ≤ ts.length := by
  have hpos := cut_pos h
  cases al with
  | gsm =>
    obtain ⟨g, hg, h⟩ := h
    obtain ⟨g', hg', h'⟩ := h'
    obtain ⟨g2, hg2, hsub⟩ := spells_sublist hg hv
    have := spells_unique hg2 hg'
    subst this
    rcases h'.2 with ⟨_, rfl⟩ | ⟨h2, parts, hp, hf⟩
    · exact hpos
    · rcases h.2 with ⟨h3, _⟩ | ⟨_, parts', hp', hf'⟩
      · have := hsub.length_le; omega
      · rw [hf.length_eq, hf'.length_eq]
        exact chunks_mono (by decide) hp hp' hsub
  | bin => rw [h'.1]; exact hpos
  | ucs2 =>
    rcases h' with ⟨_, rfl⟩ | ⟨h2, hp⟩
    · exact hpos
    · rcases h with ⟨h3, _⟩ | ⟨_, hp'⟩
      · have := hv.length_le; omega
      · exact chunks_mono (by decide) hp hp' hv

theorem cut_sending {al : Alphabet} {t : List Nat} {ts : List Str} (h : Cut al t ts) : Sending al t ts := by
  cases al with
  | gsm => obtain ⟨g, hg, h⟩ := h; exact division_sending (gsmCut_division hg h)
  | ucs2 => exact division_sending (ucsCut_division h)
  | bin =>
    obtain ⟨rfl, h⟩ := h
    exact ⟨by simp, .inl ⟨_, rfl, _, rfl, h⟩⟩

theorem cut_least {al : Alphabet} {t : List Nat} {ts : List Str} (h : Cut al t ts)
    {ts' : List (List Nat)} (h27 : al = .ucs2 → NoFullEsc ts') (h' : Sending al t ts') : ts.length ≤ ts'.length := by
  cases al with
  | gsm => obtain ⟨g, hg, h⟩ := h; exact gsmCut_least hg h h'
  | ucs2 => exact ucsCut_least h (h27 rfl) h'
  | bin => rw [h.1]; exact sending_pos h'

/-- what `to_pdu` does with the text -/
theorem toPdu_cut {s : State} {al : Alphabet} (hr : Ready s) (hu : Uses s al) :
    ∃ ts s', Cut al s.text.s ts ∧ (ts.length ≤ 255 → ∃ ps, toPdu s = .ok ps s' ∧ ps.length = ts.length) ∧
      (255 < ts.length → toPdu s = .err .valueError s') := by
  cases al with
  | gsm =>
    obtain ⟨hf, ht⟩ := hu
    have he : effFmt s = 0 := by
      unfold effFmt
      rcases hf with h | h
      · rw [h]
      · rw [h]; simp only; rw [if_pos ((gsmText_iff _).2 ht)]
    obtain ⟨g, hg⟩ := gsmText_encode ht
    obtain ⟨ts, h1, h2, h3⟩ := toPdu_gsm hr he hg
    have hs := (encode_iff.1 hg).1
    refine ⟨ts, _, ⟨g, hs, h1⟩, fun hl => ?_, h3⟩
    obtain ⟨ps, h4, h5, _⟩ := h2 hl
    exact ⟨ps, h4, h5⟩
  | ucs2 =>
    obtain ⟨hf, hc, hu⟩ := hu
    have he : effFmt s = 8 := by
      unfold effFmt
      rcases hf with h | ⟨h, ht⟩
      · rw [h]
      · rw [h]; simp only; rw [if_neg (fun h => ht ((gsmText_iff _).1 h))]
    obtain ⟨ts, h1, h2, h3⟩ := toPdu_ucs2 hr he hc hu
    refine ⟨ts, _, h1, fun hl => ?_, h3⟩
    obtain ⟨ps, h4, h5, _⟩ := h2 hl
    exact ⟨ps, h4, h5⟩
  | bin =>
    obtain ⟨hf, hc, hl, hu⟩ := hu
    have he : effFmt s = 4 := by unfold effFmt; rw [hf]
    obtain ⟨ps, h1, h2, _⟩ := toPdu_bin hr he hc hl hu
    exact ⟨[s.text.s], _, ⟨rfl, hl⟩, fun _ => ⟨ps, h1, h2⟩, by simp⟩

end Verif.Submit

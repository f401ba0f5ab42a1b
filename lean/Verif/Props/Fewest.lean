import Verif.Proofs.Fewest
import Verif.Props.Submit
/-!
# C93, C94: the number of messages a text takes
-/
set_option autoImplicit false

namespace Verif.Props
open Verif Verif.Submit Verif.Spec Verif.Spec.Sms Verif.Spec.Submit Verif.Spec.Gsm

/-- what can be sent in the GSM alphabet consists of its characters -/
theorem sending_supported {t : List Nat} {ts : List (List Nat)} (h : Sending .gsm t ts) : ∀ c ∈ t, Supported c := by
  obtain ⟨rfl, h⟩ := h
  intro c hc
  obtain ⟨u, hu, hcu⟩ := List.mem_flatten.1 hc
  rcases h with ⟨v, rfl, us, h3, _⟩ | ⟨_, h3⟩
  · rw [List.mem_singleton.1 hu] at hcu
    exact Gsm.spells_supported h3 c hcu
  · obtain ⟨us, h4, _⟩ := h3 u hu
    exact Gsm.spells_supported h4 c hcu

/-- every way to send a text in UCS2 with several parts is also possible, with room to spare, in the GSM alphabet -/
theorem sending_gsm {t : List Nat} {ts : List (List Nat)} (hs : ∀ c ∈ t, Supported c) (h : Sending .ucs2 t ts)
    (h2 : 2 ≤ ts.length) : Sending .gsm t ts := by
  refine ⟨h.1, .inr ⟨h2, fun u hu => ?_⟩⟩
  rcases h.2 with ⟨v, rfl, _⟩ | ⟨_, hq⟩
  · simp at h2
  · obtain ⟨us, h3, h4⟩ := hq u hu
    have : us = u := h3
    subst this
    obtain ⟨g, hg⟩ := Gsm.spells_exists (t := us) (fun c hc => hs c (by rw [← h.1]; exact List.mem_flatten.2 ⟨us, hu, hc⟩))
    have := spells_len hg
    simp only [partSize] at h4 ⊢
    exact ⟨g, hg, by show g.length ≤ 153; omega⟩

/-- characters can be left out of a text: what is left of each part still fits -/
theorem fits_sublist {al : Alphabet} {n : Nat} {u v : List Nat} (h : v.Sublist u) (hf : Fits al n u) : Fits al n v := by
  obtain ⟨us, h1, h2⟩ := hf
  cases al with
  | gsm =>
    obtain ⟨p, hp, rfl⟩ := h1
    have : ∃ q, List.Forall₂ Code v q ∧ q.flatten.length ≤ p.flatten.length := by
      clear h2
      induction h generalizing p with
      | slnil => cases hp; exact ⟨[], .nil, by simp⟩
      | cons a _ ih =>
        cases hp with
        | cons hc hp =>
          obtain ⟨q, hq, hl⟩ := ih _ hp
          exact ⟨q, hq, by rw [List.flatten_cons, List.length_append]; omega⟩
      | cons_cons a _ ih =>
        cases hp with
        | cons hc hp =>
          obtain ⟨q, hq, hl⟩ := ih _ hp
          refine ⟨_ :: q, .cons hc hq, ?_⟩
          rw [List.flatten_cons, List.flatten_cons, List.length_append, List.length_append]; omega
    obtain ⟨q, hq, hl⟩ := this
    exact ⟨q.flatten, ⟨q, hq, rfl⟩, by omega⟩
  | bin =>
    have : us = u := h1
    subst this
    exact ⟨v, rfl, Nat.le_trans h.length_le h2⟩
  | ucs2 =>
    have : us = u := h1
    subst this
    exact ⟨v, rfl, Nat.le_trans h.length_le h2⟩

theorem sublist_pieces {v : List Nat} : ∀ (ts : List (List Nat)), v.Sublist ts.flatten →
    ∃ vs : List (List Nat), vs.flatten = v ∧ List.Forall₂ List.Sublist vs ts := by
  intro ts
  induction ts generalizing v with
  | nil =>
    intro h
    rw [List.flatten_nil, List.sublist_nil] at h
    exact ⟨[], h.symm, .nil⟩
  | cons t ts ih =>
    intro h
    rw [List.flatten_cons] at h
    obtain ⟨a, b, rfl, h1, h2⟩ := List.sublist_append_iff.1 h
    obtain ⟨vs, rfl, h3⟩ := ih h2
    exact ⟨a :: vs, rfl, .cons h1 h3⟩

theorem sending_sublist {al : Alphabet} {t v : List Nat} {ts : List (List Nat)} (h : Sending al t ts) (hv : v.Sublist t) :
    ∃ vs, Sending al v vs ∧ vs.length = ts.length := by
  obtain ⟨rfl, h2⟩ := h
  obtain ⟨vs, rfl, h3⟩ := sublist_pieces ts hv
  refine ⟨vs, ⟨rfl, ?_⟩, h3.length_eq⟩
  rcases h2 with ⟨u, rfl, hf⟩ | ⟨hl, hf⟩
  · cases h3 with
    | cons h4 h5 =>
      cases h5
      exact .inl ⟨_, rfl, fits_sublist h4 hf⟩
  · refine .inr ⟨by rw [h3.length_eq]; exact hl, fun u hu => ?_⟩
    obtain ⟨w, hw, hs⟩ := forall₂_mem h3 u hu
    exact fits_sublist hs (hf w hw)

/-! ## C93 -/

/-- C93 in full: no way to send the text in the alphabet that is used takes fewer messages, and if there is a way with at
most 255 messages the text is sent. -/
def C93_full : Prop := ∀ (s : State) (al : Alphabet), Ready s → Uses s al → ∀ ts, Sending al s.text.s ts →
  (∀ ps s', toPdu s = .ok ps s' → ps.length ≤ ts.length) ∧
  (ts.length ≤ 255 → ∃ ps s', toPdu s = .ok ps s')

theorem noFullEsc_text {al : Alphabet} {t : List Nat} {ts : List (List Nat)} (h : Sending al t ts) (h27 : 27 ∉ t) :
    NoFullEsc ts := by
  intro _ u hu _ h0
  refine h27 ?_
  rw [← h.1]
  exact List.mem_flatten.2 ⟨u, hu, List.mem_of_getLast? h0⟩

/-- C93 except for the ways to send a UCS2 text in which some full part of several ends with an ESC character (U+001B).
Missing: these, for which it is false (`C93_refuted`). -/
theorem C93_partial (s : State) (al : Alphabet) (hr : Ready s) (hu : Uses s al)
    (ts : List (List Nat)) (h27 : al = .ucs2 → NoFullEsc ts) (h : Sending al s.text.s ts) :
    (∀ ps s', toPdu s = .ok ps s' → ps.length ≤ ts.length) ∧
    (ts.length ≤ 255 → ∃ ps s', toPdu s = .ok ps s') := by
  obtain ⟨us, s1, h1, h3, h4⟩ := toPdu_cut hr hu
  have hle := cut_least h1 h27 h
  constructor
  · intro ps s' hp
    by_cases hl : us.length ≤ 255
    · obtain ⟨qs, h5, h6⟩ := h3 hl
      rw [h5] at hp
      cases hp
      omega
    · rw [h4 (by omega)] at hp
      cases hp
  · intro hl
    obtain ⟨qs, h5, _⟩ := h3 (by omega)
    exact ⟨qs, s1, h5⟩

/-- the number of messages is that of some way to send the text without full parts that end with ESC: with `C93_partial`,
it is the least such number -/
theorem C93_attained (s : State) (al : Alphabet) (hr : Ready s) (hu : Uses s al) (ps : List Pdu) (s' : State)
    (hp : toPdu s = .ok ps s') :
    ∃ ts, Sending al s.text.s ts ∧ (al = .ucs2 → NoFullEsc ts) ∧ ts.length = ps.length := by
  obtain ⟨ts, s1, h1, h3, h4⟩ := toPdu_cut hr hu
  by_cases hl : ts.length ≤ 255
  · obtain ⟨qs, h5, h6⟩ := h3 hl
    rw [h5] at hp
    cases hp
    exact ⟨ts, cut_sending h1, fun he => by subst he; exact ucsCut_noFullEsc h1, h6.symm⟩
  · rw [h4 (by omega)] at hp
    cases hp

/-- C22, exactly: ValueError is raised when, and only when, every way to send the text (for UCS2, without full parts that
end with ESC) takes more than 255 messages. -/
theorem C22_exact (s : State) (al : Alphabet) (hr : Ready s) (hu : Uses s al) :
    ((∃ s', toPdu s = .err .valueError s') ↔
      ∀ ts, Sending al s.text.s ts → (al = .ucs2 → NoFullEsc ts) → 255 < ts.length) ∧
    ((∃ ps s', toPdu s = .ok ps s') ↔
      ∃ ts, Sending al s.text.s ts ∧ (al = .ucs2 → NoFullEsc ts) ∧ ts.length ≤ 255) := by
  obtain ⟨us, s1, h1, h3, h4⟩ := toPdu_cut hr hu
  have hs := cut_sending h1
  have hn : al = .ucs2 → NoFullEsc us := fun he => by subst he; exact ucsCut_noFullEsc h1
  refine ⟨⟨?_, fun h => ⟨s1, h4 (h us hs hn)⟩⟩, ⟨?_, ?_⟩⟩
  · rintro ⟨s', he⟩ ts ht h27
    have hle := cut_least h1 h27 ht
    by_cases hl : us.length ≤ 255
    · obtain ⟨qs, h5, _⟩ := h3 hl
      rw [h5] at he
      cases he
    · omega
  · rintro ⟨ps, s', hp⟩
    refine ⟨us, hs, hn, ?_⟩
    by_contra hl
    rw [h4 (by omega)] at hp
    cases hp
  · rintro ⟨ts, ht, h27, hl⟩
    exact (C93_partial s al hr hu ts h27 ht).2 hl

/-- the alphabet that is chosen by default allows a way to send the text that is no longer than any in another alphabet -/
theorem automatic_least {s : State} {al al' : Alphabet} (hf : s.fmt = none) (hu : Uses s al)
    (ha : al' = .gsm ∨ al' = .ucs2) {ts : List (List Nat)} (h : Sending al' s.text.s ts)
    (h27 : al = .ucs2 → al' = .ucs2 → NoFullEsc ts) :
    ∃ ts1, Sending al s.text.s ts1 ∧ (al = .ucs2 → NoFullEsc ts1) ∧ ts1.length ≤ ts.length := by
  by_cases heq : al' = al
  · subst heq
    exact ⟨ts, h, fun he => h27 he he, Nat.le_refl _⟩
  · cases al with
    | bin => rw [hu.1] at hf; cases hf
    | gsm =>
      rcases ha with rfl | rfl
      · exact absurd rfl heq
      by_cases h2 : 2 ≤ ts.length
      · exact ⟨ts, sending_gsm hu.2.1 h h2, (fun he => by cases he), Nat.le_refl _⟩
      · obtain ⟨g, hg⟩ := Gsm.spells_exists hu.2.1
        have hl := spells_len hg
        rcases h.2 with ⟨u, rfl, us, h3, h4⟩ | ⟨h3, _⟩
        · have e1 : us = u := h3
          have e2 : u = s.text.s := by simpa using h.1
          subst e1
          rw [e2] at h4
          simp only [single] at h4
          exact ⟨[s.text.s], ⟨by simp, .inl ⟨_, rfl, g, hg, by show g.length ≤ 160; omega⟩⟩, (fun he => by cases he), by simp⟩
        · omega
    | ucs2 =>
      rcases ha with rfl | rfl
      swap
      · exact absurd rfl heq
      obtain ⟨hf', hc, hx⟩ := hu
      have hn : ¬ GsmText s.text := by
        rcases hf' with h0 | h0
        · rw [hf] at h0; cases h0
        · exact h0.2
      have hsup := sending_supported h
      have hlen : s.text.s.length ≤ 70 := by
        rcases hx with h0 | h0 | h0
        · exact absurd ⟨hsup, .inl h0⟩ hn
        · exact absurd ⟨hsup, .inr h0⟩ hn
        · exact h0
      exact ⟨[s.text.s], ⟨by simp, .inl ⟨_, rfl, _, rfl, hlen⟩⟩, fun _ h2 => absurd h2 (by simp),
        by simpa using sending_pos h⟩

/-- C93 for the automatic choice of the alphabet: sending the text in the other alphabet takes at least as many messages. -/
theorem C93_automatic (s : State) (al al' : Alphabet) (hr : Ready s) (hf : s.fmt = none) (hu : Uses s al)
    (ha : al' = .gsm ∨ al' = .ucs2) (ts : List (List Nat)) (h27 : al = .ucs2 → al' = .ucs2 → NoFullEsc ts)
    (h : Sending al' s.text.s ts) :
    (∀ ps s', toPdu s = .ok ps s' → ps.length ≤ ts.length) ∧
    (ts.length ≤ 255 → ∃ ps s', toPdu s = .ok ps s') := by
  obtain ⟨ts1, h1, h0, hl⟩ := automatic_least hf hu ha h h27
  obtain ⟨h2, h3⟩ := C93_partial s al hr hu ts1 h0 h1
  exact ⟨fun ps s' hp => Nat.le_trans (h2 ps s' hp) hl, fun h => h3 (Nat.le_trans hl h)⟩

/-- `400` euro signs (two septets each): six parts in the GSM alphabet, which is the least possible -/
theorem euro_sending : Sending .gsm (List.replicate 400 0x20AC) (List.replicate 5 (List.replicate 76 0x20AC) ++ [List.replicate 20 0x20AC]) := by
  refine ⟨by decide +kernel, .inr ⟨by decide, fun u hu => ?_⟩⟩
  have hs : ∀ k, Spells (List.replicate k 0x20AC) (List.replicate k [27, 0x65]).flatten := fun k =>
    ⟨_, by
      induction k with
      | zero => exact .nil
      | succ k ih => exact .cons (.inr ⟨0x65, by decide, rfl⟩) ih, rfl⟩
  rcases List.mem_append.1 hu with h | h
  · rw [List.eq_of_mem_replicate h]
    exact ⟨_, hs 76, by decide +kernel⟩
  · rw [List.mem_singleton.1 h]
    exact ⟨_, hs 20, by decide +kernel⟩

example : ∀ ps s', toPdu (sample ⟨true, List.replicate 400 0x20AC⟩ none) = .ok ps s' → ps.length ≤ 6 :=
  (C93_partial _ .gsm (sample_ready _ _) sample_gsm_long _ (fun h => by cases h) euro_sending).1

example : ∀ ps s', toPdu (sample ⟨true, List.replicate 400 0x20AC⟩ none) = .ok ps s' → ps.length ≤ 6 :=
  (C93_automatic _ .gsm .ucs2 (sample_ready _ _) rfl sample_gsm_long (.inr rfl)
    [List.replicate 67 0x20AC, List.replicate 67 0x20AC, List.replicate 67 0x20AC, List.replicate 67 0x20AC,
      List.replicate 67 0x20AC, List.replicate 65 0x20AC]
    (fun h => by cases h)
    ⟨by decide +kernel, .inr ⟨by decide, fun u hu => ⟨u, rfl, by
      revert u; decide +kernel⟩⟩⟩).1

/-- 134 characters, the 67th of them an ESC: in UCS2 they fit in two messages -/
def escText : List Nat := List.replicate 66 1046 ++ 27 :: List.replicate 67 1046

theorem escText_uses : Uses (sample ⟨true, escText⟩ none) .ucs2 :=
  ⟨.inr ⟨rfl, fun h => (by decide +kernel : ¬ Gsm.isGsmText ⟨true, escText⟩ = true) ((gsmText_iff _).2 h)⟩,
    by decide +kernel, .inl rfl⟩

/-- such a text takes three messages, and no way to send it without a full part that ends with ESC takes fewer -/
example : (∃ ps s', toPdu (sample ⟨true, escText⟩ none) = .ok ps s') ∧
    ∀ ps s', toPdu (sample ⟨true, escText⟩ none) = .ok ps s' → ps.length ≤ 3 := by
  have := C93_partial (sample ⟨true, escText⟩ none) .ucs2 (sample_ready _ _) escText_uses
    [escText.take 66, (escText.drop 66).take 67, escText.drop 133]
    (fun _ _ => by decide +kernel)
    ⟨by decide +kernel, .inr ⟨by decide, fun u hu => ⟨u, rfl, by revert u; decide +kernel⟩⟩⟩
  exact ⟨this.2 (by decide), this.1⟩

/-- C93 is false of the code: a UCS2 part that would end with the character ESC is cut one short, as if an escape
sequence were cut in two. -/
theorem C93_refuted : ¬ C93_full := by
  intro h
  have hp : ((toPdu (sample ⟨true, escText⟩ none)).val.map List.length) = .ok 3 := by decide +kernel
  have hs : Sending .ucs2 escText [escText.take 67, escText.drop 67] := by
    refine ⟨by decide +kernel, .inr ⟨by decide, fun u hu => ?_⟩⟩
    have : u.length ≤ 67 := by
      rcases List.mem_cons.1 hu with rfl | hu
      · decide +kernel
      · rw [List.mem_singleton.1 hu]; decide +kernel
    exact ⟨u, rfl, this⟩
  obtain ⟨ps, s', h1⟩ := (h _ .ucs2 (sample_ready _ _) escText_uses _ hs).2 (by decide)
  have := (h _ .ucs2 (sample_ready _ _) escText_uses _ hs).1 ps s' h1
  rw [h1] at hp
  have hl : ps.length = 3 := Except.ok.inj hp
  rw [hl] at this
  revert this
  decide

/-! ## C94 -/

theorem uses_fmt {s : State} {al : Alphabet} (hu : Uses s al) : s.fmt = none ∧ al ≠ .bin ∨
    s.fmt = some (match al with | .gsm => 0 | .bin => 4 | .ucs2 => 8) := by
  cases al with
  | gsm => rcases hu.1 with h | h <;> simp [h]
  | bin => right; exact hu.1
  | ucs2 => rcases hu.1 with h | ⟨h, _⟩ <;> simp [h]

/-- C94: leaving characters out of a text never makes it take more messages, nor impossible to send. -/
theorem C94_monotone (s s1 : State) (al al1 : Alphabet) (hr : Ready s) (hr1 : Ready s1) (hu : Uses s al) (hu1 : Uses s1 al1)
    (hf : s1.fmt = s.fmt) (hsub : s1.text.s.Sublist s.text.s) (ps : List Pdu) (s' : State) (hp : toPdu s = .ok ps s') :
    ∃ ps1 s1', toPdu s1 = .ok ps1 s1' ∧ ps1.length ≤ ps.length := by
  obtain ⟨ts, s2, h1, h2, h3⟩ := toPdu_cut hr hu
  obtain ⟨vs, s3, h4, h5, h6⟩ := toPdu_cut hr1 hu1
  have hlen : ts.length ≤ 255 ∧ ps.length = ts.length := by
    by_cases hl : ts.length ≤ 255
    · obtain ⟨qs, h7, h8⟩ := h2 hl
      rw [h7] at hp
      cases hp
      exact ⟨hl, h8⟩
    · rw [h3 (by omega)] at hp
      cases hp
  have hle : vs.length ≤ ts.length := by
    by_cases he : al1 = al
    · subst he
      exact cut_mono h1 h4 hsub
    · have hn : s.fmt = none ∧ al ≠ .bin := by
        rcases uses_fmt hu with h0 | h0
        · exact h0
        · exfalso
          rcases uses_fmt hu1 with ⟨h7, _⟩ | h7
          · rw [hf, h0] at h7; cases h7
          · rw [hf, h0] at h7
            cases al <;> cases al1 <;> simp at h7 he
      obtain ⟨ws, h7, h8⟩ := sending_sublist (cut_sending h1) hsub
      have ha : al = .gsm ∨ al = .ucs2 := by
        cases al with
        | gsm => exact .inl rfl
        | bin => exact absurd rfl hn.2
        | ucs2 => exact .inr rfl
      obtain ⟨xs, h9, h0, h10⟩ := automatic_least (hf.trans hn.1) hu1 ha h7 (fun h e => absurd (h.trans e.symm) he)
      have := cut_least h4 h0 h9
      omega
  obtain ⟨ps1, h7, h8⟩ := h5 (by omega)
  exact ⟨ps1, s3, h7, by omega⟩

example : ∃ ps1 s1', toPdu (sample ⟨true, List.replicate 300 0x20AC⟩ none) = .ok ps1 s1' := by
  obtain ⟨ps, s', h⟩ := C10_succeeds _ .gsm (sample_ready _ _) sample_gsm_long (List.replicate 400 [27, 0x65]).flatten
    ((encode_iff (t := ⟨true, List.replicate 400 0x20AC⟩)).1 (by decide +kernel)).1 (by decide +kernel)
  have hu : Uses (sample ⟨true, List.replicate 300 0x20AC⟩ none) .gsm := ⟨.inr rfl, (gsmText_iff _).1 (by decide +kernel)⟩
  have hsub : List.Sublist (List.replicate 300 0x20AC) (List.replicate 400 0x20AC) :=
    (List.replicate_sublist_replicate _).2 (by omega)
  obtain ⟨ps1, s1', h1, _⟩ := C94_monotone _ _ .gsm .gsm (sample_ready _ _) (sample_ready _ _) sample_gsm_long hu (by simp only [sample])
    hsub ps s' h
  exact ⟨ps1, s1', h1⟩

/-- 2000 letters can be sent: `Ready` and `Uses` hold, and so does the right side of the second half -/
example : ∃ ts, Sending .gsm (sample ⟨true, List.replicate 2000 97⟩ none).text.s ts ∧ ts.length ≤ 255 := by
  have hu : Uses (sample ⟨true, List.replicate 2000 97⟩ none) .gsm := ⟨.inr rfl, (gsmText_iff _).1 (by decide +kernel)⟩
  obtain ⟨ts, h1, _, h2⟩ := (C22_exact _ .gsm (sample_ready _ _) hu).2.1
    (C10_succeeds _ .gsm (sample_ready _ _) hu (List.replicate 2000 97)
      ((encode_iff (t := ⟨true, List.replicate 2000 97⟩)).1 (by decide +kernel)).1 (by rw [List.length_replicate]; decide))
  exact ⟨ts, h1, h2⟩

/-- a text whose default alphabet changes when a character is left out -/
example (ps : List Pdu) (s' : State) (h : toPdu (sample ⟨true, 0x53F6 :: List.replicate 400 0x20AC⟩ none) = .ok ps s') :
    ∃ ps1 s1', toPdu (sample ⟨true, List.replicate 400 0x20AC⟩ none) = .ok ps1 s1' ∧ ps1.length ≤ ps.length :=
  C94_monotone _ _ .ucs2 .gsm (sample_ready _ _) (sample_ready _ _)
    ⟨.inr ⟨rfl, fun h0 => (by decide +kernel : ¬ Gsm.isGsmText ⟨true, 0x53F6 :: List.replicate 400 0x20AC⟩ = true)
      ((gsmText_iff _).2 h0)⟩, by decide +kernel, .inl rfl⟩
    sample_gsm_long rfl (List.sublist_cons_self _ _) ps s' h

end Verif.Props

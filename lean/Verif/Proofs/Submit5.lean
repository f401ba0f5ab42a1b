import Verif.Proofs.Repeat
/-!
# Every result of `to_pdu`
-/
set_option autoImplicit false

namespace Verif.Submit
open Verif Verif.Spec Verif.Spec.Sms Verif.Spec.Gsm Verif.Spec.Submit

/-- hex of some octets, at least one -/
def IsBody (m : Str) : Prop := ∃ b : List Nat, m = encodeStr b ∧ b ≠ [] ∧ ∀ x ∈ b, x < 256

theorem chrAll_ok {l m : List Nat} (h : chrAll l = .ok m) : m = l ∧ ∀ x ∈ l, x < 256 := by
  induction l generalizing m with
  | nil => simp only [chrAll, Except.ok.injEq] at h; simp [← h]
  | cons x l ih =>
    simp only [chrAll, pyChr, bind, Except.bind] at h
    by_cases hx : x < 256
    · rw [if_pos hx] at h
      cases hl : chrAll l with
      | error e => rw [hl] at h; cases h
      | ok cs =>
        rw [hl] at h
        simp only [Except.ok.injEq] at h
        obtain ⟨rfl, h2⟩ := ih hl
        refine ⟨h.symm, ?_⟩
        intro y hy
        rcases List.mem_cons.1 hy with rfl | hy
        · exact hx
        · exact h2 y hy
    · rw [if_neg hx] at h; cases h

theorem pyChr_ok {n m : Nat} (h : pyChr n = .ok m) : m = n ∧ n < 256 := by
  unfold pyChr at h
  split at h
  · simp only [Except.ok.injEq] at h; exact ⟨h.symm, ‹_›⟩
  · cases h

theorem bind_ok_inv {α β : Type} {x : Py α} {f : α → Py β} {b : β} (h : x.bind f = .ok b) :
    ∃ a, x = .ok a ∧ f a = .ok b := by
  cases x with
  | error e => cases h
  | ok a => exact ⟨a, rfl, h⟩

theorem pack7_body {m : Str} {u : Option Str} {h : Str} (hh : pack7 m u = .ok h) : IsBody h := by
  cases u with
  | none =>
    unfold pack7 at hh
    obtain ⟨op, _, hh⟩ := bind_ok_inv hh
    obtain ⟨c, hc, hh⟩ := bind_ok_inv hh
    obtain ⟨b, hb, hh⟩ := bind_ok_inv hh
    obtain ⟨e1, k1⟩ := pyChr_ok hc
    obtain ⟨e2, k2⟩ := chrAll_ok hb
    replace hh := Except.ok.inj hh
    refine ⟨_, hh.symm, by simp, ?_⟩
    intro x hx
    rcases List.mem_cons.1 hx with rfl | hx
    · rw [e1]; exact k1
    · rw [e2] at hx; exact k2 x hx
  | some u =>
    unfold pack7 at hh
    obtain ⟨op, _, hh⟩ := bind_ok_inv hh
    obtain ⟨op', _, hh⟩ := bind_ok_inv hh
    obtain ⟨c, hc, hh⟩ := bind_ok_inv hh
    obtain ⟨b, hb, hh⟩ := bind_ok_inv hh
    obtain ⟨e1, k1⟩ := pyChr_ok hc
    obtain ⟨e2, k2⟩ := chrAll_ok hb
    replace hh := Except.ok.inj hh
    refine ⟨_, hh.symm, by simp, ?_⟩
    intro x hx
    rcases List.mem_cons.1 hx with rfl | hx
    · rw [e1]; exact k1
    · rw [e2] at hx; exact k2 x hx

theorem ucs2Bytes_lt {l m : Str} (h : ucs2Bytes l = .ok m) : ∀ x ∈ m, x < 256 := by
  induction l generalizing m with
  | nil => simp only [ucs2Bytes, Except.ok.injEq] at h; simp [← h]
  | cons n l ih =>
    unfold ucs2Bytes at h
    obtain ⟨hi, h1, h⟩ := bind_ok_inv h
    obtain ⟨lo, h2, h⟩ := bind_ok_inv h
    obtain ⟨r, h3, h⟩ := bind_ok_inv h
    obtain ⟨rfl, k1⟩ := pyChr_ok h1
    obtain ⟨rfl, k2⟩ := pyChr_ok h2
    simp only [Except.ok.injEq] at h
    intro x hx
    rw [← h] at hx
    rcases List.mem_cons.1 hx with rfl | hx
    · exact k1
    · rcases List.mem_cons.1 hx with rfl | hx
      · exact k2
      · exact ih h3 x hx

theorem packUcs2_body {m : PyStr} {u : Option Str} {h : Str} (hh : packUcs2 m u = .ok h) : IsBody h := by
  have hh : ∃ t, ((ucs2Bytes t).bind fun n => (pyChr (t.length * 2)).bind fun c => .ok (encodeStr (c :: n))) = .ok h := by
    cases u with
    | none => exact ⟨m.s, hh⟩
    | some u =>
      unfold packUcs2 at hh
      obtain ⟨t, _, hh⟩ := bind_ok_inv hh
      exact ⟨t, hh⟩
  obtain ⟨t, hh⟩ := hh
  obtain ⟨n, hn, hh⟩ := bind_ok_inv hh
  obtain ⟨c, hc, hh⟩ := bind_ok_inv hh
  obtain ⟨e1, k1⟩ := pyChr_ok hc
  replace hh := Except.ok.inj hh
  refine ⟨_, hh.symm, by simp, ?_⟩
  intro x hx
  rcases List.mem_cons.1 hx with rfl | hx
  · rw [e1]; exact k1
  · exact ucs2Bytes_lt hn x hx

theorem pack8_body {m : PyStr} {u : Option Str} {h : Str} (hh : pack8 m u = .ok h) (hm : ∀ x ∈ m.s, x < 256) :
    IsBody h := by
  have hh : ∃ t : Str, ((pyChr t.length).bind fun c => (concatStr [c] m).bind fun r => .ok (encodeStr r.s)) = .ok h := by
    cases u with
    | none => exact ⟨m.s, hh⟩
    | some u =>
      unfold pack8 at hh
      obtain ⟨t, _, hh⟩ := bind_ok_inv hh
      exact ⟨t, hh⟩
  obtain ⟨t, hh⟩ := hh
  obtain ⟨c, hc, hh⟩ := bind_ok_inv hh
  obtain ⟨r, hr, hh⟩ := bind_ok_inv hh
  obtain ⟨e1, k1⟩ := pyChr_ok hc
  replace hh := Except.ok.inj hh
  unfold concatStr at hr
  split at hr
  · cases hr
  · simp only [Except.ok.injEq] at hr
    rw [← hr] at hh
    refine ⟨_, hh.symm, by simp, ?_⟩
    intro x hx
    rcases List.mem_append.1 hx with hx | hx
    · rw [List.mem_singleton.1 hx, e1]; exact k1
    · exact hm x hx

theorem packParts_body {c : Coding} {uni : Bool} {ref total : Nat} : ∀ {msgs : List Str} {k : Nat} {ms : List Str},
    packParts c uni ref total k msgs = .ok ms → (c = .bin8 → ∀ m ∈ msgs, ∀ x ∈ m, x < 256) → ∀ m ∈ ms, IsBody m
  | [], _, _, h, _ => by simp only [packParts, Except.ok.injEq] at h; simp [← h]
  | m :: msgs, k, ms, h, hb => by
    unfold packParts at h
    obtain ⟨x, h1, h⟩ := bind_ok_inv h
    obtain ⟨xs, h2, h⟩ := bind_ok_inv h
    simp only [Except.ok.injEq] at h
    intro y hy
    rw [← h] at hy
    rcases List.mem_cons.1 hy with rfl | hy
    · cases c with
      | gsm7 =>
        unfold packPart at h1
        obtain ⟨u, _, h1⟩ := bind_ok_inv h1
        exact pack7_body h1
      | bin8 =>
        unfold packPart at h1
        obtain ⟨u, _, h1⟩ := bind_ok_inv h1
        exact pack8_body h1 (hb rfl m (by simp))
      | ucs2 =>
        unfold packPart at h1
        obtain ⟨u, _, h1⟩ := bind_ok_inv h1
        exact packUcs2_body h1
    · exact packParts_body h2 (fun hc m hm => hb hc m (by simp [hm])) y hy

theorem splitP_body {c : Coding} {t : PyStr} {cr : Nat} {ms : List Str} (h : splitP c t cr = .ok ms)
    (hb : c = .bin8 → ∀ x ∈ t.s, x < 256) : ∀ m ∈ ms, IsBody m := by
  obtain ⟨parts, hp, hc⟩ := splitLoop_ok t.s c.mpSize (by cases c <;> decide)
  rw [splitP, hp] at h
  refine packParts_body h ?_
  intro he m hm x hx
  refine hb he x ?_
  rw [← chunks_flatten hc]
  exact List.mem_flatten_of_mem hm hx

theorem bodyP_hex {f : Nat} {t : PyStr} {cr : Nat} {ms : List Str} (h : bodyP f t cr = .ok ms)
    (hb : f = 4 → ∀ x ∈ t.s, x < 256) : (f = 0 ∨ f = 4 ∨ f = 8) ∧
      ∃ bodies : List (List Nat), ms = bodies.map encodeStr ∧ ∀ b ∈ bodies, b ≠ [] ∧ ∀ x ∈ b, x < 256 := by
  have key : (f = 0 ∨ f = 4 ∨ f = 8) ∧ ∀ m ∈ ms, IsBody m := by
    have h1 : ∀ {x : Py Str}, (x.bind fun m => (.ok [m] : Py (List Str))) = .ok ms → (∀ y, x = .ok y → IsBody y) →
        ∀ m ∈ ms, IsBody m := by
      intro x h hx
      obtain ⟨y, hy, h⟩ := bind_ok_inv h
      simp only [Except.ok.injEq] at h
      intro m hm
      rw [← h] at hm
      rw [List.mem_singleton.1 hm]
      exact hx y hy
    unfold bodyP at h
    split at h
    · refine ⟨.inl ‹_›, ?_⟩
      obtain ⟨g, _, h⟩ := bind_ok_inv h
      split at h
      · exact h1 h fun y hy => pack7_body hy
      · exact splitP_body h (by simp)
    · split at h
      · rename_i h4
        refine ⟨.inr (.inl h4), ?_⟩
        split at h
        · exact h1 h fun y hy => pack8_body hy (hb h4)
        · exact splitP_body h (fun _ => hb h4)
      · split at h
        · refine ⟨.inr (.inr ‹_›), ?_⟩
          split at h
          · exact h1 h fun y hy => packUcs2_body hy
          · exact splitP_body h (by simp)
        · cases h
  refine ⟨key.1, ?_⟩
  have := key.2
  clear h key
  induction ms with
  | nil => exact ⟨[], rfl, by simp⟩
  | cons m ms ih =>
    obtain ⟨bodies, h1, h2⟩ := ih (fun m hm => this m (by simp [hm]))
    obtain ⟨b, hb1, hb2, hb3⟩ := this m (by simp)
    refine ⟨b :: bodies, by rw [List.map_cons, ← h1, ← hb1], ?_⟩
    intro x hx
    rcases List.mem_cons.1 hx with rfl | hx
    · exact ⟨hb2, hb3⟩
    · exact h2 x hx

/-- the alphabet named by a format -/
def alphabetOf (f : Nat) : Alphabet := if f = 0 then .gsm else if f = 4 then .bin else .ucs2

/-- every successful call: as many PDUs as bodies, each with a conforming envelope -/
theorem toPdu_any {s s' : State} {ps : List Pdu} (hr : Ready s) (h : toPdu s = .ok ps s')
    (hb : s.fmt = some 4 → ∀ x ∈ s.text.s, x < 256) :
    ∀ i (hi : i < ps.length), ∃ udl ud, Envelope s (alphabetOf (effFmt s)) (mrOf s) ps.length i ps[i] udl ud := by
  have hb' : effFmt s = 4 → ∀ x ∈ s.text.s, x < 256 := by
    intro h4
    apply hb
    unfold effFmt at h4
    split at h4
    · rename_i hf; rw [hf, h4]
    · split at h4 <;> cases h4
  have hv : (toPdu s).val = .ok ps := by rw [h]; rfl
  rw [toPdu_val] at hv
  unfold toPduP at hv
  obtain ⟨_, _, hv⟩ := bind_ok_inv hv
  obtain ⟨_, _, hv⟩ := bind_ok_inv hv
  obtain ⟨_, _, hv⟩ := bind_ok_inv hv
  obtain ⟨_, _, hv⟩ := bind_ok_inv hv
  obtain ⟨_, _, hv⟩ := bind_ok_inv hv
  obtain ⟨_, _, hv⟩ := bind_ok_inv hv
  obtain ⟨ms, hms, hv⟩ := bind_ok_inv hv
  obtain ⟨hf, bodies, rfl, hbo⟩ := bodyP_hex hms hb'
  have hM : (bodyM (effFmt s) s.text (withDcs (afterRef s))).val = .ok (bodies.map encodeStr) := by
    rw [bodyM_val]; exact hms
  obtain ⟨ps', h1, h2, h3⟩ := toPdu_envelope (al := alphabetOf (effFmt s)) hr (by
    rcases hf with hf | hf | hf <;> rw [hf] <;> simp [alphabetOf]) (Res.val_ok hM) (fun b hb => (hbo b hb).2)
  rw [h] at h1
  cases h1
  intro i hi
  have hne := (hbo bodies[i] (List.getElem_mem _)).1
  cases hbi : bodies[i] with
  | nil => exact absurd hbi hne
  | cons udl ud => exact ⟨udl, ud, by rw [h2]; exact h3 i (by omega) hi udl ud hbi⟩

/-- 8-bit data in several parts -/
theorem toPdu_bin_multi {s : State} (hr : Ready s) (hf : s.fmt = some 4) (hu : s.text.uni = false)
    (ht : ∀ c ∈ s.text.s, c < 128) (hl : 140 < s.text.s.length) :
    ∃ parts, Chunks 134 s.text.s parts ∧ ((∀ i < parts.length, (parts.length <<< 8) ||| (i + 1) < 1114112) → ∃ ps s', toPdu s = .ok ps s' ∧
      ps.length = parts.length ∧ ∀ i (h : i < parts.length) (h' : i < ps.length),
        Envelope s .bin (mrOf s) parts.length i ps[i] (parts[i].length + 3) parts[i]) := by
  have he : effFmt s = 4 := by unfold effFmt; rw [hf]
  obtain ⟨parts, h1, h2⟩ := bodyM_bin_multi (withDcs (afterRef s)) hu ht hl
  refine ⟨parts, h1, fun hn => ?_⟩
  obtain ⟨ps, p1, p2, p3⟩ := toPdu_envelope (al := .bin) hr (.inr (.inl ⟨he, rfl⟩)) (by rw [he]; exact h2 hn) (by
    intro b hb x hx
    obtain ⟨m, hm, rfl⟩ := List.mem_map.1 hb
    rcases List.mem_cons.1 hx with rfl | hx
    · have := (chunks_bound (by omega) h1 m hm).2; omega
    · have : x ∈ s.text.s := by rw [← chunks_flatten h1]; exact List.mem_flatten_of_mem hm hx
      have := ht x this; omega)
  refine ⟨ps, _, p1, by rw [p2, List.length_map], ?_⟩
  intro i hi hi'
  have := p3 i (by simpa using hi) hi' _ _ (List.getElem_map _)
  have e : (parts.map fun m => (m.length + 3) :: m).length = parts.length := List.length_map ..
  exact e ▸ this

theorem ucs2Bytes_mem {l m : Str} (h : ucs2Bytes l = .ok m) : ∀ x ∈ l, x < 65536 := by
  by_contra hc
  simp only [not_forall, not_lt] at hc
  obtain ⟨c, h1, h2⟩ := hc
  rw [ucs2Bytes_err ⟨c, h1, h2⟩] at h
  cases h

theorem splitP_count {c : Coding} {t : PyStr} {cr : Nat} {ms : List Str} (h : splitP c t cr = .ok ms)
    (hc : c ≠ .bin8) : ms.length ≤ 255 := by
  obtain ⟨parts, hp, _⟩ := splitLoop_ok t.s c.mpSize (by cases c <;> decide)
  rw [splitP, hp] at h
  have hl := packParts_length h
  rw [hl]
  cases parts with
  | nil => simp
  | cons m parts =>
    have h : packParts c t.uni cr (m :: parts).length 0 (m :: parts) = .ok ms := h
    unfold packParts at h
    obtain ⟨x, hx, _⟩ := bind_ok_inv h
    cases c with
    | gsm7 =>
      obtain ⟨u, hu, _⟩ := bind_ok_inv hx
      obtain ⟨_, _, hu⟩ := bind_ok_inv hu
      obtain ⟨_, h2, _⟩ := bind_ok_inv hu
      have := (pyChr_ok h2).2
      omega
    | bin8 => exact absurd rfl hc
    | ucs2 =>
      obtain ⟨u, hu, hx⟩ := bind_ok_inv hx
      have hu' : ((m :: parts).length <<< 8) ||| (0 + 1) ∈ u := by
        unfold udh16 at hu
        obtain ⟨a, ha, hu⟩ := bind_ok_inv hu
        obtain ⟨b, hb, hu⟩ := bind_ok_inv hu
        obtain ⟨c, hc, hu⟩ := bind_ok_inv hu
        replace hu := Except.ok.inj hu
        unfold pyUnichr at hc
        split at hc
        · rw [← hu, ← Except.ok.inj hc]; simp
        · cases hc
      unfold packUcs2 at hx
      obtain ⟨txt, ht, hx⟩ := bind_ok_inv hx
      obtain ⟨n, hn, hx⟩ := bind_ok_inv hx
      have hmem : ((m :: parts).length <<< 8) ||| (0 + 1) ∈ txt := by
        unfold concatUni at ht
        split at ht
        · cases ht
        · rw [← Except.ok.inj ht]; exact List.mem_append_left _ hu'
      have h1 := ucs2Bytes_mem hn _ hmem
      have h2 : (m :: parts).length <<< 8 ≤ ((m :: parts).length <<< 8) ||| (0 + 1) := Nat.left_le_or
      rw [Nat.shiftLeft_eq] at h1 h2
      omega

theorem bodyP_count {f : Nat} {t : PyStr} {cr : Nat} {ms : List Str} (h : bodyP f t cr = .ok ms)
    (hf : f = 4 → t.s.length ≤ 140) : ms.length ≤ 255 := by
  have h1 : ∀ {x : Py Str}, (x.bind fun m => (.ok [m] : Py (List Str))) = .ok ms → ms.length ≤ 255 := by
    intro x h
    obtain ⟨y, _, h⟩ := bind_ok_inv h
    rw [← Except.ok.inj h]; exact (by decide : 1 ≤ 255)
  unfold bodyP at h
  split at h
  · obtain ⟨g, _, h⟩ := bind_ok_inv h
    split at h
    · exact h1 h
    · exact splitP_count h (by decide)
  · split at h
    · rename_i h4
      rw [if_pos (by exact hf h4)] at h
      exact h1 h
    · split at h
      · split at h
        · exact h1 h
        · exact splitP_count h (by decide)
      · cases h

theorem toPdu_length {s s' : State} {ps : List Pdu} (h : toPdu s = .ok ps s') :
    ∃ ms, bodyP (effFmt s) s.text (crOf (afterRef s)) = .ok ms ∧ ps.length = ms.length := by
  have hv : (toPdu s).val = .ok ps := by rw [h]; rfl
  rw [toPdu_val] at hv
  unfold toPduP at hv
  obtain ⟨_, _, hv⟩ := bind_ok_inv hv
  obtain ⟨_, _, hv⟩ := bind_ok_inv hv
  obtain ⟨_, _, hv⟩ := bind_ok_inv hv
  obtain ⟨_, _, hv⟩ := bind_ok_inv hv
  obtain ⟨_, _, hv⟩ := bind_ok_inv hv
  obtain ⟨_, _, hv⟩ := bind_ok_inv hv
  obtain ⟨ms, hms, hv⟩ := bind_ok_inv hv
  exact ⟨ms, hms, by rw [frameP_length hv, List.length_map]⟩

theorem effFmt_4 {s : State} (h : effFmt s = 4) : s.fmt = some 4 := by
  unfold effFmt at h
  split at h
  · rename_i hf; rw [hf, h]
  · split at h <;> cases h

theorem spells_unique {t g g' : List Nat} (h : Spells t g) (h' : Spells t g') : g = g' := by
  have h1 : Gsm.encode ⟨true, t⟩ = .ok g := encode_iff.2 ⟨h, .inl rfl⟩
  have h2 : Gsm.encode ⟨true, t⟩ = .ok g' := encode_iff.2 ⟨h', .inl rfl⟩
  rw [h1] at h2
  exact Except.ok.inj h2

theorem units_unique {al : Alphabet} {t g g' : List Nat} (h : Units al t g) (h' : Units al t g') : g = g' := by
  cases al with
  | gsm => exact spells_unique h h'
  | bin => exact h.trans h'.symm
  | ucs2 => exact h.trans h'.symm

end Verif.Submit

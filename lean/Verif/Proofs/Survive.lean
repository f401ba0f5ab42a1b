import Verif.Proofs.Safe2
import Verif.Proofs.Names
import Verif.Spec.Survive
/-!
# Lemmas: what texts, tokens and headers can be read from
-/
set_option autoImplicit false

namespace Verif.Mms
open Verif.Spec.Wsp Verif.Spec.Mms Verif.Spec.MmsEnc Verif.Spec.Survive

theorem textLoop_inv : ∀ (l acc : List Nat) (a : Str) (s' : It), textLoop acc l = .ok a s' →
    ∃ u, a = acc ++ u ∧ 0 ∉ u ∧ l = u ++ 0 :: s'.rem
  | [], _, _, _, h => by cases h
  | b :: l, acc, a, s', h => by
    rw [textLoop] at h
    split at h
    · rename_i hb
      obtain ⟨u, h1, h2, h3⟩ := textLoop_inv l _ a s' h
      refine ⟨b :: u, by rw [h1]; simp, ?_, by rw [h3]; rfl⟩
      intro hm
      rcases List.mem_cons.1 hm with hm | hm
      · exact hb hm.symm
      · exact h2 hm
    · rename_i hb
      injection h with h1 h2
      subst h1 h2
      exact ⟨[], by simp, by simp, by rw [Decidable.not_not.1 hb]; rfl⟩

theorem text_inv {s s' : It} {a : Str} (h : decodeTextString s = .ok a s') : 0 ∉ a ∧
    ((s.rem = a ++ 0 :: s'.rem ∧ s.rem.head? ≠ some 127) ∨ s.rem = 127 :: (a ++ 0 :: s'.rem)) := by
  obtain ⟨rem, k⟩ := s
  cases rem with
  | nil => cases h
  | cons b r =>
    by_cases hb : b = 127
    · subst hb
      obtain ⟨u, h1, h2, h3⟩ := textLoop_inv r [] a s' h
      rw [List.nil_append] at h1
      subst h1
      exact ⟨h2, .inr (by rw [h3])⟩
    · have e : decodeTextString ⟨b :: r, k⟩ = textLoop [] (b :: r) := by
        unfold decodeTextString
        split
        · rename_i heq
          simp only [List.cons.injEq] at heq
          exact absurd heq.1 hb
        · rfl
      rw [e] at h
      obtain ⟨u, h1, h2, h3⟩ := textLoop_inv (b :: r) [] a s' h
      rw [List.nil_append] at h1
      subst h1
      exact ⟨h2, .inl ⟨h3, by simpa using hb⟩⟩

theorem text_count {s s' : It} {a : Str} (h : decodeTextString s = .ok a s') : a.length + 1 + s'.rem.length ≤ s.rem.length := by
  rcases (text_inv h).2 with ⟨h, _⟩ | h <;> rw [h] <;> simp <;> omega

/-- a text sent with its NUL alone is read back only without NUL and without a Quote octet in front -/
theorem text_self {s rest : List Nat} {k : Nat} (h : decodeTextString ⟨s ++ [0] ++ rest, k⟩ = .ok s ⟨rest, 0⟩) :
    0 ∉ s ∧ s.head? ≠ some 127 := by
  obtain ⟨h0, h1⟩ := text_inv h
  refine ⟨h0, ?_⟩
  rcases h1 with ⟨_, h2⟩ | h2
  · cases s with
    | nil => simp
    | cons c s => simpa using h2
  · have := congrArg List.length h2
    simp at this

theorem tokenLoop_inv : ∀ (l acc : List Nat) (a : Str) (s' : It), tokenLoop acc l = .ok a s' →
    ∃ u c, a = acc ++ u ∧ (∀ x ∈ u, x > 31 ∧ x ∉ separators) ∧ l = u ++ c :: s'.rem ∧ s'.k = 0
  | [], _, _, _, h => by cases h
  | b :: l, acc, a, s', h => by
    rw [tokenLoop] at h
    split at h
    · rename_i hb
      obtain ⟨u, c, h1, h2, h3, h4⟩ := tokenLoop_inv l _ a s' h
      refine ⟨b :: u, c, by rw [h1]; simp, ?_, by rw [h3]; rfl, h4⟩
      intro x hx
      rcases List.mem_cons.1 hx with hx | hx
      · rw [hx]; exact hb
      · exact h2 x hx
    · injection h with h1 h2
      subst h1 h2
      exact ⟨[], b, by simp, by simp, rfl, rfl⟩

theorem token_inv {s s' : It} {a : Str} (h : decodeTokenText s = .ok a s') :
    ∃ c, (∀ x ∈ a, x > 31 ∧ x ∉ separators) ∧ s.rem = a ++ c :: s'.rem := by
  unfold decodeTokenText at h
  obtain ⟨b, s1, h1, h2⟩ := bind_ok_invM h
  have hs : s1.rem = s.rem := by
    unfold preview at h1
    split at h1
    · injection h1 with _ h1; rw [← h1]
    · cases h1
  split at h2
  · cases h2
  · obtain ⟨u, c, h3, h4, h5, _⟩ := tokenLoop_inv _ _ _ _ h2
    rw [List.nil_append] at h3
    subst h3
    exact ⟨c, h4, by rw [← hs, h5]⟩

theorem app_count {s s' : It} {a : Str} {v : HVal} (h : decodeApplicationHeader s = .ok (a, v) s') :
    ∃ t, v = .v (.str t) ∧ a.length + t.length + 2 + s'.rem.length ≤ s.rem.length := by
  unfold decodeApplicationHeader at h
  obtain ⟨b, s1, h1, h2⟩ := bind_ok_invM h
  obtain ⟨t, s2, h3, h4⟩ := bind_ok_invM h2
  injection h4 with h4 h5
  injection h4 with h4 h6
  subst h4 h5 h6
  refine ⟨t, rfl, ?_⟩
  have ht := text_count h3
  have : b.length + 1 + s1.rem.length ≤ s.rem.length := by
    unfold orDecodeError M.tryCatch at h1
    cases hk : decodeTokenText s with
    | ok x y =>
      rw [hk] at h1
      injection h1 with e1 e2
      subst e1 e2
      obtain ⟨c, _, hc⟩ := token_inv hk
      rw [hc]
      simp
      omega
    | err e y =>
      rw [hk] at h1
      simp only [] at h1
      split at h1
      · have h5 := ((tokenText_safe s).2 _ _ hk).2.length_le
        have h6 := text_count h1
        omega
      · cases h1
  omega

/-- a header that begins with a number is read as the header of that number, or else from what follows the number -/
theorem wellKnown_inv {s s' : It} {a : Str} {v : HVal} (h : decodeWellKnownHeader s = .ok (a, v) s') : a ∈ wspNames := by
  unfold decodeWellKnownHeader at h
  obtain ⟨n, s1, h1, h2⟩ := bind_ok_invM h
  obtain ⟨names, s2, h3, h4⟩ := bind_ok_invM h2
  have hn : getHeaderFieldNames (py! "1.2") = .ok wspNames := by decide +kernel
  rw [hn] at h3
  injection h3 with h3 _
  subst h3
  cases he : wspNames[n]? with
  | none => simp only [he] at h4; cases h4
  | some name =>
    simp only [he] at h4
    obtain ⟨w, s3, h5, h6⟩ := bind_ok_invM h4
    injection h6 with h6 _
    injection h6 with h6 _
    subst h6
    exact List.mem_of_getElem? he

theorem wsp_number {s s' : It} {x : Nat} {r : List Nat} {k : Nat} {a : Str} {v : HVal}
    (hx : decodeShortInteger s = .ok x ⟨r, k⟩) (h : decodeWspHeader s = .ok (a, v) s') :
    a ∈ wspNames ∨ ∃ t, v = .v (.str t) ∧ a.length + t.length + 2 + s'.rem.length ≤ r.length := by
  unfold decodeWspHeader orDecodeError M.tryCatch at h
  cases hw : decodeWellKnownHeader s with
  | ok y z =>
    rw [hw] at h
    injection h with h1 h2
    subst h1
    exact .inl (wellKnown_inv hw)
  | err e z =>
    rw [hw] at h
    simp only [] at h
    split at h
    · obtain ⟨t, h1, h2⟩ := app_count h
      refine .inr ⟨t, h1, ?_⟩
      unfold decodeWellKnownHeader at hw
      rw [M.bind_ok hx] at hw
      have := ((wellKnownHeader_tail x ⟨r, k⟩).2 _ _ hw).2.length_le
      simp only at this
      omega
    · cases h

theorem shortInteger_ok {b : Nat} (h1 : 128 ≤ b) (h2 : b < 256) (r : List Nat) :
    decodeShortInteger ⟨b :: r, 0⟩ = .ok (b - 128) ⟨r, 0⟩ := by
  unfold decodeShortInteger
  have : ¬ (b &&& 0x80 = 0) := by rw [and_80 h2]; omega
  rw [M.bind_ok (preview_zero _ _), if_neg this, M.bind_ok (next_cons _ _ _), and_7f, show b % 128 = b - 128 by omega]
  rfl

/-- one octet is taken, whichever was looked at -/
theorem shortInteger_second {f g : Nat} (h1 : 128 ≤ g) (h2 : g < 256) (r : List Nat) :
    decodeShortInteger ⟨f :: g :: r, 1⟩ = .ok (f &&& 0x7f) ⟨g :: r, 0⟩ := by
  unfold decodeShortInteger
  have : ¬ (g &&& 0x80 = 0) := by rw [and_80 h2]; omega
  have hp : preview ⟨f :: g :: r, 1⟩ = .ok g ⟨f :: g :: r, 2⟩ := rfl
  rw [M.bind_ok hp, if_neg this, M.bind_ok (next_cons _ _ _)]
  rfl

theorem header_number {f : Nat} {r : List Nat} {a : Str} {v : HVal} {s' : It} (ho : ∀ x ∈ f :: r, x < 256)
    (hf : 128 ≤ f ∨ ∃ g r', r = g :: r' ∧ 128 ≤ g) (h : decodeHeader ⟨f :: r, 0⟩ = .ok (a, v) s') :
    a ∈ fieldNames ∨ a ∈ wspNames ∨ ∃ t, v = .v (.str t) ∧ a.length + t.length + 2 + s'.rem.length ≤ r.length := by
  unfold decodeHeader orDecodeError M.tryCatch at h
  have h8 := ho f (List.mem_cons_self ..)
  by_cases h1 : 128 ≤ f
  · cases hm : decodeMmsHeader ⟨f :: r, 0⟩ with
    | ok y z =>
      rw [hm] at h
      injection h with h2 h3
      subst h2
      unfold decodeMmsHeader at hm
      rw [M.bind_ok (preview_zero _ _), fromByte_ok h1 h8, M.bind_ok (M.lift_ok _ _)] at hm
      cases hl : lookupNum mmsFieldNames (f - 128) with
      | none => rw [hl] at hm; cases hm
      | some e =>
        obtain ⟨name, ty⟩ := e
        simp only [hl] at hm
        obtain ⟨_, _, _, g2⟩ := bind_ok_invM hm
        obtain ⟨_, _, _, g4⟩ := bind_ok_invM g2
        injection g4 with g4 _
        injection g4 with g4 _
        subst g4
        left
        rw [← fieldNames_eq]
        exact List.mem_map.2 ⟨_, lookupNum_mem hl, rfl⟩
    | err e z =>
      rw [hm] at h
      simp only [beq_iff_eq] at h
      split at h
      · rename_i he
        subst he
        unfold decodeMmsHeader at hm
        rw [M.bind_ok (preview_zero _ _), fromByte_ok h1 h8, M.bind_ok (M.lift_ok _ _)] at hm
        cases hl : lookupNum mmsFieldNames (f - 128) with
        | none =>
          simp only [hl] at hm
          injection hm with _ hm
          subst hm
          exact .inr (wsp_number (shortInteger_ok h1 h8 r) h)
        | some e =>
          obtain ⟨name, ty⟩ := e
          simp only [hl] at hm
          rw [M.bind_ok (next_cons _ _ _), M.bind_apply] at hm
          cases hv : wrapFatal (decodeMmsValue ty) ⟨r, 0⟩ with
          | ok w t => rw [hv] at hm; cases hm
          | err e t =>
            rw [hv] at hm
            injection hm with e1 e2
            subst e1 e2
            have hz : t.rem <:+ r := by
              have := ((wrapFatal_safe ty ⟨r, 0⟩).2 _ _ hv).2
              exact this
            unfold decodeWspHeader orDecodeError M.tryCatch at h
            cases hw : decodeWellKnownHeader t with
            | ok y z =>
              rw [hw] at h
              injection h with h1 h2
              subst h1
              exact .inr (.inl (wellKnown_inv hw))
            | err e z =>
              rw [hw] at h
              simp only [] at h
              split at h
              · obtain ⟨u, h1, h2⟩ := app_count h
                have h3 := ((wellKnownHeader_safe t).2 _ _ hw).2.length_le
                have h4 := hz.length_le
                exact .inr (.inr ⟨u, h1, by omega⟩)
              · cases h
      · cases h
  · obtain ⟨g, r', rfl, hg⟩ := hf.resolve_left h1
    have hm : decodeMmsHeader ⟨f :: g :: r', 0⟩ = .err .decodeError ⟨f :: g :: r', 1⟩ := by
      unfold decodeMmsHeader
      rw [M.bind_ok (preview_zero _ _), fromByte_err (by omega)]
      rfl
    rw [hm] at h
    simp only [beq_self_eq_true, if_true] at h
    exact .inr (wsp_number (shortInteger_second hg (ho g (by simp)) r') h)

/-- otherwise the name and the value are read as texts -/
theorem header_plain {f g : Nat} {r : List Nat} (hf : f < 128) (hg : g < 128) :
    decodeHeader ⟨f :: g :: r, 0⟩ = decodeApplicationHeader ⟨f :: g :: r, 0⟩ := by
  have hm : decodeMmsHeader ⟨f :: g :: r, 0⟩ = .err .decodeError ⟨f :: g :: r, 1⟩ := by
    unfold decodeMmsHeader
    rw [M.bind_ok (preview_zero _ _), fromByte_err hf]
    rfl
  have hp : preview ⟨f :: g :: r, 1⟩ = .ok g ⟨f :: g :: r, 2⟩ := rfl
  have hs : decodeShortInteger ⟨f :: g :: r, 1⟩ = .err .decodeError ⟨f :: g :: r, 0⟩ := by
    unfold decodeShortInteger
    rw [M.bind_ok hp, if_pos ((and_80 (by omega)).2 hg)]
    rfl
  unfold decodeHeader
  rw [orDE_err hm]
  unfold decodeWspHeader decodeWellKnownHeader
  rw [orDE_err (M.bind_err hs)]

/-- after a length, the text of an encoded string comes later still -/
theorem encoded_count {s t s' : It} {x : Nat} {a : Str} (hv : decodeValueLength s = .ok x t)
    (h : decodeEncodedStringValue s = .ok a s') : a.length + 1 + s'.rem.length ≤ t.rem.length := by
  unfold decodeEncodedStringValue orDecodeError at h
  rw [M.tryCatch, M.bind_ok hv, M.bind_apply] at h
  unfold M.tryCatch at h
  cases hc : decodeWellKnownCharset t with
  | ok y u =>
    simp only [hc] at h
    have h1 := ((wellKnownCharset_safe t).1 _ _ hc).length_le
    cases ht : decodeTextString u with
    | ok b w =>
      simp only [ht] at h
      injection h with h2 h3
      subst h2 h3
      have := text_count ht
      omega
    | err e w =>
      simp only [ht] at h
      have := ((textString_safe u).2 _ _ ht).1
      simp only [List.mem_singleton] at this
      subst this
      cases h
  | err e u =>
    simp only [hc] at h
    by_cases he : e = .decodeError
    · subst he
      cases h
    · have : (e == PyErr.decodeError) = false := by simpa using he
      simp only [this] at h
      simp at h
      rw [if_neg he] at h
      cases h

/-- an encoded string sent as a text is read back only if it starts with a character from 32 on that is not the Quote -/
theorem encoded_self {s rest : List Nat} (h : decodeEncodedStringValue ⟨s ++ [0] ++ rest, 0⟩ = .ok s ⟨rest, 0⟩) :
    0 ∉ s ∧ ∃ c, s.head? = some c ∧ 32 ≤ c ∧ c ≠ 127 := by
  cases hv : decodeValueLength ⟨s ++ [0] ++ rest, 0⟩ with
  | ok x t =>
    have h1 := encoded_count hv h
    have h2 := valueLength_prog _ _ _ hv
    simp at h1 h2
    omega
  | err e t =>
    unfold decodeEncodedStringValue at h
    by_cases he : e = .decodeError
    · subst he
      have ht := valueLength_restores _ _ hv
      subst ht
      rw [orDE_err (M.bind_err hv)] at h
      obtain ⟨h0, h7⟩ := text_self h
      refine ⟨h0, ?_⟩
      cases s with
      | nil =>
        have : decodeValueLength ⟨[] ++ [0] ++ rest, 0⟩ = .ok 0 ⟨rest, 0⟩ := decodeValueLength_ok 0 rest
        rw [this] at hv
        cases hv
      | cons c s =>
        refine ⟨c, rfl, ?_, by simpa using h7⟩
        by_contra hc
        rw [List.cons_append, List.cons_append] at hv
        by_cases h30 : c ≤ 30
        · have := orDE_ok (h := (do
            let byte ← preview
            if byte = 31 then do
              let _ ← next
              decodeUintVar
            else do
              resetPreview
              M.throw .decodeError)) (decodeShortLength_ok h30 (s ++ [0] ++ rest))
          unfold decodeValueLength at hv
          rw [this] at hv
          cases hv
        · have : c = 31 := by omega
          subst this
          unfold decodeValueLength at hv
          rw [orDE_err (decodeShortLength_err (by decide) _), M.bind_ok (preview_zero _ _), if_pos rfl,
            M.bind_ok (next_cons _ _ _)] at hv
          have := ((uintVar_safe _).2 _ _ hv).1
          simp at this
    · rw [orDE_other (M.bind_err hv) he] at h
      cases h

/-- a field whose value decoder does not raise DecodeError here: what is read is its name and value -/
theorem field_inv {n : Nat} {name : Str} {ty : MType} {body : List Nat} {a : Str} {v : HVal} {s' : It} (hn : n < 128)
    (hl : lookupNum mmsFieldNames n = some (name, ty))
    (hd : ∀ t, decodeMmsValue ty ⟨body, 0⟩ ≠ .err .decodeError t)
    (h : decodeHeader ⟨(0x80 + n) :: body, 0⟩ = .ok (a, v) s') : decodeMmsValue ty ⟨body, 0⟩ = .ok v s' := by
  have key : decodeMmsHeader ⟨(0x80 + n) :: body, 0⟩ = (do
      let v ← wrapFatal (decodeMmsValue ty)
      pure (name, v) : D (Str × HVal)) ⟨body, 0⟩ := by
    unfold decodeMmsHeader
    rw [M.bind_ok (preview_zero _ _), fromByte_ok (by omega) (by omega), M.bind_ok (M.lift_ok _ _),
      show 0x80 + n - 128 = n by omega, hl]
    simp only []
    rw [M.bind_ok (next_cons _ _ _)]
  cases hv : decodeMmsValue ty ⟨body, 0⟩ with
  | ok w t =>
    rw [M.bind_ok (wrapFatal_ok hv)] at key
    unfold decodeHeader at h
    rw [orDE_ok key] at h
    injection h with h1 h2
    injection h1 with _ h1
    rw [h1, h2]
  | err e t =>
    have hne : e ≠ .decodeError := fun he => hd t (by rw [hv, he])
    have hw : ∃ e', wrapFatal (decodeMmsValue ty) ⟨body, 0⟩ = .err e' t ∧ e' ≠ .decodeError := by
      unfold wrapFatal M.tryCatch
      rw [hv]
      simp only []
      split
      · exact ⟨_, rfl, by decide⟩
      · exact ⟨e, rfl, hne⟩
    obtain ⟨e', hw, hne'⟩ := hw
    rw [M.bind_err hw] at key
    unfold decodeHeader at h
    rw [orDE_other key hne'] at h
    cases h

end Verif.Mms

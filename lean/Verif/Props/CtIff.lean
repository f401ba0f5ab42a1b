import Verif.Props.Ctype
import Verif.Proofs.Survive
/-!
# C42: exactly which media types come back
-/
set_option autoImplicit false

namespace Verif.Props
open Verif Verif.Mms
open Verif.Spec.Wsp Verif.Spec.Mms Verif.Spec.MmsEnc

theorem known_sends {mt : Str} (h : mt ∈ wellKnownContentTypes) : Sends mt := by
  have hall : ∀ m ∈ wellKnownContentTypes, (m.all (· < 256) && !m.contains 0 &&
      (match m with | [] => false | c :: _ => decide (32 ≤ c) && decide (c < 127))) = true := by decide +kernel
  have h1 := hall _ h
  simp only [Bool.and_eq_true, List.all_eq_true, decide_eq_true_eq, Bool.not_eq_true'] at h1
  obtain ⟨⟨h1, h2⟩, h3⟩ := h1
  refine ⟨⟨fun hm => ?_, ?_⟩, h1⟩
  · rw [List.contains_iff_mem.2 hm] at h2
    cases h2
  · cases mt with
    | nil => cases h3
    | cons c r =>
      simp only [Bool.and_eq_true, decide_eq_true_eq] at h3
      exact ⟨c, rfl, h3⟩

theorem mediaName_mem {n : Nat} {m : Str} (h : mediaName n = .ok m) : m ∈ wellKnownContentTypes := by
  unfold mediaName at h
  split at h
  · rename_i s hs
    injection h with h
    subst h
    exact List.mem_of_getElem? hs
  · cases h

theorem mediaName_error {n : Nat} {e : PyErr} (h : mediaName n = .error e) : e = .decodeError := by
  unfold mediaName at h
  split at h
  · cases h
  · injection h with h; exact h.symm

theorem extensionMedia_short {s s' : It} {m : Str} (h : decodeExtensionMedia s = .ok m s') : 0 ∉ m ∧ m.length < s.rem.length := by
  unfold decodeExtensionMedia at h
  obtain ⟨b, s1, h1, h2⟩ := bind_ok_invM h
  have hr : s1.rem = s.rem := by
    unfold preview at h1
    split at h1
    · injection h1 with _ h1; subst h1; rfl
    · cases h1
  split at h2
  · cases h2
  · obtain ⟨u, e1, e2, e3⟩ := textLoop_inv _ _ _ _ h2
    rw [List.nil_append] at e1
    subst e1
    refine ⟨e2, ?_⟩
    rw [← hr, e3]
    simp

theorem mediaType_short {s s' : It} {m : Str} (h : decodeMediaType s = .ok m s') :
    m ∈ wellKnownContentTypes ∨ m.length < s.rem.length := by
  unfold decodeMediaType at h
  cases hw : decodeWellKnownMedia s with
  | ok a s1 =>
    rw [orDE_ok hw] at h
    injection h with h _
    subst h
    unfold decodeWellKnownMedia at hw
    obtain ⟨n, s2, _, h2⟩ := bind_ok_invM hw
    unfold M.lift at h2
    cases hn : mediaName n with
    | ok a' => rw [hn] at h2; injection h2 with h2 _; subst h2; exact .inl (mediaName_mem hn)
    | error e => rw [hn] at h2; cases h2
  | err e s1 =>
    by_cases he : e = .decodeError
    · subst he
      rw [orDE_err hw] at h
      have h1 := (extensionMedia_short h).2
      have h2 := ((wellKnownMedia_safe s).2 _ _ hw).2.length_le
      exact .inr (by omega)
    · rw [orDE_other hw he] at h
      cases h

/-- a media type in general form that is not a number is shorter than what it is read from by two octets at least -/
theorem generalForm_short {s s' : It} {m : Str} {d : Dict Val} (h : decodeContentGeneralForm s = .ok (m, d) s') :
    m ∈ wellKnownContentTypes ∨ m.length + 2 ≤ s.rem.length := by
  unfold decodeContentGeneralForm at h
  obtain ⟨n, s1, h1, h⟩ := bind_ok_invM h
  obtain ⟨u, s2, h2, h⟩ := bind_ok_invM h
  obtain ⟨bytes, s3, h3, h4⟩ := bind_ok_invM h
  have e1 := valueLength_prog _ _ _ h1
  have e2 := ((xrangeCheck_safe n _).1 _ _ h2).length_le
  have e3 := (nextN_count _ _ _ _ h3).2
  have e4 : bytes.length ≤ s2.rem.length := by rw [← e3]; simp
  unfold onFresh at h4
  cases hg : generalFormInner bytes (It.new bytes) with
  | err e s3 => rw [hg] at h4; cases h4
  | ok a s3 =>
    rw [hg] at h4
    injection h4 with h4 _
    subst h4
    unfold generalFormInner at hg
    obtain ⟨md, s4, h5, h6⟩ := bind_ok_invM hg
    obtain ⟨ps, s5, h7, h8⟩ := bind_ok_invM h6
    injection h8 with h8 _
    injection h8 with h8 _
    subst h8
    rcases mediaType_short h5 with h9 | h9
    · exact .inl h9
    · have : (It.new bytes).rem.length = bytes.length := rfl
      exact .inr (by omega)

theorem toOctets_ints_inv {l o : List Nat} (h : toOctets (ints (toInts l)) = .ok o) : o = l ∧ ∀ c ∈ l, c < 256 := by
  by_cases hl : ∀ c ∈ l, c < 256
  · rw [toOctets_ints hl] at h
    injection h with h
    exact ⟨h.symm, hl⟩
  · exfalso
    induction l generalizing o with
    | nil => exact hl (by simp)
    | cons x l ih =>
      rw [show ints (toInts (x :: l)) = ints (toInts [x]) ++ ints (toInts l) from rfl, toOctets_append] at h
      obtain ⟨a, h1, h⟩ := bind_ok_invE h
      obtain ⟨b, h2, h⟩ := bind_ok_invE h
      by_cases hx : x < 256
      · exact ih h2 (fun hall => hl (by
          intro c hc
          rcases List.mem_cons.1 hc with rfl | hc
          · exact hx
          · exact hall c hc))
      · revert h1
        simp only [toInts, ints, List.map_cons, List.map_nil, toOctets]
        rw [if_pos (.inr (by omega))]
        intro h; cases h

/-- A media type without parameters comes back, whatever follows it, exactly if it is a byte string without NUL that starts
with a printable 7-bit character. -/
theorem C42_iff (mt : Str) : (∃ o, Carries mt [] o ∧
    ∀ rest, decodeContentTypeValue ⟨o ++ rest, 0⟩ = .ok (mt, []) ⟨rest, 0⟩) ↔ Sends mt := by
  constructor
  · rintro ⟨o, ⟨items, h1, h2⟩, h3⟩
    by_cases hw : mt ∈ wellKnownContentTypes
    · exact known_sends hw
    have hi := indexOf_none.2 hw
    unfold encodeContentTypeValue at h1
    rw [if_neg (by simp)] at h1
    unfold encodeConstrainedMedia at h1
    rw [hi] at h1
    cases mt with
    | nil => cases h1
    | cons c cs =>
      have hte : textOctets (c :: cs) = toInts ((c :: cs) ++ [0]) := by
        unfold textOctets toInts; simp
      simp only [encodeConstrainedEncoding, encodeExtensionMedia] at h1
      by_cases hc : c < 32 ∨ c = 127
      · exfalso
        rw [if_pos hc] at h1
        unfold encodeContentGeneralForm encodeMediaType at h1
        rw [hi] at h1
        injection h1 with h1
        subst h1
        have ho : o = 1 :: (c :: cs ++ [0]) := by
          have : flattenList (ints (encodeValueLength 1) ++ [Item.list (textOctets (c :: cs))]) =
            ints (toInts (1 :: (c :: cs ++ [0]))) := by
            rw [hte]
            show Item.int 1 :: (ints (toInts (c :: cs ++ [0])) ++ []) = _
            rw [List.append_nil]
            rfl
          exact (toOctets_ints_inv (this ▸ h2)).1
        subst ho
        have h3 := h3 []
        unfold decodeContentTypeValue at h3
        rw [List.append_nil, orDE_err (M.bind_err (constrainedMedia_length (b := 1) (by decide) _))] at h3
        unfold decodeContentGeneralForm at h3
        rw [M.bind_ok (show decodeValueLength ⟨1 :: (c :: cs ++ [0]), 0⟩ = .ok 1 ⟨c :: cs ++ [0], 0⟩ from rfl),
          M.bind_ok (show xrangeCheck 1 ⟨c :: cs ++ [0], 0⟩ = .ok () ⟨c :: cs ++ [0], 0⟩ from rfl),
          M.bind_ok (show nextN 1 ⟨c :: cs ++ [0], 0⟩ = .ok [c] ⟨cs ++ [0], 0⟩ from rfl)] at h3
        unfold onFresh at h3
        split at h3
        · injection h3 with _ h3
          injection h3 with h3 _
          simp at h3
        · cases h3
      · rw [if_neg hc] at h1
        injection h1 with h1
        subst h1
        rw [flatten_ints, hte] at h2
        obtain ⟨rfl, hb⟩ := toOctets_ints_inv h2
        have hb' : ∀ x ∈ c :: cs, x < 256 := fun x hx => hb x (List.mem_append_left _ hx)
        have h3 := h3 []
        rw [List.append_nil] at h3
        by_cases hc2 : c < 128
        · refine ⟨⟨?_, c, rfl, by omega, by omega⟩, hb'⟩
          intro hm
          obtain ⟨u, w, e, hu⟩ := List.eq_append_cons_of_mem hm
          cases u with
          | nil => injection e with e _; omega
          | cons c' u =>
            injection id e with e1 _
            subst e1
            rw [show c :: cs ++ [0] = (c :: u) ++ 0 :: (w ++ [0]) by rw [e]; simp,
              decodeContentTypeValue_constrained (decodeConstrainedMedia_text (c :: u) hu c (by omega) rfl _)] at h3
            injection h3 with _ h3
            injection h3 with h3 _
            simp at h3
        · exfalso
          have hs := decodeShortInteger_ok (b := c) (by omega) (hb' c (by simp)) (cs ++ [0])
          have hk : decodeConstrainedMedia ⟨c :: (cs ++ [0]), 0⟩ = (M.lift (mediaName (c - 128)) : D Str) ⟨cs ++ [0], 0⟩ := by
            unfold decodeConstrainedMedia decodeConstrainedEncoding
            rw [M.bind_ok (orDE_ok (a := Val.int ((c - 128 : Nat) : Int)) (by rw [M.bind_ok hs]; rfl))]
            rfl
          rw [List.cons_append] at h3
          cases hn : mediaName (c - 128) with
          | ok m =>
            rw [hn] at hk
            rw [decodeContentTypeValue_constrained hk] at h3
            injection h3 with h3 _
            injection h3 with h3 _
            exact hw (h3 ▸ mediaName_mem hn)
          | error e =>
            have he : e = .decodeError := mediaName_error hn
            subst he
            rw [hn] at hk
            unfold decodeContentTypeValue at h3
            have hk' : decodeConstrainedMedia ⟨c :: (cs ++ [0]), 0⟩ = .err .decodeError ⟨cs ++ [0], 0⟩ := hk
            rw [orDE_err (M.bind_err hk')] at h3
            rcases generalForm_short h3 with h4 | h4
            · exact hw h4
            · simp only [List.length_cons, List.length_append, List.length_nil] at h4
              omega
  · intro h
    obtain ⟨o, _, _, h8, he, hd⟩ := sends_ok h
    exact ⟨o, ⟨_, he, by rw [flatten_ints, toOctets_ints h8]⟩, hd⟩

/-- a private media type does, one with a letter beyond ASCII in front does not -/
example : Sends (py! "application/x-none") ∧ ¬ Sends (233 :: py! "/x") := by
  refine ⟨⟨⟨by decide, 97, rfl, by decide, by decide⟩, by decide⟩, ?_⟩
  rintro ⟨⟨_, c, hc, _, h⟩, _⟩
  injection hc with hc
  omega

end Verif.Props

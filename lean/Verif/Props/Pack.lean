import Verif.Proofs.Pack
/-!
# C05-C07: septet packing
-/
set_option autoImplicit false

namespace Verif.Props
open Verif Verif.Spec

/-- C05: without a header, the hex result is the septet count followed by the standard packing (for every text whose
count fits an octet; the standard allows 160). -/
theorem C05_packing (s : List Nat) (hs : ∀ x ∈ s, x < 128) (hn : s.length ≤ 255) :
    ∃ o, PackedSeptets s o ∧ pack7 s none = .ok (hexLower (s.length :: o)) := by
  obtain ⟨o, h1, h2⟩ := pack7_none hs (by omega)
  refine ⟨o, h1, ?_⟩
  rw [h2, encodeStr_hex]
  intro x hx
  rcases List.mem_cons.1 hx with rfl | hx
  · omega
  · exact h1.2.1 x hx

example := C05_packing [0x68, 0x65, 0x6c, 0x6c, 0x6f] (by decide) (by decide)

/-- C05: with a six octet header (as the library passes it: one padding space before the septets), the result is the
septet count including the header, the header, one zero fill bit and the septets. -/
theorem C05_packing_header (udh s : List Nat) (hs : ∀ x ∈ s, x < 128) (hu : ∀ x ∈ udh, x < 256)
    (hul : udh.length = 6) (hn : s.length ≤ 248) :
    ∃ o, PackedWithHeader udh s o ∧ pack7 (32 :: s) (some udh) = .ok (hexLower ((s.length + 7) :: o)) := by
  obtain ⟨o, h1, h2⟩ := pack7_udh hs hu hul (by omega)
  refine ⟨o, h1, ?_⟩
  rw [h2, encodeStr_hex]
  intro x hx
  rcases List.mem_cons.1 hx with rfl | hx
  · omega
  · exact h1.2.1 x hx

example := C05_packing_header [5, 0, 3, 1, 2, 1] [0x68, 0x65, 0x6c, 0x6c, 0x6f] (by decide) (by decide) rfl (by decide)

/-- C05: with a header of any length (not only the six octets the library passes), the header replaces the first octets of
the packing of six zero septets and the text; IndexError exactly if it is longer than that packing, otherwise ValueError
exactly if the count does not fit an octet. -/
theorem C05_header_any (udh s : List Nat) (hs : ∀ x ∈ s, x < 128) (hu : ∀ x ∈ udh, x < 256) :
    (8 * udh.length > 7 * (s.length + 7) → pack7 s (some udh) = .error .indexError) ∧
    (8 * udh.length ≤ 7 * (s.length + 7) → 249 < s.length → pack7 s (some udh) = .error .valueError) ∧
    (8 * udh.length ≤ 7 * (s.length + 7) → s.length ≤ 249 →
      ∃ o, PackedSeptets ([0, 0, 0, 0, 0, 0] ++ s) o ∧
        pack7 s (some udh) = .ok (hexLower ((s.length + 6) :: (udh ++ o.drop udh.length)))) := by
  have ht : ∀ x ∈ [0, 0, 0, 0, 0, 0] ++ s ++ [0], x < 128 := by
    intro x hx
    simp only [List.mem_append, List.mem_cons, List.not_mem_nil, or_false] at hx
    rcases hx with (h | h) | h
    · omega
    · exact hs x h
    · omega
  have hl2 : ([0, 0, 0, 0, 0, 0] ++ s).length = s.length + 6 := by simp
  have hl3 : ([0, 0, 0, 0, 0, 0] ++ s ++ [0]).length = s.length + 7 := by simp
  have hv : leVal 128 ([0, 0, 0, 0, 0, 0] ++ s ++ [0]) = leVal 128 ([0, 0, 0, 0, 0, 0] ++ s) := by
    rw [leVal_append]; simp
  have hstep : pack7 s (some udh) = (do
      let op ← overwrite (digits 256 ((s.length + 7) * 7 / 8) (leVal 128 ([0, 0, 0, 0, 0, 0] ++ s))) udh
      let h ← pyChr (s.length + 6)
      let b ← chrAll op
      .ok (encodeStr (h :: b))) := by
    unfold pack7
    simp only []
    rw [hl2, hl3, packLoop_digits ht _ (by rw [hl3]; omega) (by simp), hv]
    rfl
  have hlen : (digits 256 ((s.length + 7) * 7 / 8) (leVal 128 ([0, 0, 0, 0, 0, 0] ++ s))).length = (s.length + 7) * 7 / 8 :=
    digits_length _ _ _
  rw [hstep]
  refine ⟨fun h => ?_, fun h hn => ?_, fun h hn => ?_⟩
  · rw [overwrite_short (by rw [hlen]; omega)]
    rfl
  · rw [overwrite_ok (by rw [hlen]; omega)]
    have : ¬ s.length + 6 < 256 := by omega
    simp only [bind, Except.bind, pyChr, if_neg this]
  · have hlt : ∀ x ∈ digits 256 ((s.length + 7) * 7 / 8) (leVal 128 ([0, 0, 0, 0, 0, 0] ++ s)), x < 256 := digits_lt (by decide) _ _
    have hall : ∀ x ∈ udh ++ (digits 256 ((s.length + 7) * 7 / 8) (leVal 128 ([0, 0, 0, 0, 0, 0] ++ s))).drop udh.length, x < 256 := by
      intro x hx
      rcases List.mem_append.1 hx with h | h
      · exact hu x h
      · exact hlt x (List.mem_of_mem_drop h)
    have hs6 : ∀ x ∈ [0, 0, 0, 0, 0, 0] ++ s, x < 128 := fun x hx => ht x (List.mem_append_left _ hx)
    refine ⟨_, ⟨?_, hlt, ?_⟩, ?_⟩
    · rw [hlen, hl2]; omega
    · apply leVal_digits_of_lt
      refine lt_of_lt_of_le (leVal_lt hs6) ?_
      rw [hl2]
      have h1 : (256 : Nat) = 2 ^ 8 := rfl
      have h2 : (128 : Nat) = 2 ^ 7 := rfl
      rw [h1, h2, ← pow_mul, ← pow_mul]
      apply Nat.pow_le_pow_right (by decide)
      omega
    · rw [overwrite_ok (by rw [hlen]; omega)]
      simp only [bind, Except.bind, pyChr, if_pos (show s.length + 6 < 256 by omega), chrAll_ok hall]
      rw [encodeStr_hex]
      intro x hx
      rcases List.mem_cons.1 hx with rfl | hx
      · omega
      · exact hall x hx

/-- seven octets of header and no text do not fit; a header of three does -/
example : pack7 [] (some [6, 5, 4, 0, 1, 0, 2]) = .error .indexError ∧ pack7 (py! "hi") (some [2, 1, 0]) = .ok (py! "080201000000a0d3") := by
  decide +kernel

/-- C05: a longer text is refused with a ValueError. -/
theorem C05_too_long (s : List Nat) (hs : ∀ x ∈ s, x < 128) (hn : 255 < s.length) :
    pack7 s none = .error .valueError := by
  have ht : ∀ x ∈ s ++ [0], x < 128 := by
    intro x hx
    rcases List.mem_append.1 hx with h | h
    · exact hs x h
    · simp at h; omega
  unfold pack7
  simp only [List.length_append, List.length_cons, List.length_nil, Nat.zero_add]
  rw [packLoop_digits ht _ (by simp; omega) (by simp)]
  have : ¬ s.length < 256 := by omega
  simp [bind, Except.bind, pyChr, this]

example : (∀ x ∈ List.replicate 256 0x41, x < 128) ∧ 255 < (List.replicate 256 0x41).length :=
  ⟨fun x hx => by rw [List.eq_of_mem_replicate hx]; decide, by rw [List.length_replicate]; decide⟩

/-- C05: the specification determines the octets. -/
theorem C05_unique (s o o' : List Nat) (h : PackedSeptets s o) (h' : PackedSeptets s o') : o = o' :=
  leVal_inj (by rw [h.1, h'.1]) h.2.1 h'.2.1 (by rw [h.2.2, h'.2.2])

example : PackedSeptets [0x68, 0x65, 0x6c, 0x6c, 0x6f] [0xe8, 0x32, 0x9b, 0xfd, 0x06] := by
  refine ⟨by decide, by decide, by decide⟩
example : pack7 (py! "hello") none = .ok (py! "05e8329bfd06") := by decide +kernel

/-- C06: unpacking the packed user data and keeping the first `n` septets gives the septets back, up to the 161 the
unpacker stops at (the standard allows 160). -/
theorem C06_roundtrip_any (s : List Nat) (hs : ∀ x ∈ s, x < 128) (hn : s.length ≤ 255) :
    ∃ h r, pack7 s none = .ok h ∧ unpackMsg (h.drop 2) = .ok r ∧ r.take s.length = s.take 161 := by
  obtain ⟨o, ⟨h1, h2, h3⟩, h4⟩ := pack7_none hs (show s.length < 256 by omega)
  refine ⟨_, unpackMsg2 o, h4, ?_, ?_⟩
  · obtain ⟨a, b, hab⟩ := hex02_pair (show s.length < 256 by omega)
    have : (encodeStr (s.length :: o)).drop 2 = encodeStr o := by simp [encodeStr, hab]
    rw [this, unpackMsg_eq h2]
  · rw [unpackMsg2_eq h2, h3]
    by_cases hl : s.length ≤ 161
    · rw [digits_take _ _ _ _ (by omega), digits_leVal hs, List.take_of_length_le hl]
    · rw [List.take_of_length_le (by rw [digits_length]; omega)]
      have e : min (8 * o.length / 7) 161 = 161 := by omega
      rw [e, ← digits_take 128 s.length 161 _ (by omega), digits_leVal hs]

example := C06_roundtrip_any (List.replicate 200 0x41) (by decide +kernel) (by decide +kernel)

/-- C06: unpacking the packed user data and keeping the first `n` septets is the identity. -/
theorem C06_roundtrip (s : List Nat) (hs : ∀ x ∈ s, x < 128) (hn : s.length ≤ 161) :
    ∃ h r, pack7 s none = .ok h ∧ unpackMsg (h.drop 2) = .ok r ∧ r.take s.length = s := by
  obtain ⟨h, r, h1, h2, h3⟩ := C06_roundtrip_any s hs (by omega)
  exact ⟨h, r, h1, h2, by rw [h3, List.take_of_length_le hn]⟩

example := C06_roundtrip [0x68, 0x65, 0x6c, 0x6c, 0x6f] (by decide) (by decide)

/-- C06: the same for the byte-array unpacker. -/
theorem C06_roundtrip_bytes (s o : List Nat) (hs : ∀ x ∈ s, x < 128) (hn : s.length ≤ 161)
    (ho : PackedSeptets s o) : (unpackMsg2 o).take s.length = s := by
  obtain ⟨h1, h2, h3⟩ := ho
  rw [unpackMsg2_eq h2, digits_take _ _ _ _ (by omega), h3, digits_leVal hs]

example := C06_roundtrip_bytes [0x68, 0x65, 0x6c, 0x6c, 0x6f] [0xe8, 0x32, 0x9b, 0xfd, 0x06] (by decide) (by decide)
  ⟨by decide, by decide, by decide⟩

/-- C06: with a concatenation header, the septets after the header's seven come back. -/
theorem C06_roundtrip_header (udh s : List Nat) (hs : ∀ x ∈ s, x < 128) (hu : ∀ x ∈ udh, x < 256)
    (hul : udh.length = 6) (hn : s.length ≤ 154) :
    ∃ h r, pack7 (32 :: s) (some udh) = .ok h ∧ unpackMsg (h.drop 2) = .ok r ∧
      (r.take (s.length + 7)).drop 7 = s := by
  obtain ⟨o, ⟨h1, h2, h3⟩, h4⟩ := pack7_udh hs hu hul (by omega)
  rw [hul] at h1 h3
  refine ⟨_, unpackMsg2 o, h4, ?_, ?_⟩
  · obtain ⟨a, b, hab⟩ := hex02_pair (show s.length + 7 < 256 by omega)
    have : (encodeStr ((s.length + 7) :: o)).drop 2 = encodeStr o := by simp [encodeStr, hab]
    rw [this, unpackMsg_eq h2]
  · rw [unpackMsg2_eq h2, digits_take _ _ _ _ (by omega), digits_drop, h3]
    have hu' : leVal 256 udh < 128 ^ 7 := by
      have := leVal_lt hu
      rw [hul] at this
      exact lt_trans this (by norm_num)
    have : (leVal 256 udh + 128 ^ ((8 * 6 + 6) / 7) * leVal 128 s) / 128 ^ 7 = leVal 128 s := by
      norm_num at hu' ⊢
      omega
    rw [this, Nat.add_sub_cancel, digits_leVal hs]

example : (unpackMsg2 [0xe8, 0x32, 0x9b, 0xfd, 0x06]).take 5 = py! "hello" := by decide +kernel

/-- C07: both unpackers agree, on any octets. -/
theorem C07_agree (o : List Nat) (ho : ∀ x ∈ o, x < 256) : unpackMsg (hexLower o) = .ok (unpackMsg2 o) := by
  rw [← encodeStr_hex ho]; exact unpackMsg_eq ho

example := C07_agree [0xe8, 0x32, 0x9b, 0xfd, 0x06] (by decide)

/-- C07: the result is the sequence of base-128 digits of the octets' number: all complete septets, capped at 161. -/
theorem C07_digits (o : List Nat) (ho : ∀ x ∈ o, x < 256) :
    (unpackMsg2 o).length = min (8 * o.length / 7) 161 ∧ (∀ x ∈ unpackMsg2 o, x < 128) ∧
    leVal 128 (unpackMsg2 o) = leVal 256 o % 128 ^ min (8 * o.length / 7) 161 := by
  rw [unpackMsg2_eq ho]
  exact ⟨digits_length _ _ _, digits_lt (by decide) _ _, leVal_digits ..⟩

example : unpackMsg2 (List.replicate 7 0xff) = List.replicate 8 0x7f := by decide +kernel

end Verif.Props

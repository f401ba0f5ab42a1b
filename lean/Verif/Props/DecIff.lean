import Verif.Props.Survive
/-!
# C45 continued: exactly which conformant headers are read as they are meant
-/
set_option autoImplicit false

namespace Verif.Props
open Verif Verif.Mms
open Verif.Spec.Wsp Verif.Spec.Mms Verif.Spec.MmsEnc Verif.Spec.Survive

/-! ### C45 -/

/-- a conformant text that does not start with a character from 32 on is written without a Quote -/
theorem text_unprinted {s : List Nat} (ht : IsText s) (h : ¬ IsPrintText s) : text s = s ++ [0] := by
  cases s with
  | nil => rfl
  | cons c s =>
    have hc : c < 32 := by
      by_contra hc
      exact h ⟨ht, c, rfl, by omega⟩
    unfold text
    simp only [if_neg (show ¬ c ≥ 127 by omega), List.nil_append]

theorem wsp_tuple {s s' : It} {a k : Str} {x : Val} (h : decodeWspHeader s = .ok (a, .tup k x) s') : a ∈ wspNames := by
  unfold decodeWspHeader at h
  cases hw : decodeWellKnownHeader s with
  | ok b t =>
    rw [orDE_ok hw] at h
    injection h with h1 h2
    subst h1
    exact wellKnown_inv hw
  | err e t =>
    by_cases he : e = .decodeError
    · subst he
      rw [orDE_err hw] at h
      unfold decodeApplicationHeader at h
      obtain ⟨n, t1, _, h⟩ := bind_ok_invM h
      obtain ⟨v, t2, _, h⟩ := bind_ok_invM h
      injection h with h _
      injection h with _ h
      cases h
    · rw [orDE_other hw he] at h
      cases h

/-- C45: a conformant header is read with its name and value, and what follows it untouched, exactly if it is one of `WF`,
whatever follows: encoded strings must start with a character from 32 on, a relative Delivery-Time must not be a
Short-integer and a version must have a minor number. -/
theorem C45_header_iff (h : Hdr) (hc : h.Conf) (rest : List Nat) :
    decodeHeader ⟨h.enc ++ rest, 0⟩ = .ok (h.name, h.value) ⟨rest, 0⟩ ↔ h.WF := by
  refine ⟨fun hd => ?_, fun hw => decodeHeader_hdr hw rest⟩
  cases h with
  | str f s =>
    by_contra hw
    have hl : lookupNum mmsFieldNames f.num = some (f.name, .encodedStringValue) := by cases f <;> rfl
    have hn : f.num < 128 := by cases f <;> decide
    have he : (Hdr.str f s).enc ++ rest = (0x80 + f.num) :: (s ++ [0] ++ rest) := by
      show (0x80 + f.num) :: (text s) ++ rest = _
      rw [text_unprinted hc hw]
      rfl
    rw [he] at hd
    have := field_inv hn hl (fun t => mmsValue_str_err (E := [.stopIteration, .exception]) rfl encodedString_safe
      (by decide) t) hd
    obtain ⟨s', h1, h2⟩ := mmsValue_str_inv (ty := .encodedStringValue) rfl this
    injection h1 with h1
    injection h1 with h1
    subst h1
    obtain ⟨h3, c, h4, h5, _⟩ := encoded_self h2
    exact hw ⟨h3, c, h4, h5⟩
  | fromAddr s =>
    by_contra hw
    have he : (Hdr.fromAddr s).enc ++ rest = (0x80 + 9) :: (sized (128 :: (s ++ [0])) ++ rest) := by
      show 0x89 :: sized (128 :: text s) ++ rest = _
      rw [text_unprinted hc hw]
      rfl
    rw [he] at hd
    have hno : ∀ t, decodeMmsValue .fromValue ⟨sized (128 :: (s ++ [0])) ++ rest, 0⟩ ≠ .err .decodeError t := by
      intro t
      change (decodeFromValue >>= fun s => pure (HVal.v (.str s))) _ ≠ _
      rw [M.bind_apply, from_dec]
      cases h : decodeEncodedStringValue ⟨s ++ [0] ++ rest, 0⟩ with
      | ok a b => intro h'; cases h'
      | err e b =>
        intro h'
        injection h' with h1 _
        subst h1
        have := ((encodedString_safe _).2 _ _ h).1
        simp at this
    have := field_inv (n := 9) (by decide) (by rfl) hno hd
    obtain ⟨s', h1, h2⟩ := mmsValue_str_inv (ty := .fromValue) rfl this
    injection h1 with h1
    injection h1 with h1
    subst h1
    rw [from_dec] at h2
    obtain ⟨h3, c, h4, h5, _⟩ := encoded_self h2
    exact hw ⟨h3, c, h4, h5⟩
  | deliveryRelShort n =>
    exfalso
    have hn : n < 128 := hc
    have hl : decodeLongInteger ⟨(128 + n) :: rest, 0⟩ = .err .decodeError ⟨(128 + n) :: rest, 0⟩ := by
      unfold decodeLongInteger
      exact M.bind_err (decodeShortLength_err (by omega) _)
    have hv : decodeDeliveryTimeValue ⟨2 :: 129 :: (128 + n) :: rest, 0⟩ = .err .decodeError ⟨(128 + n) :: rest, 0⟩ := by
      unfold decodeDeliveryTimeValue
      rw [M.bind_ok (show decodeValueLength ⟨2 :: 129 :: (128 + n) :: rest, 0⟩ = .ok 2 ⟨129 :: (128 + n) :: rest, 0⟩ from
        decodeValueLength_ok 2 _), M.bind_ok (next_cons _ _ _), M.bind_err hl]
    have hm : decodeMmsHeader ⟨0x87 :: 2 :: 129 :: (128 + n) :: rest, 0⟩ = .err .decodeError ⟨(128 + n) :: rest, 0⟩ := by
      unfold decodeMmsHeader
      rw [M.bind_ok (preview_zero _ _), fromByte_ok (by omega) (by omega), M.bind_ok (M.lift_ok _ _)]
      change (next >>= fun _ => wrapFatal (decodeMmsValue .deliveryTimeValue) >>= fun v => pure (py! "Delivery-Time", v)) _ = _
      rw [M.bind_ok (next_cons _ _ _)]
      apply M.bind_err
      unfold wrapFatal M.tryCatch
      have : decodeMmsValue .deliveryTimeValue ⟨2 :: 129 :: (128 + n) :: rest, 0⟩ = .err .decodeError ⟨(128 + n) :: rest, 0⟩ :=
        M.bind_err hv
      rw [this]
      rfl
    change decodeHeader ⟨0x87 :: 2 :: 129 :: (128 + n) :: rest, 0⟩ = .ok (py! "Delivery-Time", .tup (py! "relative") (.int n)) _ at hd
    unfold decodeHeader at hd
    rw [orDE_err hm] at hd
    have := wsp_tuple hd
    revert this
    decide +kernel
  | versionMajor a =>
    exfalso
    have ha : 1 ≤ a ∧ a ≤ 7 := hc
    have := C45_version_major a ha.2 rest
    have h2 := decodeHeader_field (n := 13) (ty := .versionValue) (by decide) (by rfl)
      (mmsValue_str (ty := .versionValue) rfl this)
    change decodeHeader ⟨(0x80 + 13) :: shortInt (16 * a + 15) ++ rest, 0⟩ = _ at hd
    rw [h2] at hd
    injection hd with hd _
    injection hd with _ hd
    injection hd with hd
    injection hd with hd
    have := congrArg List.length hd
    unfold dotted at this
    simp at this
  | _ => exact hc

example : (Hdr.versionMajor 1).Conf ∧ ¬ (Hdr.versionMajor 1).WF ∧ (Hdr.str .subject []).Conf ∧ ¬ (Hdr.str .subject []).WF := by
  refine ⟨⟨by decide, by decide⟩, id, by show (0 : Nat) ∉ _; decide, ?_⟩
  rintro ⟨_, c, h, _⟩
  cases h

end Verif.Props

import Verif.Proofs.Origin
/-!
# C121: where the exceptions of `from_data` come from
-/
set_option autoImplicit false

namespace Verif.Props
open Verif.Mms

/-! ### C121 what an exception says about the message -/

/-- An exception of `from_data` other than DecodeError and StopIteration can be traced to octets of the message:
RuntimeError needs an octet that names an MMS header field (0x81 to 0x98), AttributeError an octet 0x07 or 0x87 (the
number of the Differences parameter), OverflowError nine octets in a row with the high bit set (a length of 2^63 or
more). -/
theorem C121_origin (data : List Nat) (ho : ∀ b ∈ data, b < 256) (e : PyErr) (h : decodeData data = .error e) :
    e = .decodeError ∨ e = .stopIteration ∨
    (e = .runtimeError ∧ ∃ b ∈ data, 0x81 ≤ b ∧ b ≤ 0x98) ∨
    (e = .attributeError ∧ (0x07 ∈ data ∨ 0x87 ∈ data)) ∨
    (e = .overflowError ∧ ∃ pre run post, data = pre ++ run ++ post ∧ run.length = 9 ∧ ∀ b ∈ run, 0x80 ≤ b) := by
  have hmem := decodeData_err data e h
  simp only [List.mem_cons, List.not_mem_nil, or_false] at hmem
  rcases hmem with rfl | rfl | rfl | rfl | rfl
  · exact .inr (.inl rfl)
  · exact .inl rfl
  · refine .inr (.inr (.inr (.inl ⟨rfl, ?_⟩)))
    by_contra hc
    refine decodeData_clean (P := fun l => (∀ b ∈ l, b < 256) ∧ ¬ (7 ∈ l ∨ 135 ∈ l)) (e := .attributeError)
      ⟨?_, .inl rfl, ?_, (fun h => nomatch h), fun l hl => hl.1, (fun h => nomatch h)⟩ data ⟨ho, hc⟩ h
    · intro l l' hi hp
      exact ⟨fun b hb => hp.1 b (hi.subset hb), fun hh => hp.2 (hh.imp (fun x => hi.subset x) (fun x => hi.subset x))⟩
    · intro _ s s' hp h7
      exact hp.2 (integer_seven h7 hp.1)
  · refine .inr (.inr (.inr (.inr ⟨rfl, ?_⟩)))
    by_contra hc
    refine decodeData_clean (P := fun l => (∀ b ∈ l, b < 256) ∧ ¬ ∃ c, c <:+: l ∧ c.length = 9 ∧ ∀ b ∈ c, 128 ≤ b)
      (e := .overflowError) ⟨?_, .inr (.inl rfl), (fun h => nomatch h), ?_, fun l hl => hl.1, (fun h => nomatch h)⟩ data
      ⟨ho, ?_⟩ h
    · intro l l' hi hp
      exact ⟨fun b hb => hp.1 b (hi.subset hb), fun ⟨c, h1, h2⟩ => hp.2 ⟨c, h1.trans hi, h2⟩⟩
    · intro _ s s' n hp hu
      by_contra hn
      exact hp.2 (uint_run hu hp.1 (by omega))
    · rintro ⟨c, ⟨pre, post, h1⟩, h2, h3⟩
      exact hc ⟨pre, c, post, h1.symm, h2, h3⟩
  · refine .inr (.inr (.inl ⟨rfl, ?_⟩))
    by_contra hc
    refine decodeData_clean (P := fun l => (∀ b ∈ l, b < 256) ∧ ∀ b ∈ l, b < 129 ∨ 152 < b) (e := .runtimeError)
      ⟨?_, .inr (.inr rfl), (fun h => nomatch h), (fun h => nomatch h), fun l hl => hl.1, fun _ l hl => hl.2⟩ data
      ⟨ho, ?_⟩ h
    · intro l l' hi hp
      exact ⟨fun b hb => hp.1 b (hi.subset hb), fun b hb => hp.2 b (hi.subset hb)⟩
    · intro b hb
      by_contra hn
      exact hc ⟨b, hb, by omega, by omega⟩

example := C121_origin [0x84, 0xa3, 1, 4, 0, 3, 0x83, 0x87, 0x81] (by decide) .attributeError (by decide +kernel)
example := C121_origin [0x84, 0xa3, 0x81, 0x80, 0x80, 0x80, 0x80, 0x80, 0x80, 0x80, 0x80, 0x00] (by decide)
  .overflowError (by decide +kernel)
example := C121_origin [0x98, 65] (by decide) .runtimeError (by decide +kernel)

/-- so a message of fewer than nine octets never raises OverflowError, and one in ASCII only DecodeError or StopIteration,
unless it contains the octet 7 -/
theorem C121_plain (data : List Nat) (ho : ∀ b ∈ data, b < 256) (e : PyErr) (h : decodeData data = .error e) :
    (data.length < 9 → e ≠ .overflowError) ∧
    ((∀ b ∈ data, b < 0x80 ∧ b ≠ 7) → e = .decodeError ∨ e = .stopIteration) := by
  have hc := C121_origin data ho e h
  constructor
  · rintro hl rfl
    rcases hc with hc | hc | hc | hc | ⟨-, pre, run, post, rfl, h9, -⟩
    · cases hc
    · cases hc
    · cases hc.1
    · cases hc.1
    · simp at hl
      omega
  · intro ha
    rcases hc with hc | hc | ⟨-, b, hb, h1, -⟩ | ⟨-, hc⟩ | ⟨-, pre, run, post, rfl, h9, hr⟩
    · exact .inl hc
    · exact .inr hc
    · have := (ha b hb).1
      omega
    · rcases hc with hc | hc
      · exact absurd rfl (ha _ hc).2
      · have := (ha _ hc).1
        omega
    · match run, h9 with
      | b :: r, _ =>
        have h1 := hr b (by simp)
        have h2 := (ha b (by simp)).1
        omega

/-- a header in text form announcing one part, and nothing after it -/
example := C121_plain (py! "Content-Type" ++ [0] ++ py! "image/gif" ++ [0, 1]) (by decide) .stopIteration (by decide +kernel)

end Verif.Props

import Verif.Props.MmsDec
/-!
# Content type numbers: the other cases of C63
-/
set_option autoImplicit false

namespace Verif.Props
open Verif Verif.Mms Verif.Spec.Mms

/-- C63: number 14 is read as 'multipart/byterantes', which is also the name that is sent with it; the registered name is sent as
text. -/
theorem C63_fourteen (rest : List Nat) :
    decodeContentTypeValue ⟨(128 + 14) :: rest, 0⟩ = .ok (py! "multipart/byterantes", []) ⟨rest, 0⟩ ∧
    encodeContentTypeValue (py! "multipart/byterantes") [] = .ok (ints [142]) ∧
    encodeContentTypeValue (py! "multipart/byteranges") [] = .ok (ints (toInts (py! "multipart/byteranges" ++ [0]))) := by
  refine ⟨?_, by decide +kernel, by decide +kernel⟩
  exact decodeContentTypeValue_constrained (decodeConstrainedMedia_known (i := 14) (by decide +kernel) rest)

theorem ctNumber_all : ∀ n : Fin 128, mediaTypes[n.val]? = none → wellKnownContentTypes[n.val]? = none := by decide +kernel

theorem unassigned_skip (n : Nat) (hn : n < 128) (h : mediaTypes[n]? = none) (rest : List Nat) :
    decodeContentTypeValue ⟨(128 + n) :: rest, 0⟩ = decodeContentGeneralForm ⟨rest, 0⟩ := by
  have h1 := ctNumber_all ⟨n, hn⟩ h
  have hd : decodeConstrainedEncoding ⟨(128 + n) :: rest, 0⟩ = .ok (.int n) ⟨rest, 0⟩ := by
    unfold decodeConstrainedEncoding
    apply orDE_ok
    rw [M.bind_ok (decodeShortInteger_ok (by omega) (by omega) _), M.pure_apply, show 128 + n - 128 = n by omega]
  have hm : decodeConstrainedMedia ⟨(128 + n) :: rest, 0⟩ = .err .decodeError ⟨rest, 0⟩ := by
    unfold decodeConstrainedMedia
    rw [M.bind_ok hd]
    simp only [Int.toNat_natCast]
    unfold mediaName
    simp only at h1
    rw [h1]
    rfl
  unfold decodeContentTypeValue
  rw [orDE_err]
  rw [M.bind_err hm]

/-- C63: a number that is not registered is skipped: at the end of the octets StopIteration, before an octet above 31
DecodeError, and before a content type with parameters (or just a length) that content type is the answer. -/
theorem C63_unassigned (n : Nat) (hn : n < 128) (h : mediaTypes[n]? = none) :
    (∃ it, decodeContentTypeValue ⟨[128 + n], 0⟩ = .err .stopIteration it) ∧
    (∀ b, 31 < b → ∀ rest, decodeContentTypeValue ⟨(128 + n) :: b :: rest, 0⟩ = .err .decodeError ⟨b :: rest, 0⟩) ∧
    ∀ m ps rest, (CType.general m ps).WF →
      decodeContentTypeValue ⟨(128 + n) :: ((CType.general m ps).enc ++ rest), 0⟩ =
        .ok ((CType.general m ps).media, (CType.general m ps).params) ⟨rest, 0⟩ := by
  refine ⟨?_, ?_, ?_⟩
  · rw [unassigned_skip n hn h]
    exact ⟨_, rfl⟩
  · intro b hb rest
    rw [unassigned_skip n hn h]
    unfold decodeContentGeneralForm
    rw [M.bind_err (decodeValueLength_err hb rest)]
  · intro m ps rest hw
    rw [unassigned_skip n hn h]
    have hc : decodeConstrainedMedia ⟨(CType.general m ps).enc ++ rest, 0⟩
        = .err .decodeError ⟨(CType.general m ps).enc ++ rest, 0⟩ := by
      obtain ⟨b, t, he, hb⟩ := valueLength_head (m.enc ++ ps.flatMap Param.enc).length
      simp only [CType.enc, he, List.cons_append]
      exact constrainedMedia_length hb _
    have := ctype_ok hw rest
    unfold decodeContentTypeValue at this
    rw [orDE_err (M.bind_err hc)] at this
    exact this

example : (CType.general (.known 3 (py! "text/plain")) []).WF ∧
    decodeContentTypeValue ⟨[128 + 76, 1, 0x83, 65], 0⟩ = .ok (py! "text/plain", []) ⟨[65], 0⟩ :=
  ⟨⟨⟨by decide, by decide +kernel⟩, by simp, by decide⟩, by decide +kernel⟩

example : mediaTypes[76]? = none ∧ mediaTypes[127]? = none := by decide +kernel

end Verif.Props

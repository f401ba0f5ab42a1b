import Verif.Spec.Accept
import Verif.Proofs.Mms2
/-!
# C71: Accept, Pragma and charset values
-/
set_option autoImplicit false

namespace Verif.Props
open Verif Verif.Mms
open Verif.Spec.Wsp Verif.Spec.Mms Verif.Spec.Accept

/-- C71 in full: every conformant Accept value is read as its media type and exactly its octets are consumed. -/
def C71_full : Prop := ∀ a : Accept, a.WF → ∀ rest, decodeAcceptValue ⟨a.enc ++ rest, 0⟩ = .ok a.media ⟨rest, 0⟩

theorem accept_general {m : Media} (hm : m.WF) (n : Nat) (tail : List Nat) :
    decodeAcceptValue ⟨valueLength n ++ (m.enc ++ tail), 0⟩ = acceptTail m.value ⟨tail, 0⟩ := by
  unfold decodeAcceptValue
  have h1 := decodeValueLength_ok n (m.enc ++ tail)
  have h2 := mediaType_ok hm tail
  unfold decodeMediaType at h2
  obtain ⟨b, t, hb, hb'⟩ := valueLength_head n
  rw [hb] at h1 ⊢
  rw [List.cons_append] at h1 ⊢
  rw [orDE_err (constrainedMedia_length hb' _), M.bind_ok h1, M.bind_ok h2]

theorem qValue_ok {n : Nat} (h : n ≤ 1099) (rest : List Nat) : ∃ v, decodeQValue ⟨uintvar n ++ rest, 0⟩ = .ok v ⟨rest, 0⟩ := by
  have hp := decodeParameter_param (p := .q n) h rest
  unfold decodeQValue
  rw [M.bind_ok (decodeUintVar_uintvar n rest 0)]
  by_cases hn : n ≤ 100
  · rw [if_neg (by omega)]; exact ⟨_, rfl⟩
  · have hbig : ¬ (n - 100 ≥ 2 ^ 1024 - 2 ^ 970) := by
      have : (1100 : Nat) ≤ 2 ^ 1024 - 2 ^ 970 := by decide +kernel
      generalize 2 ^ 1024 - 2 ^ 970 = x at *
      omega
    rw [if_pos (by omega), if_neg hbig]; exact ⟨_, rfl⟩

theorem textMedia_wf : (Media.known 3 (py! "text/plain")).WF := ⟨by decide, by decide +kernel⟩

/-- C71: a media type alone is read. -/
theorem C71_constrained_partial (m : Media) (hm : m.WF) (rest : List Nat) :
    decodeAcceptValue ⟨(Accept.constrained m).enc ++ rest, 0⟩ = .ok m.value ⟨rest, 0⟩ :=
  orDE_ok (constrainedMedia_ok hm rest)

example := C71_constrained_partial (.known 3 (py! "text/plain")) textMedia_wf [0x81, 1]

/-- C71: a media type in the long form is read if an octet other than 128 follows.  Missing compared with `C71_full`: the
values below. -/
theorem C71_general_partial (m : Media) (hm : m.WF) (b : Nat) (hb : b ≠ 128) (rest : List Nat) :
    decodeAcceptValue ⟨(Accept.general m [] none).enc ++ b :: rest, 0⟩ = .ok m.value ⟨b :: rest, 0⟩ := by
  simp only [Accept.enc, sized, Accept.quality, List.flatMap_nil, List.append_nil, List.append_assoc]
  rw [accept_general hm]
  unfold acceptTail
  rw [M.bind_ok (preview_zero _ _), if_neg hb]
  rfl

example := C71_general_partial (.known 3 (py! "text/plain")) textMedia_wf 0x81 (by decide) [1]

/-- C71: a quality factor with exactly one further parameter is read. -/
theorem C71_extension_partial (m : Media) (hm : m.WF) (n : Nat) (hn : n ≤ 1099) (p : Param) (hp : p.WF) (rest : List Nat) :
    decodeAcceptValue ⟨(Accept.general m [] (some (n, [p]))).enc ++ rest, 0⟩ = .ok m.value ⟨rest, 0⟩ := by
  simp only [Accept.enc, sized, Accept.quality, List.flatMap_nil, List.append_nil, List.append_assoc, List.cons_append,
    List.flatMap_cons]
  rw [accept_general hm]
  unfold acceptTail
  obtain ⟨v, hv⟩ := qValue_ok hn (p.enc ++ rest)
  rw [M.bind_ok (preview_zero _ _), if_pos rfl, M.bind_ok (next_cons _ _ _), M.bind_ok hv,
    M.bind_ok (orDE_ok (a := ()) (s' := ⟨rest, 0⟩) (by rw [M.bind_ok (decodeParameter_param hp rest)]; rfl))]
  rfl

example := C71_extension_partial (.known 3 (py! "text/plain")) textMedia_wf 51 (by decide) (.level 1 2)
  ⟨by decide, by decide, by decide⟩ [0x81]

/-- C71: without a further parameter, an octet sequence that happens to be one is swallowed: what follows the value is
lost. -/
theorem C71_swallowed (m : Media) (hm : m.WF) (n : Nat) (hn : n ≤ 1099) (p : Param) (hp : p.WF) (rest : List Nat) :
    decodeAcceptValue ⟨(Accept.general m [] (some (n, []))).enc ++ (p.enc ++ rest), 0⟩ = .ok m.value ⟨rest, 0⟩ := by
  simp only [Accept.enc, sized, Accept.quality, List.flatMap_nil, List.append_nil, List.append_assoc, List.cons_append]
  rw [accept_general hm]
  unfold acceptTail
  obtain ⟨v, hv⟩ := qValue_ok hn (p.enc ++ rest)
  rw [M.bind_ok (preview_zero _ _), if_pos rfl, M.bind_ok (next_cons _ _ _), M.bind_ok hv,
    M.bind_ok (orDE_ok (a := ()) (s' := ⟨rest, 0⟩) (by rw [M.bind_ok (decodeParameter_param hp rest)]; rfl))]
  rfl

example := C71_swallowed (.known 3 (py! "text/plain")) textMedia_wf 51 (by decide) (.level 1 2)
  ⟨by decide, by decide, by decide⟩ [0x81]

/-- C71: at the end of the data the long form fails, with or without a quality factor. -/
theorem C71_end (m : Media) (hm : m.WF) (n : Nat) (hn : n ≤ 1099) :
    decodeAcceptValue ⟨(Accept.general m [] none).enc, 0⟩ = .err .stopIteration ⟨[], 0⟩ ∧
    decodeAcceptValue ⟨(Accept.general m [] (some (n, []))).enc, 0⟩ = .err .stopIteration ⟨[], 0⟩ := by
  simp only [Accept.enc, sized, Accept.quality, List.flatMap_nil, List.append_nil]
  constructor
  · have := accept_general hm m.enc.length []
    rw [List.append_nil] at this
    rw [this]
    exact M.bind_err (preview_nil 0)
  · rw [accept_general hm]
    unfold acceptTail
    obtain ⟨v, hv⟩ := qValue_ok hn []
    rw [List.append_nil] at hv
    rw [M.bind_ok (preview_zero _ _), if_pos rfl, M.bind_ok (next_cons _ _ _), M.bind_ok hv]
    exact M.bind_err (orDE_other (M.bind_err (decodeParameter_nil 0)) (by decide))

example := C71_end (.known 3 (py! "text/plain")) textMedia_wf 51 (by decide)

/-- C71: parameters of the media range are not consumed but left to be read as headers. -/
theorem C71_range_params (m : Media) (hm : m.WF) (p : Param) (ps : List Param) (q : Option (Nat × List Param))
    (hp : p.enc.head? ≠ some 128) (hne : p.enc ≠ []) (rest : List Nat) :
    decodeAcceptValue ⟨(Accept.general m (p :: ps) q).enc ++ rest, 0⟩ =
      .ok m.value ⟨(p :: ps).flatMap Param.enc ++ Accept.quality q ++ rest, 0⟩ := by
  simp only [Accept.enc, sized, List.append_assoc, List.flatMap_cons]
  rw [accept_general hm]
  cases hc : p.enc with
  | nil => exact absurd hc hne
  | cons b t =>
    rw [hc] at hp
    unfold acceptTail
    rw [List.cons_append, M.bind_ok (preview_zero _ _), if_neg (fun h => hp (by rw [h]; rfl))]
    rfl

example := C71_range_params (.known 3 (py! "text/plain")) textMedia_wf (.level 1 2) [] (some (51, [])) (by decide) (by decide) [0x81]

theorem C71_refuted : ¬ C71_full := by
  intro h
  have h1 := h (.general (.known 3 (py! "text/plain")) [] none) ⟨textMedia_wf, by simp, by simp⟩ []
  rw [List.append_nil, (C71_end _ textMedia_wf 0 (by decide)).1] at h1
  cases h1

/-- C71: Pragma values are read, whatever follows. -/
theorem C71_pragma (p : Pragma) (hp : p.WF) (rest : List Nat) :
    decodePragmaValue ⟨p.enc ++ rest, 0⟩ = .ok p.value ⟨rest, 0⟩ := by
  cases p with
  | noCache => rfl
  | param p =>
    have h1 := decodeValueLength_ok p.enc.length (p.enc ++ rest)
    have h2 := decodeParameter_param (show p.WF from hp) rest
    simp only [Pragma.enc, sized, List.append_assoc]
    obtain ⟨b, t, hb, hb'⟩ := valueLength_head p.enc.length
    rw [hb, List.cons_append] at h1 ⊢
    unfold decodePragmaValue
    rw [M.bind_ok (preview_zero _ _), if_neg (by omega), M.bind_ok (resetPreview_apply _), M.bind_ok h1]
    exact h2

example := C71_pragma (.param (.otherToken (py! "foo") (py! "bar"))) ⟨⟨by decide, by decide⟩, ⟨by decide, by decide⟩⟩ [0x81]

/-- C71: the charset octet for "any" (128) is read as the number 0, as if it were an unknown charset; the library expects
127 there. -/
theorem C71_any_charset (rest : List Nat) :
    decodeWellKnownCharset ⟨128 :: rest, 0⟩ = .ok (py! "0") ⟨rest, 0⟩ ∧
    decodeWellKnownCharset ⟨127 :: rest, 0⟩ = .ok (py! "*") ⟨rest, 0⟩ := by
  constructor
  · have h := decodeWellKnownCharset_int (i := .short 0) (show (0 : Nat) < 128 by decide) rest
    have h1 : lookupNum wellKnownCharsets (IntEnc.short 0).val = none := by decide +kernel
    have h2 : natStr (IntEnc.short 0).val = py! "0" := by decide +kernel
    rw [h1, h2] at h
    exact h
  · rfl

/-- C71: the headers themselves: Accept has number 0 and Pragma 31 (WAP-230 table 39). -/
theorem C71_headers (a : Accept) (p : Pragma) (hp : p.WF) (m : List Nat) (rest rest' : List Nat)
    (ha : decodeAcceptValue ⟨a.enc ++ rest, 0⟩ = .ok m ⟨rest', 0⟩) :
    decodeWspHeader ⟨128 :: (a.enc ++ rest), 0⟩ = .ok (py! "Accept", .v (.str m)) ⟨rest', 0⟩ ∧
    decodeWspHeader ⟨159 :: (p.enc ++ rest), 0⟩ = .ok (py! "Pragma", .tup p.value.1 p.value.2) ⟨rest, 0⟩ := by
  have hn : ∃ names, getHeaderFieldNames (py! "1.2") = .ok names ∧ names[0]? = some (py! "Accept") ∧
      names[31]? = some (py! "Pragma") := ⟨_, rfl, by decide +kernel, by decide +kernel⟩
  obtain ⟨names, h1, h2, h3⟩ := hn
  constructor
  · refine orDE_ok ?_
    unfold decodeWellKnownHeader
    rw [M.bind_ok (show decodeShortInteger ⟨128 :: (a.enc ++ rest), 0⟩ = _ from short_ok (n := 0) (by decide) _), h1, M.bind_ok (M.lift_ok _ _)]
    simp only [h2]
    unfold decodeWapValue
    rw [if_pos rfl]
    rw [M.bind_apply, M.bind_apply]
    rw [show decodeAcceptValue ⟨a.enc.append rest, 0⟩ = _ from ha]
    rfl
  · refine orDE_ok ?_
    unfold decodeWellKnownHeader
    rw [M.bind_ok (show decodeShortInteger ⟨159 :: (p.enc ++ rest), 0⟩ = _ from short_ok (n := 31) (by decide) _), h1, M.bind_ok (M.lift_ok _ _)]
    simp only [h3]
    unfold decodeWapValue
    rw [if_neg (by decide), if_pos rfl, M.bind_apply, M.bind_apply,
      show decodePragmaValue ⟨p.enc.append rest, 0⟩ = _ from C71_pragma p hp rest]
    rfl

example : (Accept.general (.known 3 (py! "text/plain")) [.charset (.short 106) (py! "utf-8")] (some (51, [.level 1 2]))).WF :=
  ⟨textMedia_wf, by
    intro p hp
    rw [List.mem_singleton] at hp
    subst hp
    exact ⟨show (106 : Nat) < 128 by decide, by decide⟩, by
    rintro n ext ⟨⟩
    refine ⟨by decide, ?_⟩
    intro p hp
    rw [List.mem_singleton] at hp
    subst hp
    exact ⟨by decide, by decide, by decide⟩⟩
example : (Pragma.param (.otherToken (py! "foo") (py! "bar"))).WF := ⟨⟨by decide, by decide⟩, ⟨by decide, by decide⟩⟩
example : (Param.level 1 2).enc.head? ≠ some 128 ∧ (Param.level 1 2).enc ≠ [] := by decide

end Verif.Props

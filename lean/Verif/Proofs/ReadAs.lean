import Verif.Proofs.Mms3
import Verif.Spec.ReadAs
import Mathlib.Data.List.TakeWhile
/-!
# Lemmas: reading conformant content types, including the forms the library misreads
-/
set_option autoImplicit false

namespace Verif.Mms
open Verif.Spec.Wsp Verif.Spec.Mms

theorem breaks_iff (c : Nat) : breaks c = false ↔ 31 < c ∧ c ∉ separators := by
  simp only [breaks, separators, Bool.or_eq_false_iff, decide_eq_false_iff_not, List.contains_eq_mem, List.mem_cons,
    List.not_mem_nil, or_false, not_or]
  omega

/-- a token is read up to the first character that breaks it -/
theorem tokenLoop_break (u : List Nat) (hu : ∀ c ∈ u, breaks c = false) (c : Nat) (hc : breaks c = true) (rest acc : List Nat) :
    tokenLoop acc (u ++ c :: rest) = .ok (acc ++ u) ⟨rest, 0⟩ := by
  induction u generalizing acc with
  | nil =>
    have : ¬ (31 < c ∧ c ∉ separators) := fun h => by rw [(breaks_iff c).2 h] at hc; cases hc
    rw [List.nil_append, tokenLoop, if_neg this, List.append_nil]
  | cons x u ih =>
    have := (breaks_iff x).1 (hu x (by simp))
    rw [List.cons_append, tokenLoop, if_pos this, ih (fun y hy => hu y (by simp [hy]))]
    simp

/-- a quoted string is read as a token, quote included, up to the first character that breaks it -/
theorem quoted_read (u : List Nat) (hu : ∀ c ∈ u, breaks c = false) (c : Nat) (hc : breaks c = true) (rest : List Nat) :
    decodeUntypedValue ⟨34 :: (u ++ c :: rest), 0⟩ = .ok (.str (34 :: u)) ⟨rest, 0⟩ := by
  have hd : decodeTokenText ⟨34 :: (u ++ c :: rest), 0⟩ = .ok (34 :: u) ⟨rest, 0⟩ := by
    unfold decodeTokenText
    rw [M.bind_ok (preview_zero _ _), if_neg (by decide)]
    have := tokenLoop_break (34 :: u) (fun x hx => by
      rcases List.mem_cons.1 hx with rfl | hx
      · decide
      · exact hu x hx) c hc rest []
    exact this
  unfold decodeUntypedValue
  rw [orDE_err (M.bind_err (decodeIntegerValue_err (by decide) (by decide) _))]
  unfold decodeTextValue
  rw [M.bind_ok (orDE_ok hd)]
  rfl

theorem param_quoted {t : List Nat} (h : IsToken t) (u : List Nat) (hu : ∀ c ∈ u, breaks c = false) (c : Nat)
    (hc : breaks c = true) (rest : List Nat) :
    decodeParameter ⟨t ++ 0 :: 34 :: (u ++ c :: rest), 0⟩ = .ok (t, .str (34 :: u)) ⟨rest, 0⟩ := by
  have := param_untyped (body := 34 :: (u ++ [c])) (rest := rest) h (v := .str (34 :: u)) (by
    have := quoted_read u hu c hc rest
    simpa using this)
  simpa using this

theorem param_inStep {p : Param} (h : p.InStep) (rest : List Nat) :
    decodeParameter ⟨p.enc ++ rest, 0⟩ = .ok (p.key, p.asRead) ⟨rest, 0⟩ := by
  cases p with
  | charsetAny =>
    refine param_typed (n := 1) (ty := .wellKnownCharset) (body := [128]) (by decide) params12_eq rfl (typed_str rfl ?_)
    have := decodeWellKnownCharset_int (i := .short 0) (show 0 < 128 by decide) rest
    rw [show (IntEnc.short 0).enc = [128] from rfl] at this
    rw [this]
    exact congrArg (fun x => Res.ok x _) (show _ = py! "0" by decide +kernel)
  | otherNone t =>
    have := param_untyped (body := [0]) (rest := rest) (v := .int 0) h (by
      unfold decodeUntypedValue
      apply orDE_ok
      have := intEnc_ok (i := .long []) ⟨by decide, by simp⟩ rest
      rw [show (IntEnc.long []).enc = [0] from rfl] at this
      rw [M.bind_ok this]
      rfl)
    simpa [Param.enc, Param.key, Param.asRead] using this
  | otherQuoted t s =>
    have := param_quoted h.1 s h.2.2 0 (by decide) rest
    simpa [Param.enc, Param.key, Param.asRead] using this
  | differences t => exact h.elim
  | q n => exact decodeParameter_param (p := .q n) h rest
  | charset i s => exact decodeParameter_param (p := .charset i s) h rest
  | level a b => exact decodeParameter_param (p := .level a b) h rest
  | type i => exact decodeParameter_param (p := .type i) h rest
  | name s => exact decodeParameter_param (p := .name s) h rest
  | filename s => exact decodeParameter_param (p := .filename s) h rest
  | padding n => exact decodeParameter_param (p := .padding n) h rest
  | relatedTypeNum n => exact decodeParameter_param (p := .relatedTypeNum n) h rest
  | relatedType s => exact decodeParameter_param (p := .relatedType s) h rest
  | start s => exact decodeParameter_param (p := .start s) h rest
  | startInfo s => exact decodeParameter_param (p := .startInfo s) h rest
  | otherInt t i => exact decodeParameter_param (p := .otherInt t i) h rest
  | otherToken t s => exact decodeParameter_param (p := .otherToken t s) h rest

theorem param_differences {t : List Nat} (rest : List Nat) :
    decodeParameter ⟨(Param.differences t).enc ++ rest, 0⟩ = .err .attributeError ⟨t ++ 0 :: rest, 0⟩ := by
  have hw : decodeWellKnownParameter (py! "1.2") ⟨0x87 :: (t ++ [0] ++ rest), 0⟩ =
      .ok (py! "Differences", .fieldName) ⟨t ++ [0] ++ rest, 0⟩ := by
    unfold decodeWellKnownParameter
    rw [M.bind_ok (decodeIntegerValue_short (by omega) (by omega) _), params12_eq, M.bind_ok (M.lift_ok _ _)]
    rfl
  have : decodeTypedParameter ⟨0x87 :: (t ++ [0] ++ rest), 0⟩ = .err .attributeError ⟨t ++ [0] ++ rest, 0⟩ := by
    unfold decodeTypedParameter
    rw [M.bind_ok hw]
    rfl
  unfold decodeParameter
  rw [show (Param.differences t).enc ++ rest = 0x87 :: (t ++ [0] ++ rest) from rfl, orDE_other this (by decide)]
  simp

theorem paramLoop_inStep (ps : List Param) (hw : ∀ p ∈ ps, p.InStep) (d : Dict Val) (fuel : Nat) (tail : List Nat) :
    paramLoop (ps.length + fuel) d ⟨ps.flatMap Param.enc ++ tail, 0⟩ =
      paramLoop fuel (ps.foldl (fun d p => d.set p.key p.asRead) d) ⟨tail, 0⟩ := by
  induction ps generalizing d with
  | nil => simp
  | cons p ps ih =>
    rw [List.length_cons, show ps.length + 1 + fuel = (ps.length + fuel) + 1 by omega, List.flatMap_cons, List.append_assoc,
      paramLoop]
    simp only [param_inStep (hw p (by simp)), List.foldl_cons]
    exact ih (fun q hq => hw q (by simp [hq])) _

theorem params_length (ps : List Param) : ps.length ≤ (ps.flatMap Param.enc).length := by
  induction ps with
  | nil => simp
  | cons p ps ih =>
    have : 1 ≤ p.enc.length := by cases p <;> simp [Param.enc] <;> omega
    simp only [List.length_cons, List.flatMap_cons, List.length_append]
    omega

theorem media_number {i : Nat} {s : List Nat} (h : mediaTypes[i]? = some s) :
    wellKnownContentTypes[i]? = some (Media.known i s).asRead ∧ i < 76 := by
  have hi : i < 76 := by
    have := (List.getElem?_eq_some_iff.1 h).1
    rw [mediaTypes_length] at this; exact this
  by_cases h14 : i = 14
  · subst h14
    refine ⟨?_, hi⟩
    show wellKnownContentTypes[14]? = some (py! "multipart/byterantes")
    decide +kernel
  · refine ⟨?_, hi⟩
    rw [mediaTypes_eq ⟨i, hi⟩ h14, show (Media.known i s).asRead = s from if_neg h14]
    exact h

theorem constrainedMedia_read {m : Media} (hc : m.Conf) (rest : List Nat) :
    decodeConstrainedMedia ⟨m.enc ++ rest, 0⟩ = .ok m.asRead ⟨rest, 0⟩ := by
  cases m with
  | known i s => exact decodeConstrainedMedia_known (media_number hc).1 rest
  | text s => exact constrainedMedia_ok (m := .text s) hc rest

theorem mediaType_read {m : Media} (hc : m.Conf) (rest : List Nat) :
    decodeMediaType ⟨m.enc ++ rest, 0⟩ = .ok m.asRead ⟨rest, 0⟩ := by
  cases m with
  | known i s =>
    obtain ⟨h1, h2⟩ := media_number hc
    unfold decodeMediaType
    apply orDE_ok
    unfold decodeWellKnownMedia
    have hd : decodeIntegerValue ⟨(Media.known i s).enc ++ rest, 0⟩ = .ok i ⟨rest, 0⟩ :=
      intEnc_ok (i := .short i) (show i < 128 by omega) rest
    rw [M.bind_ok hd]
    unfold mediaName
    rw [h1]
    rfl
  | text s => exact mediaType_ok (m := .text s) hc rest

/-- the general form, whatever the parameters are read as -/
theorem generalForm_read {m : Media} (hm : m.Conf) (bytes rest : List Nat) (hl : (m.enc ++ bytes).length < 2 ^ 63) :
    decodeContentTypeValue ⟨valueLength (m.enc ++ bytes).length ++ (m.enc ++ bytes) ++ rest, 0⟩ =
      match paramLoop ((m.enc ++ bytes).length + 1) [] ⟨bytes, 0⟩ with
      | .ok d _ => .ok (m.asRead, d) ⟨rest, 0⟩
      | .err e _ => .err e ⟨rest, 0⟩ := by
  have hc : decodeConstrainedMedia ⟨valueLength (m.enc ++ bytes).length ++ (m.enc ++ bytes) ++ rest, 0⟩ =
      .err .decodeError ⟨valueLength (m.enc ++ bytes).length ++ (m.enc ++ bytes) ++ rest, 0⟩ := by
    obtain ⟨b, t, he, hb⟩ := valueLength_head (m.enc ++ bytes).length
    simp only [he, List.cons_append]
    exact constrainedMedia_length hb _
  unfold decodeContentTypeValue
  rw [orDE_err (M.bind_err hc)]
  unfold decodeContentGeneralForm
  rw [List.append_assoc, M.bind_ok (decodeValueLength_ok _ _), M.bind_ok (xrangeCheck_ok hl _), M.bind_ok (nextN_ok _ _)]
  have hi : generalFormInner (m.enc ++ bytes) (It.new (m.enc ++ bytes)) =
      (do
        let params ← paramLoop ((m.enc ++ bytes).length + 1) []
        pure (m.asRead, params) : D (Str × Dict Val)) ⟨bytes, 0⟩ := by
    unfold generalFormInner It.new
    rw [M.bind_ok (mediaType_read hm bytes)]
  unfold onFresh
  rw [hi, M.bind_apply]
  cases paramLoop ((m.enc ++ bytes).length + 1) [] ⟨bytes, 0⟩ <;> rfl

theorem ctype_read {c : CType} (hc : c.InStep) (rest : List Nat) :
    decodeContentTypeValue ⟨c.enc ++ rest, 0⟩ = .ok (c.mediaRead, c.paramsRead) ⟨rest, 0⟩ := by
  cases c with
  | constrained m => exact decodeContentTypeValue_constrained (constrainedMedia_read hc rest)
  | general m ps =>
    obtain ⟨h1, h2, h3⟩ := hc
    have := generalForm_read h1 (ps.flatMap Param.enc) rest h3
    rw [show (CType.general m ps).enc = valueLength (m.enc ++ ps.flatMap Param.enc).length ++ (m.enc ++ ps.flatMap Param.enc) from rfl,
      this]
    have hl := params_length ps
    obtain ⟨k, hk⟩ : ∃ k, (m.enc ++ ps.flatMap Param.enc).length + 1 = ps.length + (k + 1) :=
      ⟨(m.enc ++ ps.flatMap Param.enc).length - ps.length, by rw [List.length_append]; omega⟩
    have hp := paramLoop_inStep ps h2 [] (k + 1) []
    rw [List.append_nil] at hp
    rw [hk, hp]
    simp only [paramLoop, decodeParameter_nil]
    rfl

/-- Differences anywhere after parameters that are read in step -/
theorem ctype_differences {m : Media} (hm : m.Conf) (ps : List Param) (hw : ∀ p ∈ ps, p.InStep) (t : List Nat)
    (more : List Param) (hl : (CType.general m (ps ++ .differences t :: more)).body.length < 2 ^ 63) (rest : List Nat) :
    decodeContentTypeValue ⟨(CType.general m (ps ++ .differences t :: more)).enc ++ rest, 0⟩ =
      .err .attributeError ⟨rest, 0⟩ := by
  have hb : (ps ++ .differences t :: more).flatMap Param.enc =
      ps.flatMap Param.enc ++ ((Param.differences t).enc ++ more.flatMap Param.enc) := by simp
  have := generalForm_read hm ((ps ++ .differences t :: more).flatMap Param.enc) rest hl
  rw [show (CType.general m (ps ++ .differences t :: more)).enc = valueLength (m.enc ++
    (ps ++ .differences t :: more).flatMap Param.enc).length ++ (m.enc ++ (ps ++ .differences t :: more).flatMap Param.enc) from rfl,
    this]
  have hlen := params_length (ps ++ .differences t :: more)
  obtain ⟨k, hk⟩ : ∃ k, (m.enc ++ (ps ++ .differences t :: more).flatMap Param.enc).length + 1 = ps.length + (k + 1) :=
    ⟨(m.enc ++ (ps ++ .differences t :: more).flatMap Param.enc).length - ps.length, by
      rw [List.length_append] at hlen ⊢; omega⟩
  have hp := paramLoop_inStep ps hw [] (k + 1) ((Param.differences t).enc ++ more.flatMap Param.enc)
  rw [hk, hb, hp]
  simp only [paramLoop, param_differences]

/-! ### parts and messages -/

/-- the data part that a part of a body is read as -/
def partRead (p : Part) : DataPart :=
  { ctParams := p.ctype.paramsRead
    headers := setApps p.appsRead [(py! "Content-Type", .ct p.ctype.mediaRead p.ctype.paramsRead)]
    filename := none
    data := some p.data }

/-- the number of Content-ID is unknown, and what follows is read as an application header -/
theorem contentId_read (u : List Nat) (hu : ∀ c ∈ u, breaks c = false) (c : Nat) (hc : breaks c = true) (w : List Nat)
    (hw : 0 ∉ w) (h127 : w.head? ≠ some 127) (rest : List Nat) :
    decodeHeader ⟨0xc0 :: 34 :: (u ++ c :: (w ++ 0 :: rest)), 0⟩ = .ok (34 :: u, .v (.str w)) ⟨rest, 0⟩ := by
  have hm : decodeMmsHeader ⟨0xc0 :: 34 :: (u ++ c :: (w ++ 0 :: rest)), 0⟩ =
      .err .decodeError ⟨0xc0 :: 34 :: (u ++ c :: (w ++ 0 :: rest)), 0⟩ := by
    unfold decodeMmsHeader
    have h64 : decodeShortIntegerFromByte 0xc0 = .ok 64 := rfl
    rw [M.bind_ok (preview_zero _ _), h64, M.bind_ok (M.lift_ok _ _)]
    rfl
  have hwk : decodeWellKnownHeader ⟨0xc0 :: 34 :: (u ++ c :: (w ++ 0 :: rest)), 0⟩ =
      .err .decodeError ⟨34 :: (u ++ c :: (w ++ 0 :: rest)), 0⟩ := by
    unfold decodeWellKnownHeader
    rfl
  have hd : decodeTokenText ⟨34 :: (u ++ c :: (w ++ 0 :: rest)), 0⟩ = .ok (34 :: u) ⟨w ++ 0 :: rest, 0⟩ := by
    unfold decodeTokenText
    rw [M.bind_ok (preview_zero _ _), if_neg (by decide)]
    exact tokenLoop_break (34 :: u) (fun x hx => by
      rcases List.mem_cons.1 hx with rfl | hx
      · decide
      · exact hu x hx) c hc (w ++ 0 :: rest) []
  unfold decodeHeader decodeWspHeader
  rw [orDE_err hm, orDE_err hwk]
  unfold decodeApplicationHeader
  rw [M.bind_ok (orDE_ok hd), M.bind_ok (decodeTextString_plain w hw h127 rest 0)]
  rfl

theorem phdr_inStep {h : PHdr} (hw : h.InStep) : ∃ a, h.asApp = some a ∧
    ∀ rest, decodeHeader ⟨h.enc ++ rest, 0⟩ = .ok (a.name, .v (.str a.value)) ⟨rest, 0⟩ := by
  cases h with
  | location s => exact hw.elim
  | app n v => exact ⟨_, rfl, fun rest => decodeHeader_phdr (h := .app n v) hw rest⟩
  | contentId s =>
    refine ⟨_, rfl, fun rest => ?_⟩
    obtain ⟨h1, ⟨c, hc, hb⟩, h2⟩ := hw
    have hs := List.takeWhile_append_dropWhile (p := fun c => !breaks c) (l := s)
    have hu : ∀ x ∈ s.takeWhile (fun c => !breaks c), breaks x = false := fun x hx => by
      simpa using List.mem_takeWhile_imp hx
    have hd : ∃ b w, s.dropWhile (fun c => !breaks c) = b :: w ∧ breaks b = true := by
      cases hd : s.dropWhile (fun c => !breaks c) with
      | nil =>
        have := List.dropWhile_eq_nil_iff.1 hd c hc
        rw [hb] at this
        cases this
      | cons b w =>
        refine ⟨b, w, rfl, ?_⟩
        have := List.head_dropWhile_not (p := fun c => !breaks c) (l := s) (by rw [hd]; simp)
        simp only [hd, List.head_cons] at this
        simpa using this
    obtain ⟨b, w, hd, hbb⟩ := hd
    rw [hd] at hs h2
    have h0 : 0 ∉ w := fun h => h1 (by rw [← hs]; simp [h])
    have := contentId_read _ hu b hbb w h0 h2 rest
    show decodeHeader ⟨0xc0 :: 34 :: (s ++ [0]) ++ rest, 0⟩ =
      .ok (34 :: s.takeWhile (fun c => !breaks c), .v (.str (s.dropWhile fun c => !breaks c).tail)) ⟨rest, 0⟩
    rw [hd, List.tail_cons, ← this]
    conv => lhs; rw [← hs]
    simp

theorem partHeaderLoop_rest (hs : List PHdr) (hw : ∀ h ∈ hs, h.InStep) (d : Dict HVal) (fuel : Nat) (rest : List Nat) :
    partHeaderLoop (hs.length + fuel) d ⟨hs.flatMap PHdr.enc ++ rest, 0⟩ =
      partHeaderLoop fuel (setApps (hs.filterMap PHdr.asApp) d) ⟨rest, 0⟩ := by
  induction hs generalizing d with
  | nil => simp [setApps]
  | cons h hs ih =>
    obtain ⟨a, h1, h2⟩ := phdr_inStep (hw h (by simp))
    rw [List.length_cons, show hs.length + 1 + fuel = (hs.length + fuel) + 1 by omega, List.flatMap_cons, List.append_assoc,
      partHeaderLoop]
    simp only [h2, List.filterMap_cons, h1]
    rw [ih (fun q hq => hw q (by simp [hq]))]
    rfl

theorem partHeaderLoop_read {p : Part} (hw : p.InStep) (d : Dict HVal) :
    partHeaderLoop (p.head.length + 1) d ⟨p.headers.flatMap PHdr.enc, 0⟩ = .ok (setApps p.appsRead d) ⟨[], 0⟩ := by
  obtain ⟨hs, h1, h2⟩ := hw.2.1
  have hl := apps_length_le p.headers
  have hl2 : hs.length ≤ p.headers.length := by
    rcases h2 with h2 | ⟨t, _, h2⟩
    · rw [h2]
    · rw [h2]; simp
  obtain ⟨k, hk⟩ : ∃ k, p.head.length + 1 = hs.length + (k + 1) := ⟨p.head.length - hs.length, by
    unfold Part.head; rw [List.length_append]; omega⟩
  rw [hk]
  rcases h2 with h2 | ⟨t, ht, h2⟩
  · have := partHeaderLoop_rest hs h1 d (k + 1) []
    rw [List.append_nil] at this
    unfold Part.appsRead
    rw [h2, this]
    simp only [partHeaderLoop, decodeHeader_nil]
  · have := partHeaderLoop_rest hs h1 d (k + 1) (PHdr.location t).enc
    unfold Part.appsRead
    rw [h2, List.flatMap_append, show [PHdr.location t].flatMap PHdr.enc = (PHdr.location t).enc by simp, this,
      List.filterMap_append, show [PHdr.location t].filterMap PHdr.asApp = [] from rfl, List.append_nil,
      show (PHdr.location t).enc = 0x8e :: text t from rfl]
    simp only [partHeaderLoop, location_lost ht]

theorem part_inStep {p : Part} (hw : p.InStep) (rest : List Nat) :
    decodePart ⟨p.enc ++ rest, 0⟩ = .ok (partRead p) ⟨rest, 0⟩ := by
  have hh := partHeaderLoop_read hw [(py! "Content-Type", .ct p.ctype.mediaRead p.ctype.paramsRead)]
  obtain ⟨h1, _, h3, h4⟩ := hw
  have hc : decodeContentTypeValue ⟨p.head, 0⟩ =
    .ok (p.ctype.mediaRead, p.ctype.paramsRead) ⟨p.headers.flatMap PHdr.enc, 0⟩ := ctype_read h1 _
  have hi : partHeaders p.head (It.new p.head) = .ok (p.ctype.mediaRead, (partRead p).ctParams, (partRead p).headers) ⟨[], 0⟩ := by
    unfold partHeaders It.new
    rw [M.bind_ok hc]
    simp only []
    rw [M.bind_ok hh]
    rfl
  unfold decodePart Part.enc
  simp only [List.append_assoc]
  have hf : onFresh p.head (partHeaders p.head) ⟨p.data ++ rest, 0⟩
      = .ok (p.ctype.mediaRead, (partRead p).ctParams, (partRead p).headers) ⟨p.data ++ rest, 0⟩ := by
    unfold onFresh; rw [hi]
  rw [M.bind_ok (decodeUintVar_uintvar _ _ _), M.bind_ok (decodeUintVar_uintvar _ _ _), M.bind_ok (xrangeCheck_ok h3 _),
    M.bind_ok (nextN_ok _ _), M.bind_ok hf]
  simp only []
  rw [M.bind_ok (xrangeCheck_ok h4 _), M.bind_ok (nextN_ok _ _)]
  rfl

/-- a part whose content type cannot be read -/
theorem part_error {p : Part} {e : PyErr} (h : ∀ rest, decodeContentTypeValue ⟨p.ctype.enc ++ rest, 0⟩ = .err e ⟨rest, 0⟩)
    (hl : p.head.length < 2 ^ 63) (rest : List Nat) :
    decodePart ⟨p.enc ++ rest, 0⟩ = .err e ⟨p.data ++ rest, 0⟩ := by
  have hi : partHeaders p.head (It.new p.head) = .err e ⟨p.headers.flatMap PHdr.enc, 0⟩ := by
    unfold partHeaders It.new
    exact M.bind_err (h _)
  have hf : onFresh p.head (partHeaders p.head) ⟨p.data ++ rest, 0⟩ = .err e ⟨p.data ++ rest, 0⟩ := by
    unfold onFresh; rw [hi]
  unfold decodePart Part.enc
  simp only [List.append_assoc]
  rw [M.bind_ok (decodeUintVar_uintvar _ _ _), M.bind_ok (decodeUintVar_uintvar _ _ _), M.bind_ok (xrangeCheck_ok hl _),
    M.bind_ok (nextN_ok _ _), M.bind_err hf]

/-- the parts in step, and then whatever the rest is read as -/
theorem partLoop_inStep (ps : List Part) (hw : ∀ p ∈ ps, p.InStep) (n : Nat) (acc : List DataPart) (rest : List Nat) :
    partLoop (ps.length + n) acc ⟨ps.flatMap Part.enc ++ rest, 0⟩ = partLoop n (acc ++ ps.map partRead) ⟨rest, 0⟩ := by
  induction ps generalizing acc with
  | nil => simp
  | cons p ps ih =>
    rw [List.length_cons, show ps.length + 1 + n = (ps.length + n) + 1 by omega, List.flatMap_cons, List.append_assoc,
      partLoop, M.bind_ok (part_inStep (hw p (by simp)) _), ih (fun q hq => hw q (by simp [hq]))]
    simp

theorem header_ct_read {c : CType} (hc : c.InStep) (rest : List Nat) :
    decodeHeader ⟨0x84 :: c.enc ++ rest, 0⟩ = .ok (py! "Content-Type", .ct c.mediaRead c.paramsRead) ⟨rest, 0⟩ := by
  refine decodeHeader_field (n := 4) (ty := .contentTypeValue) (by decide) (by rfl) ?_
  show (decodeContentTypeValue >>= fun x => pure (HVal.ct x.1 x.2)) _ = _
  rw [M.bind_ok (ctype_read hc rest)]
  rfl

/-- the headers in step, and then whatever the rest is read as -/
theorem headerLoop_rest (hs : List Hdr) (hw : ∀ h ∈ hs, h.WF) (d : Dict HVal) (fuel : Nat) (rest : List Nat) :
    headerLoop (hs.length + fuel) d ⟨hs.flatMap Hdr.enc ++ rest, 0⟩ = headerLoop fuel (setAll hs d) ⟨rest, 0⟩ := by
  induction hs generalizing d with
  | nil => simp [setAll]
  | cons h hs ih =>
    rw [List.length_cons, show hs.length + 1 + fuel = (hs.length + fuel) + 1 by omega, List.flatMap_cons, List.append_assoc,
      headerLoop]
    simp only [decodeHeader_hdr (hw h (by simp))]
    rw [if_neg (hdr_name_ne (hw h (by simp))), ih (fun q hq => hw q (by simp [hq]))]
    rfl

theorem messageHeader_rest (hs : List Hdr) (hw : ∀ h ∈ hs, h.WF) (rest : List Nat) : ∃ fuel,
    decodeMessageHeader ⟨hs.flatMap Hdr.enc ++ rest, 0⟩ = headerLoop (fuel + 1) (setAll hs Msg.new.headers) ⟨rest, 0⟩ := by
  have hl := hdrs_length_le hs
  refine ⟨(hs.flatMap Hdr.enc ++ rest).length - hs.length, ?_⟩
  unfold decodeMessageHeader
  rw [← headerLoop_rest hs hw]
  have : (hs.flatMap Hdr.enc ++ rest).length + 1 = hs.length + ((hs.flatMap Hdr.enc ++ rest).length - hs.length + 1) := by
    rw [List.length_append]; omega
  simp only [this]

theorem messageHeader_read (hs : List Hdr) (hw : ∀ h ∈ hs, h.WF) {c : CType} (hc : c.InStep) (rest : List Nat) :
    decodeMessageHeader ⟨hs.flatMap Hdr.enc ++ (0x84 :: c.enc ++ rest), 0⟩
      = .ok ((setAll hs Msg.new.headers).set (py! "Content-Type") (.ct c.mediaRead c.paramsRead)) ⟨rest, 0⟩ := by
  obtain ⟨fuel, h⟩ := messageHeader_rest hs hw (0x84 :: c.enc ++ rest)
  rw [h, headerLoop]
  simp only [header_ct_read hc, if_true]

theorem body_read (ps : List Part) (hp : ∀ p ∈ ps, p.InStep) (hl : ps.length < 2 ^ 63) (rest : List Nat) :
    decodeMessageBody ⟨multipart ps ++ rest, 0⟩ = .ok (ps.map partRead) ⟨rest, 0⟩ := by
  unfold decodeMessageBody multipart
  rw [List.append_assoc]
  simp only [decodeUintVar_uintvar]
  have := partLoop_inStep ps hp 0 [] rest
  rw [Nat.add_zero, List.nil_append] at this
  rw [M.bind_ok (xrangeCheck_ok hl _), this]
  rfl

theorem data_read (hs : List Hdr) (hw : ∀ h ∈ hs, h.WF) {c : CType} (hc : c.InStep) (ps : List Part)
    (hp : ∀ p ∈ ps, p.InStep) (hl : ps.length < 2 ^ 63) (rest : List Nat) :
    decodeData (hs.flatMap Hdr.enc ++ (0x84 :: c.enc ++ (multipart ps ++ rest)))
      = .ok { Msg.new with
          headers := (setAll hs Msg.new.headers).set (py! "Content-Type") (.ct c.mediaRead c.paramsRead)
          dataParts := ps.map partRead } := by
  unfold decodeData It.new
  rw [M.bind_ok (messageHeader_read hs hw hc _), M.bind_ok (body_read ps hp hl rest)]
  rfl

end Verif.Mms

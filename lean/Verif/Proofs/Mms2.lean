import Verif.Proofs.Mms1
/-!
# Lemmas: conformant content types, header blocks and multipart bodies
-/
set_option autoImplicit false

namespace Verif.Mms
open Verif.Spec.Wsp Verif.Spec.Mms

/-! ### parameters -/

theorem param_typed {n : Nat} {name : Str} {ty : PType} {v : Val} {body rest : List Nat} (hn : n < 128) {t : List (Nat × Str × PType)}
    (ht : getWellKnownParameters (py! "1.2") = .ok t) (hl : lookupNum t n = some (name, ty))
    (hv : decodeTyped ty ⟨body ++ rest, 0⟩ = .ok v ⟨rest, 0⟩) :
    decodeParameter ⟨(0x80 + n) :: body ++ rest, 0⟩ = .ok (name, v) ⟨rest, 0⟩ := by
  unfold decodeParameter
  apply orDE_ok
  have hw : decodeWellKnownParameter (py! "1.2") ⟨(0x80 + n) :: (body ++ rest), 0⟩ = .ok (name, ty) ⟨body ++ rest, 0⟩ := by
    unfold decodeWellKnownParameter
    rw [M.bind_ok (decodeIntegerValue_short (by omega) (by omega) _), ht, M.bind_ok (M.lift_ok _ _),
      show 0x80 + n - 128 = n by omega, hl]
    rfl
  unfold decodeTypedParameter
  rw [List.cons_append, M.bind_ok hw]
  simp only []
  rw [M.bind_ok hv]
  rfl

/-- the parameter table of version 1.2 -/
def params12 : List (Nat × Str × PType) := wellKnownParameters.filter (fun e => paramVersion e.1 ≤ 2)

theorem params12_eq : getWellKnownParameters (py! "1.2") = .ok params12 := parameters_version 2 (by decide) (by decide)

theorem param_untyped {t : List Nat} (h : IsToken t) {v : Val} {body rest : List Nat}
    (hv : decodeUntypedValue ⟨body ++ rest, 0⟩ = .ok v ⟨rest, 0⟩) :
    decodeParameter ⟨t ++ 0 :: body ++ rest, 0⟩ = .ok (t, v) ⟨rest, 0⟩ := by
  have hd := decodeTokenText_token h (body ++ rest)
  obtain ⟨c, t', rfl, h1, h2, _⟩ := token_head h
  rw [List.append_assoc, List.cons_append, List.cons_append]
  rw [List.cons_append] at hd
  have hw : decodeTypedParameter ⟨c :: (t' ++ 0 :: (body ++ rest)), 0⟩
      = .err .decodeError ⟨c :: (t' ++ 0 :: (body ++ rest)), 0⟩ := by
    unfold decodeTypedParameter
    apply M.bind_err
    unfold decodeWellKnownParameter
    exact M.bind_err (decodeIntegerValue_err (by omega) (by omega) _)
  unfold decodeParameter
  rw [orDE_err hw]
  unfold decodeUntypedParameter
  rw [M.bind_ok hd, M.bind_ok hv]
  rfl

theorem typed_str {ty : PType} {s : Str} {m : D Str} {t t' : It}
    (hm : decodeTyped ty = (do let s ← m; pure (.str s))) (h : m t = .ok s t') :
    decodeTyped ty t = .ok (.str s) t' := by
  rw [hm, M.bind_ok h]; rfl

theorem typed_int {ty : PType} {n : Nat} {m : D Nat} {t t' : It}
    (hm : decodeTyped ty = (do let s ← m; pure (.int s))) (h : m t = .ok n t') :
    decodeTyped ty t = .ok (.int n) t' := by
  rw [hm, M.bind_ok h]; rfl

theorem asciiText_cons {s : List Nat} (h : IsAsciiText s) : ∃ c t, s = c :: t ∧ 32 ≤ c ∧ c < 127 := by
  obtain ⟨_, c, hc, h1, h2⟩ := h
  cases s with
  | nil => cases hc
  | cons d t => injection hc with hc; subst hc; exact ⟨d, t, rfl, h1, h2⟩

theorem charset_lookup : ∀ e ∈ charsets, lookupNum wellKnownCharsets e.1 = some e.2 := by decide +kernel

theorem short_ok {n : Nat} (h : n < 128) (rest : List Nat) :
    decodeShortInteger ⟨shortInt n ++ rest, 0⟩ = .ok n ⟨rest, 0⟩ := by
  have := decodeShortInteger_ok (b := 128 + n) (by omega) (by omega) rest
  rw [show 128 + n - 128 = n by omega] at this
  exact this

theorem decodeParameter_param {p : Param} (hw : p.WF) (rest : List Nat) :
    decodeParameter ⟨p.enc ++ rest, 0⟩ = .ok (p.key, p.value) ⟨rest, 0⟩ := by
  cases p with
  | q n =>
    have hw : n ≤ 1099 := hw
    refine param_typed (n := 0) (ty := .qValue) (by decide) params12_eq rfl ?_
    show decodeQValue _ = _
    unfold decodeQValue
    rw [M.bind_ok (decodeUintVar_uintvar n rest 0)]
    simp only [Param.value]
    by_cases h : n ≤ 100
    · rw [if_neg (by omega), if_pos h]; rfl
    · have hbig : ¬ (n - 100 ≥ 2 ^ 1024 - 2 ^ 970) := by
        have : (1100 : Nat) ≤ 2 ^ 1024 - 2 ^ 970 := by decide +kernel
        generalize 2 ^ 1024 - 2 ^ 970 = x at *
        omega
      rw [if_pos (by omega), if_neg hbig, if_neg h]; rfl
  | charset i s =>
    refine param_typed (n := 1) (ty := .wellKnownCharset) (by decide) params12_eq rfl (typed_str rfl ?_)
    rw [decodeWellKnownCharset_int hw.1, charset_lookup _ hw.2]
  | level a b =>
    exact param_typed (n := 2) (by decide) params12_eq rfl
      (typed_str (ty := .versionValue) rfl (version_ok hw.1 hw.2.1 hw.2.2 rest))
  | type i =>
    exact param_typed (n := 3) (by decide) params12_eq rfl (typed_int (ty := .integerValue) rfl (intEnc_ok hw rest))
  | name s =>
    exact param_typed (n := 5) (by decide) params12_eq rfl
      (typed_str (ty := .textString) rfl (decodeTextString_text s hw rest 0))
  | filename s =>
    exact param_typed (n := 6) (by decide) params12_eq rfl
      (typed_str (ty := .textString) rfl (decodeTextString_text s hw rest 0))
  | padding n =>
    exact param_typed (n := 8) (by decide) params12_eq rfl (typed_int (ty := .shortInteger) rfl (short_ok hw rest))
  | relatedTypeNum n =>
    refine param_typed (n := 9) (ty := .constrainedEncoding) (by decide) params12_eq rfl ?_
    show decodeConstrainedEncoding _ = _
    unfold decodeConstrainedEncoding
    apply orDE_ok
    rw [M.bind_ok (short_ok hw rest)]; rfl
  | relatedType s =>
    refine param_typed (n := 9) (ty := .constrainedEncoding) (by decide) params12_eq rfl ?_
    show decodeConstrainedEncoding _ = _
    rw [List.append_assoc]
    obtain ⟨c, t, rfl, h1, h2⟩ := asciiText_cons hw
    exact decodeConstrainedEncoding_text _ hw.1 c ⟨h1, h2⟩ rfl rest
  | start s =>
    exact param_typed (n := 10) (by decide) params12_eq rfl
      (typed_str (ty := .textString) rfl (decodeTextString_text s hw rest 0))
  | startInfo s =>
    exact param_typed (n := 11) (by decide) params12_eq rfl
      (typed_str (ty := .textString) rfl (decodeTextString_text s hw rest 0))
  | otherInt t i =>
    refine param_untyped hw.1 ?_
    unfold decodeUntypedValue
    apply orDE_ok
    rw [M.bind_ok (intEnc_ok hw.2 rest)]; rfl
  | otherToken t s =>
    refine param_untyped hw.1 ?_
    have hd := decodeTokenText_token hw.2 rest
    rw [List.append_assoc]
    obtain ⟨c, s', rfl, h1, h2, _⟩ := token_head hw.2
    rw [List.cons_append] at hd ⊢
    unfold decodeUntypedValue
    have : ([0] : List Nat) ++ rest = 0 :: rest := rfl
    rw [this, orDE_err (M.bind_err (decodeIntegerValue_err (by omega) (by omega) _))]
    unfold decodeTextValue
    rw [M.bind_ok (orDE_ok hd)]
    rfl
  | _ => exact hw.elim

theorem decodeParameter_nil (k : Nat) : decodeParameter ⟨[], k⟩ = .err .stopIteration ⟨[], k⟩ := by
  unfold decodeParameter decodeTypedParameter decodeWellKnownParameter decodeIntegerValue decodeShortInteger
  have h : orDecodeError (do
      let byte ← preview
      if byte &&& 0x80 = 0 then do
        resetPreview
        M.throw .decodeError
      else do
        let byte ← next
        pure (byte &&& 0x7f)) decodeLongInteger ⟨[], k⟩ = .err .stopIteration ⟨[], k⟩ :=
    orDE_other (M.bind_err (preview_nil k)) (by decide)
  exact orDE_other (M.bind_err (M.bind_err h)) (by decide)

theorem paramLoop_ok (ps : List Param) (hw : ∀ p ∈ ps, p.WF) (d : Dict Val) (fuel : Nat) (hf : ps.length < fuel) :
    ∃ s, paramLoop fuel d ⟨ps.flatMap Param.enc, 0⟩ = .ok (ps.foldl (fun d p => d.set p.key p.value) d) s := by
  induction ps generalizing d fuel with
  | nil =>
    cases fuel with
    | zero => simp at hf
    | succ fuel =>
      refine ⟨⟨[], 0⟩, ?_⟩
      simp only [paramLoop, List.flatMap_nil, decodeParameter_nil, List.foldl_nil]
  | cons p ps ih =>
    cases fuel with
    | zero => simp at hf
    | succ fuel =>
      obtain ⟨s, hs⟩ := ih (fun q hq => hw q (by simp [hq])) (d.set p.key p.value) fuel (by simpa using hf)
      refine ⟨s, ?_⟩
      simp only [paramLoop, List.flatMap_cons, decodeParameter_param (hw p (by simp)), List.foldl_cons]
      exact hs

/-! ### content types -/

theorem mediaTypes_eq : ∀ i : Fin 76, i.val ≠ 14 → wellKnownContentTypes[i.val]? = mediaTypes[i.val]? := by
  decide +kernel

theorem mediaTypes_length : mediaTypes.length = 76 := by decide +kernel

theorem media_known {i : Nat} {s : List Nat} (h : i ≠ 14 ∧ mediaTypes[i]? = some s) :
    wellKnownContentTypes[i]? = some s ∧ i < 76 := by
  have hi : i < 76 := by
    have := (List.getElem?_eq_some_iff.1 h.2).1
    rw [mediaTypes_length] at this; exact this
  rw [mediaTypes_eq ⟨i, hi⟩ h.1]
  exact ⟨h.2, hi⟩

theorem constrainedMedia_ok {m : Media} (hw : m.WF) (rest : List Nat) :
    decodeConstrainedMedia ⟨m.enc ++ rest, 0⟩ = .ok m.value ⟨rest, 0⟩ := by
  cases m with
  | known i s => exact decodeConstrainedMedia_known (media_known hw).1 rest
  | text s =>
    have h0 := hw.1
    obtain ⟨c, t, rfl, h1, h2⟩ := asciiText_cons hw
    have := decodeConstrainedMedia_text (c :: t) h0 c ⟨h1, h2⟩ rfl rest
    simpa [Media.enc, Media.value] using this

theorem mediaType_ok {m : Media} (hw : m.WF) (rest : List Nat) :
    decodeMediaType ⟨m.enc ++ rest, 0⟩ = .ok m.value ⟨rest, 0⟩ := by
  cases m with
  | known i s =>
    obtain ⟨h1, h2⟩ := media_known hw
    unfold decodeMediaType
    apply orDE_ok
    unfold decodeWellKnownMedia
    have hd : decodeIntegerValue ⟨(Media.known i s).enc ++ rest, 0⟩ = .ok i ⟨rest, 0⟩ :=
      intEnc_ok (i := .short i) (show i < 128 by omega) rest
    rw [M.bind_ok hd]
    unfold mediaName
    rw [h1]
    rfl
  | text s =>
    have h0 := hw.1
    obtain ⟨c, t, rfl, h1, h2⟩ := asciiText_cons hw
    have he := decodeExtensionMedia_ok (c :: t) h0 c (by omega) rest rfl
    have hn : decodeWellKnownMedia ⟨c :: (t ++ 0 :: rest), 0⟩ = .err .decodeError ⟨c :: (t ++ 0 :: rest), 0⟩ := by
      unfold decodeWellKnownMedia
      cases hlt : decide (31 < c) with
      | true => exact M.bind_err (decodeIntegerValue_err (by omega) (by omega) _)
      | false => simp at hlt; omega
    simp only [Media.enc, Media.value, List.append_assoc, List.cons_append, List.nil_append] at he ⊢
    unfold decodeMediaType
    rw [orDE_err hn]
    exact he

theorem nextN_ok (l rest : List Nat) : nextN l.length ⟨l ++ rest, 0⟩ = .ok l ⟨rest, 0⟩ := by
  induction l with
  | nil => rfl
  | cons x l ih =>
    simp only [List.length_cons, nextN, List.cons_append]
    rw [M.bind_ok (next_cons _ _ _), M.bind_ok ih]
    rfl

theorem xrangeCheck_ok {n : Nat} (h : n < 2 ^ 63) (s : It) : xrangeCheck n s = .ok () s := by
  unfold xrangeCheck; rw [if_pos h]; rfl

theorem valueLength_head (n : Nat) : ∃ b t, valueLength n = b :: t ∧ b ≤ 31 := by
  unfold valueLength
  split
  · exact ⟨n, [], rfl, by omega⟩
  · exact ⟨31, _, rfl, by omega⟩

theorem constrainedMedia_length {b : Nat} (h : b ≤ 31) (rest : List Nat) :
    decodeConstrainedMedia ⟨b :: rest, 0⟩ = .err .decodeError ⟨b :: rest, 0⟩ := by
  unfold decodeConstrainedMedia
  apply M.bind_err
  unfold decodeConstrainedEncoding
  rw [orDE_err (M.bind_err (decodeShortInteger_err (by omega) _))]
  exact M.bind_err (decodeExtensionMedia_err (by omega) _)

theorem param_enc_pos {p : Param} (hw : p.WF) : 1 ≤ p.enc.length := by
  cases p <;> simp [Param.enc] <;> omega

theorem flatMap_length_le {ps : List Param} (hw : ∀ p ∈ ps, p.WF) : ps.length ≤ (ps.flatMap Param.enc).length := by
  induction ps with
  | nil => simp
  | cons p ps ih =>
    have := ih (fun q hq => hw q (by simp [hq]))
    have := param_enc_pos (hw p (by simp))
    simp only [List.length_cons, List.flatMap_cons, List.length_append]
    omega

theorem ctype_ok {c : CType} (hw : c.WF) (rest : List Nat) :
    decodeContentTypeValue ⟨c.enc ++ rest, 0⟩ = .ok (c.media, c.params) ⟨rest, 0⟩ := by
  cases c with
  | constrained m => exact decodeContentTypeValue_constrained (constrainedMedia_ok hw rest)
  | general m ps =>
    obtain ⟨h1, h2, h3⟩ := hw
    have hc : decodeConstrainedMedia ⟨(CType.general m ps).enc ++ rest, 0⟩
        = .err .decodeError ⟨(CType.general m ps).enc ++ rest, 0⟩ := by
      obtain ⟨b, t, he, hb⟩ := valueLength_head (m.enc ++ ps.flatMap Param.enc).length
      simp only [CType.enc, he, List.cons_append]
      exact constrainedMedia_length hb _
    unfold decodeContentTypeValue
    rw [orDE_err (M.bind_err hc)]
    unfold decodeContentGeneralForm
    simp only [CType.enc, List.append_assoc]
    have hl := nextN_ok (m.enc ++ ps.flatMap Param.enc) rest
    rw [List.append_assoc] at hl
    rw [M.bind_ok (decodeValueLength_ok _ _), M.bind_ok (xrangeCheck_ok h3 _), M.bind_ok hl]
    have hm := mediaType_ok h1 (ps.flatMap Param.enc)
    have hlen := flatMap_length_le h2
    obtain ⟨s, hs⟩ := paramLoop_ok ps h2 [] ((m.enc ++ ps.flatMap Param.enc).length + 1)
      (by rw [List.length_append]; omega)
    have hi : generalFormInner (m.enc ++ ps.flatMap Param.enc) (It.new (m.enc ++ ps.flatMap Param.enc))
        = .ok (m.value, (CType.general m ps).params) s := by
      unfold generalFormInner It.new
      rw [M.bind_ok hm, M.bind_ok hs]
      rfl
    unfold onFresh
    rw [hi]
    rfl

/-! ### header blocks -/

theorem dict_get_set {α : Type} (d : Dict α) (k n : Str) (v : α) :
    (d.set k v).get n = if k = n then some v else d.get n := by
  induction d with
  | nil => simp [Dict.set, Dict.get]
  | cons e r ih =>
    obtain ⟨k', v'⟩ := e
    unfold Dict.set
    by_cases h : k' = k
    · subst h
      rw [if_pos rfl]
      simp only [Dict.get]
      by_cases h2 : k' = n <;> simp [h2]
    · rw [if_neg h]
      simp only [Dict.get]
      by_cases h2 : k' = n
      · subst h2
        rw [if_pos rfl, if_pos rfl, if_neg (fun e => h e.symm)]
      · rw [if_neg h2, if_neg h2, ih]

/-- the headers stored one after the other -/
def setAll (hs : List Hdr) (d : Dict HVal) : Dict HVal := hs.foldl (fun d h => d.set h.name h.value) d

theorem setAll_get (hs : List Hdr) (d : Dict HVal) (n : Str) :
    (setAll hs d).get n = (match lastValue hs n with | some v => some v | none => d.get n) := by
  unfold setAll lastValue
  induction hs using List.reverseRecOn with
  | nil => rfl
  | append_singleton hs h ih =>
    rw [List.foldl_append, List.foldl_append]
    simp only [List.foldl_cons, List.foldl_nil]
    rw [dict_get_set, ih]
    by_cases hn : h.name = n
    · rw [if_pos hn, if_pos hn]
    · rw [if_neg hn, if_neg hn]

theorem hdr_name_ne {h : Hdr} (hw : h.WF) : h.name ≠ py! "Content-Type" := by
  cases h with
  | app n v => exact hw.2.2
  | str f _ => cases f <;> simp only [Hdr.name, StrField.name] <;> decide
  | strCs f _ _ => cases f <;> simp only [Hdr.name, StrField.name] <;> decide
  | bool f _ => cases f <;> simp only [Hdr.name, BoolField.name] <;> decide
  | _ => simp only [Hdr.name]; decide

theorem hdr_enc_pos (h : Hdr) : 1 ≤ h.enc.length := by
  cases h <;> (simp [Hdr.enc]; try omega)

theorem hdrs_length_le (hs : List Hdr) : hs.length ≤ (hs.flatMap Hdr.enc).length := by
  induction hs with
  | nil => simp
  | cons h hs ih =>
    have := hdr_enc_pos h
    simp only [List.length_cons, List.flatMap_cons, List.length_append]
    omega

theorem decodeHeader_ct {c : CType} (hw : c.WF) (rest : List Nat) :
    decodeHeader ⟨0x84 :: c.enc ++ rest, 0⟩ = .ok (py! "Content-Type", .ct c.media c.params) ⟨rest, 0⟩ := by
  refine decodeHeader_field (n := 4) (ty := .contentTypeValue) (by decide) rfl ?_
  show (do let (m, p) ← decodeContentTypeValue; pure (HVal.ct m p) : D HVal) _ = _
  rw [M.bind_ok (ctype_ok hw rest)]
  rfl

theorem headerLoop_ct (hs : List Hdr) (hw : ∀ h ∈ hs, h.WF) {c : CType} (hc : c.WF) (rest : List Nat) (d : Dict HVal)
    (fuel : Nat) (hf : hs.length < fuel) :
    headerLoop fuel d ⟨hs.flatMap Hdr.enc ++ (0x84 :: c.enc ++ rest), 0⟩
      = .ok ((setAll hs d).set (py! "Content-Type") (.ct c.media c.params)) ⟨rest, 0⟩ := by
  induction hs generalizing d fuel with
  | nil =>
    cases fuel with
    | zero => simp at hf
    | succ fuel =>
      simp only [headerLoop, List.flatMap_nil, List.nil_append, decodeHeader_ct hc rest]
      rw [if_pos trivial]; rfl
  | cons h hs ih =>
    cases fuel with
    | zero => simp at hf
    | succ fuel =>
      have := ih (fun q hq => hw q (by simp [hq])) (d.set h.name h.value) fuel (by simpa using hf)
      simp only [headerLoop, List.flatMap_cons, List.append_assoc, decodeHeader_hdr (hw h (by simp))]
      rw [if_neg (hdr_name_ne (hw h (by simp)))]
      exact this

theorem decodeHeader_nil : decodeHeader ⟨[], 0⟩ = .err .stopIteration ⟨[], 0⟩ := by
  unfold decodeHeader
  apply orDE_other _ (by decide)
  unfold decodeMmsHeader
  exact M.bind_err (preview_nil 0)

theorem headerLoop_end (hs : List Hdr) (hw : ∀ h ∈ hs, h.WF) (d : Dict HVal) (fuel : Nat) (hf : hs.length < fuel) :
    headerLoop fuel d ⟨hs.flatMap Hdr.enc, 0⟩ = .ok (setAll hs d) ⟨[], 0⟩ := by
  induction hs generalizing d fuel with
  | nil =>
    cases fuel with
    | zero => simp at hf
    | succ fuel => simp only [headerLoop, List.flatMap_nil, decodeHeader_nil]; rfl
  | cons h hs ih =>
    cases fuel with
    | zero => simp at hf
    | succ fuel =>
      have := ih (fun q hq => hw q (by simp [hq])) (d.set h.name h.value) fuel (by simpa using hf)
      simp only [headerLoop, List.flatMap_cons, decodeHeader_hdr (hw h (by simp))]
      rw [if_neg (hdr_name_ne (hw h (by simp)))]
      exact this

/-! ### bodies -/

/-- the application headers of a part stored one after the other -/
def setApps (hs : List PHdr) (d : Dict HVal) : Dict HVal := hs.foldl (fun d h => d.set h.name (.v (.str h.value))) d

theorem decodeHeader_phdr {h : PHdr} (hw : h.WF) (rest : List Nat) :
    decodeHeader ⟨h.enc ++ rest, 0⟩ = .ok (h.name, .v (.str h.value)) ⟨rest, 0⟩ := by
  cases h with
  | app n v => exact appHeader_ok hw.1 hw.2 rest
  | _ => exact hw.elim

theorem partHeaderLoop_ok (hs : List PHdr) (hw : ∀ h ∈ hs, h.WF) (d : Dict HVal)
    (fuel : Nat) (hf : hs.length < fuel) :
    partHeaderLoop fuel d ⟨hs.flatMap PHdr.enc, 0⟩ = .ok (setApps hs d) ⟨[], 0⟩ := by
  induction hs generalizing d fuel with
  | nil =>
    cases fuel with
    | zero => simp at hf
    | succ fuel => simp only [partHeaderLoop, List.flatMap_nil, decodeHeader_nil]; rfl
  | cons h hs ih =>
    cases fuel with
    | zero => simp at hf
    | succ fuel =>
      have := ih (fun q hq => hw q (by simp [hq])) (d.set h.name (.v (.str h.value))) fuel (by simpa using hf)
      have hh := hw h (by simp)
      simp only [partHeaderLoop, List.flatMap_cons, decodeHeader_phdr hh]
      exact this

/-- the data part that a part of a body stands for -/
def partOf (p : Part) : DataPart :=
  { ctParams := p.ctype.params
    headers := setApps p.headers [(py! "Content-Type", .ct p.ctype.media p.ctype.params)]
    filename := none
    data := some p.data }

theorem apps_length_le (hs : List PHdr) :
    hs.length ≤ (hs.flatMap PHdr.enc).length := by
  induction hs with
  | nil => simp
  | cons h hs ih =>
    have : 1 ≤ h.enc.length := by cases h <;> (simp [PHdr.enc]; try omega)
    simp only [List.length_cons, List.flatMap_cons, List.length_append]
    omega

theorem partHeaders_ok {p : Part} (hw : p.WF) :
    partHeaders p.head (It.new p.head) = .ok (p.ctype.media, (partOf p).ctParams, (partOf p).headers) ⟨[], 0⟩ := by
  obtain ⟨h1, h2, _⟩ := hw
  have hl := apps_length_le p.headers
  have := partHeaderLoop_ok p.headers h2 [(py! "Content-Type", .ct p.ctype.media p.ctype.params)] (p.head.length + 1)
    (by unfold Part.head; rw [List.length_append]; exact Nat.lt_succ_of_le (Nat.le_trans hl (Nat.le_add_left _ _)))
  have hc := ctype_ok h1 (p.headers.flatMap PHdr.enc)
  unfold partHeaders It.new
  have hc' : decodeContentTypeValue ⟨p.head, 0⟩
    = .ok (p.ctype.media, p.ctype.params) ⟨p.headers.flatMap PHdr.enc, 0⟩ := hc
  rw [M.bind_ok hc']
  simp only []
  rw [M.bind_ok this]
  rfl

theorem decodePart_ok {p : Part} (hw : p.WF) (rest : List Nat) :
    decodePart ⟨p.enc ++ rest, 0⟩ = .ok (partOf p) ⟨rest, 0⟩ := by
  have hh := partHeaders_ok hw
  obtain ⟨_, _, h3, h4⟩ := hw
  unfold decodePart Part.enc
  simp only [List.append_assoc]
  have hf : onFresh p.head (partHeaders p.head) ⟨p.data ++ rest, 0⟩
      = .ok (p.ctype.media, (partOf p).ctParams, (partOf p).headers) ⟨p.data ++ rest, 0⟩ := by
    unfold onFresh; rw [hh]
  rw [M.bind_ok (decodeUintVar_uintvar _ _ _), M.bind_ok (decodeUintVar_uintvar _ _ _), M.bind_ok (xrangeCheck_ok h3 _),
    M.bind_ok (nextN_ok _ _), M.bind_ok hf]
  simp only []
  rw [M.bind_ok (xrangeCheck_ok h4 _), M.bind_ok (nextN_ok _ _)]
  rfl

theorem partLoop_ok (ps : List Part) (hw : ∀ p ∈ ps, p.WF) (acc : List DataPart) (rest : List Nat) :
    partLoop ps.length acc ⟨ps.flatMap Part.enc ++ rest, 0⟩ = .ok (acc ++ ps.map partOf) ⟨rest, 0⟩ := by
  induction ps generalizing acc with
  | nil => simp [partLoop]
  | cons p ps ih =>
    simp only [List.length_cons, partLoop, List.flatMap_cons, List.append_assoc]
    rw [M.bind_ok (decodePart_ok (hw p (by simp)) _), ih (fun q hq => hw q (by simp [hq]))]
    simp

theorem decodeMessageBody_ok (ps : List Part) (hw : ∀ p ∈ ps, p.WF) (hl : ps.length < 2 ^ 63) (rest : List Nat) :
    decodeMessageBody ⟨multipart ps ++ rest, 0⟩ = .ok (ps.map partOf) ⟨rest, 0⟩ := by
  unfold decodeMessageBody multipart
  rw [List.append_assoc, decodeUintVar_uintvar]
  simp only []
  rw [M.bind_ok (xrangeCheck_ok hl _), partLoop_ok ps hw [] rest]
  simp

end Verif.Mms

import Verif.Props.MmsDec
import Verif.Proofs.ReadAs
/-!
# C46 continued: exactly which conformant media types and parameters are read as they are meant, and what is read of the others
-/
set_option autoImplicit false

namespace Verif.Props
open Verif Verif.Mms
open Verif.Spec.Wsp Verif.Spec.Mms

/-- a conformant parameter is read as it is meant if and only if it is none of the four forms -/
theorem C46_parameter_iff (p : Param) (hc : p.Conf) (rest : List Nat) :
    decodeParameter ⟨p.enc ++ rest, 0⟩ = .ok (p.key, p.value) ⟨rest, 0⟩ ↔ p.WF := by
  refine ⟨fun h => ?_, fun h => decodeParameter_param h rest⟩
  cases p with
  | charsetAny =>
    rw [param_inStep (p := .charsetAny) hc] at h
    injection h with h _
    injection h with _ h
    exact absurd h (by decide)
  | otherNone t =>
    rw [param_inStep (p := .otherNone t) hc] at h
    injection h with h _
    injection h with _ h
    cases h
  | differences t => rw [param_differences] at h; cases h
  | otherQuoted t s =>
    exfalso
    have hs := List.takeWhile_append_dropWhile (p := fun c => !breaks c) (l := s)
    have hu : ∀ x ∈ s.takeWhile (fun c => !breaks c), breaks x = false := fun x hx => by
      simpa using List.mem_takeWhile_imp hx
    have key : ∃ r, decodeParameter ⟨(Param.otherQuoted t s).enc ++ rest, 0⟩ =
        .ok (t, .str (34 :: s.takeWhile (fun c => !breaks c))) r := by
      cases hd : s.dropWhile (fun c => !breaks c) with
      | nil =>
        rw [hd, List.append_nil] at hs
        have := param_quoted hc.1 _ hu 0 (by decide) rest
        rw [hs] at this ⊢
        exact ⟨_, by simpa [Param.enc] using this⟩
      | cons b w =>
        have hb : breaks b = true := by
          have := List.head_dropWhile_not (p := fun c => !breaks c) (l := s) (by rw [hd]; simp)
          simp only [hd, List.head_cons] at this
          simpa using this
        have := param_quoted hc.1 _ hu b hb (w ++ 0 :: rest)
        rw [hd] at hs
        refine ⟨⟨w ++ 0 :: rest, 0⟩, ?_⟩
        rw [← this]
        show decodeParameter ⟨t ++ 0 :: 34 :: (s ++ [0]) ++ rest, 0⟩ = _
        conv => lhs; rw [← hs]
        simp
    obtain ⟨r, hr⟩ := key
    rw [hr] at h
    injection h with h _
    injection h with _ h
    have h : 34 :: s.takeWhile (fun c => !breaks c) = s := by injection h
    have : (34 :: s.takeWhile (fun c => !breaks c)).takeWhile (fun c => !breaks c) = s.takeWhile (fun c => !breaks c) :=
      congrArg _ h
    rw [List.takeWhile_cons_of_pos (by decide)] at this
    have := congrArg List.length this
    rw [List.length_cons] at this
    have h2 := (List.takeWhile_prefix (fun c => !breaks c) (l := s.takeWhile fun c => !breaks c)).length_le
    have h3 : (s.takeWhile fun c => !breaks c).takeWhile (fun c => !breaks c) = s.takeWhile fun c => !breaks c := by
      rw [List.takeWhile_takeWhile]; simp
    rw [h3] at this
    omega
  | q n => exact hc
  | charset i s => exact hc
  | level a b => exact hc
  | type i => exact hc
  | name s => exact hc
  | filename s => exact hc
  | padding n => exact hc
  | relatedTypeNum n => exact hc
  | relatedType s => exact hc
  | start s => exact hc
  | startInfo s => exact hc
  | otherInt t i => exact hc
  | otherToken t s => exact hc

/-- what is read instead: "any charset" as "0", no value as the number 0, a quoted string with its quote -/
theorem C46_parameter_read (p : Param) (hp : p.InStep) (rest : List Nat) :
    decodeParameter ⟨p.enc ++ rest, 0⟩ = .ok (p.key, p.asRead) ⟨rest, 0⟩ := param_inStep hp rest

/-- a quoted string `u c w`, `c` the first character that breaks it, is read as the quote and `u`, and `w` is left to be
read as further parameters -/
theorem C46_quoted_read (t : List Nat) (ht : IsToken t) (u : List Nat) (hu : ∀ x ∈ u, breaks x = false) (c : Nat)
    (hc : breaks c = true) (w rest : List Nat) :
    decodeParameter ⟨(Param.otherQuoted t (u ++ c :: w)).enc ++ rest, 0⟩ = .ok (t, .str (34 :: u)) ⟨w ++ 0 :: rest, 0⟩ := by
  have := param_quoted ht u hu c hc (w ++ 0 :: rest)
  simpa [Param.enc] using this

/-- a Differences parameter, after any parameters that are read in step, makes the decoder fail -/
theorem C46_differences_read (m : Media) (hm : m.Conf) (ps : List Param) (hw : ∀ p ∈ ps, p.InStep) (t : List Nat)
    (more : List Param) (hl : (CType.general m (ps ++ .differences t :: more)).body.length < 2 ^ 63) (rest : List Nat) :
    decodeContentTypeValue ⟨(CType.general m (ps ++ .differences t :: more)).enc ++ rest, 0⟩ =
      .err .attributeError ⟨rest, 0⟩ := ctype_differences hm ps hw t more hl rest

/-- a conformant media type without parameters is read as it is meant if and only if it is not number 14 -/
theorem C46_media_iff (m : Media) (hc : m.Conf) (rest : List Nat) :
    decodeContentTypeValue ⟨(CType.constrained m).enc ++ rest, 0⟩ = .ok ((CType.constrained m).media, []) ⟨rest, 0⟩ ↔
      m.WF := by
  refine ⟨fun h => ?_, fun h => ctype_ok (c := .constrained m) h rest⟩
  rw [ctype_read (c := .constrained m) hc] at h
  injection h with h _
  injection h with h _
  cases m with
  | text s => exact hc
  | known i s =>
    refine ⟨?_, hc⟩
    rintro rfl
    have hc : mediaTypes[14]? = some s := hc
    have hs : s = py! "multipart/byteranges" := by
      rw [show mediaTypes[14]? = some (py! "multipart/byteranges") by decide +kernel] at hc
      injection hc with hc
      exact hc.symm
    subst hs
    revert h
    decide

/-- a decoded part shows what is read of the part that was sent -/
structure ReadPart (p : Part) (d : DataPart) : Prop where
  params : d.ctParams = p.ctype.paramsRead
  headers : ∀ n, d.headers.get n = match lastPartValue p.appsRead n with
    | some v => some (.v (.str v))
    | none => if n = py! "Content-Type" then some (.ct p.ctype.mediaRead p.ctype.paramsRead) else none
  data : ∀ env, d.readData env = .ok p.data
  len : ∀ env, d.len env = .ok p.data.length

/-- whole messages of which everything is read in step: the data of every part is right, whatever the content types are
read as -/
theorem C46_read (hs : List Hdr) (c : CType) (ps : List Part) (rest : List Nat) (hw : ∀ h ∈ hs, h.WF) (hc : c.InStep)
    (hp : ∀ p ∈ ps, p.InStep) (hl : ps.length < 2 ^ 63) :
    ∃ m, decodeData (hs.flatMap Hdr.enc ++ (0x84 :: c.enc ++ (multipart ps ++ rest))) = .ok m ∧
      m.headers.get (py! "Content-Type") = some (.ct c.mediaRead c.paramsRead) ∧ m.pages = [] ∧
      List.Forall₂ ReadPart ps m.dataParts ∧ ∀ n, n ≠ py! "Content-Type" → m.headers.get n = expected hs n := by
  refine ⟨_, data_read hs hw hc ps hp hl rest, ?_, rfl, ?_, ?_⟩
  · simp only []
    rw [dict_get_set, if_pos rfl]
  · simp only []
    refine forall₂_map ?_ ps
    intro p
    refine ⟨rfl, ?_, fun _ => rfl, fun _ => rfl⟩
    intro n
    simp only [partRead]
    rw [setApps_get]
    simp only [Dict.get, @eq_comm _ _ n]
    rfl
  · intro n hn
    simp only []
    rw [dict_get_set, if_neg (fun e => hn e.symm), setAll_get, defaults_eq]
    rfl

/-- the part most phones send: content type, Content-ID "<id>", Content-Location.  The content type, its parameters and the
data are right; neither header is found by its name, and a header whose name is a lone quote has the id with the closing
bracket. -/
theorem C46_phone_part (c : CType) (hc : c.WF) (i t : List Nat) (hi : IsText i) (h127 : i.head? ≠ some 127) (ht : IsToken t)
    (data rest : List Nat) (hl : (Part.mk c [.contentId (60 :: i), .location t] data).head.length < 2 ^ 63)
    (hd : data.length < 2 ^ 63) :
    ∃ d, decodePart ⟨(Part.mk c [.contentId (60 :: i), .location t] data).enc ++ rest, 0⟩ = .ok d ⟨rest, 0⟩ ∧
      d.ctParams = c.params ∧ d.headers.get (py! "Content-Type") = some (.ct c.media c.params) ∧
      d.data = some data ∧ d.headers.get (py! "Content-Location") = none ∧ d.headers.get (py! "Content-ID") = none ∧
      d.headers.get (py! "\"") = some (.v (.str i)) := by
  have h0 : ∀ p : Param, p.WF → p.InStep ∧ p.asRead = p.value := by
    intro p hp
    cases p <;> first | exact ⟨hp, rfl⟩ | exact hp.elim
  have hm : ∀ m : Media, m.WF → m.Conf ∧ m.asRead = (CType.constrained m).media := by
    intro m hm
    cases m with
    | text s => exact ⟨hm, rfl⟩
    | known i s => exact ⟨hm.2, if_neg hm.1⟩
  have hstep : c.InStep ∧ c.mediaRead = c.media ∧ c.paramsRead = c.params := by
    cases c with
    | constrained m => exact ⟨(hm m hc).1, (hm m hc).2, rfl⟩
    | general m ps =>
      refine ⟨⟨(hm m hc.1).1, fun p hp => (h0 p (hc.2.1 p hp)).1, hc.2.2⟩, (hm m hc.1).2, ?_⟩
      show ps.foldl _ [] = ps.foldl _ []
      have : ∀ (ps : List Param) (d : Dict Val), (∀ p ∈ ps, p.WF) →
          ps.foldl (fun d p => d.set p.key p.asRead) d = ps.foldl (fun d p => d.set p.key p.value) d := by
        intro ps
        induction ps with
        | nil => intro d _; rfl
        | cons p ps ih =>
          intro d h
          rw [List.foldl_cons, List.foldl_cons, (h0 p (h p (by simp))).2]
          exact ih _ (fun q hq => h q (by simp [hq]))
      exact this ps [] hc.2.1
  have h60 : breaks 60 = true := by decide
  have hp : (Part.mk c [.contentId (60 :: i), .location t] data).InStep := by
    refine ⟨hstep.1, ⟨[.contentId (60 :: i)], ?_, .inr ⟨t, ht, rfl⟩⟩, hl, hd⟩
    intro h hh
    rw [List.mem_singleton] at hh
    subst hh
    refine ⟨?_, ⟨60, by simp, h60⟩, ?_⟩
    · show (0 : Nat) ∉ 60 :: i
      intro h
      rcases List.mem_cons.1 h with h | h
      · cases h
      · exact hi h
    · rw [List.dropWhile_cons_of_neg (by rw [h60]; decide), List.tail_cons]
      exact h127
  have ha : (Part.mk c [.contentId (60 :: i), .location t] data).appsRead = [.app (py! "\"") i] := by
    show [PHdr.app (34 :: (60 :: i).takeWhile fun c => !breaks c) ((60 :: i).dropWhile fun c => !breaks c).tail] = _
    rw [List.dropWhile_cons_of_neg (by rw [h60]; decide), List.takeWhile_cons_of_neg (by rw [h60]; decide)]
    rfl
  refine ⟨_, part_inStep hp rest, hstep.2.2, ?_, rfl, ?_, ?_, ?_⟩ <;> simp only [partRead, ha, hstep.2.1, hstep.2.2] <;> rfl

/-- messages with a Differences parameter in the content type of a part cannot be read -/
theorem C46_differences_message (hs : List Hdr) (c : CType) (ps : List Part) (p : Part) (qs : List Part)
    (hw : ∀ h ∈ hs, h.WF) (hc : c.InStep) (hp : ∀ q ∈ ps, q.InStep) (hl : (ps ++ p :: qs).length < 2 ^ 63)
    (m : Media) (hm : m.Conf) (as : List Param) (ha : ∀ a ∈ as, a.InStep) (t : List Nat) (more : List Param)
    (hpc : p.ctype = .general m (as ++ .differences t :: more)) (hpl : p.head.length < 2 ^ 63) (rest : List Nat) :
    decodeData (hs.flatMap Hdr.enc ++ (0x84 :: c.enc ++ (multipart (ps ++ p :: qs) ++ rest))) = .error .attributeError := by
  have hbody : (CType.general m (as ++ .differences t :: more)).body.length < 2 ^ 63 := by
    have : (CType.general m (as ++ .differences t :: more)).body.length ≤ p.head.length := by
      unfold Part.head
      rw [hpc]
      simp only [CType.enc, CType.body, List.length_append]
      omega
    omega
  have hpe := part_error (p := p) (e := .attributeError) (fun r => by
    rw [hpc]; exact ctype_differences hm as ha t more hbody r) hpl
  have hb : ∃ r, decodeMessageBody ⟨multipart (ps ++ p :: qs) ++ rest, 0⟩ = .err .attributeError r := by
    have hf : (ps ++ p :: qs).flatMap Part.enc ++ rest = ps.flatMap Part.enc ++ (p.enc ++ (qs.flatMap Part.enc ++ rest)) := by
      simp
    have h1 := partLoop_inStep ps hp (qs.length + 1) [] (p.enc ++ (qs.flatMap Part.enc ++ rest))
    refine ⟨⟨p.data ++ (qs.flatMap Part.enc ++ rest), 0⟩, ?_⟩
    unfold decodeMessageBody multipart
    rw [List.append_assoc]
    simp only [decodeUintVar_uintvar]
    rw [M.bind_ok (xrangeCheck_ok hl _), hf, show (ps ++ p :: qs).length = ps.length + (qs.length + 1) by simp, h1, partLoop,
      M.bind_err (hpe _)]
  obtain ⟨r, hb⟩ := hb
  unfold decodeData It.new
  rw [M.bind_ok (messageHeader_read hs hw hc _), M.bind_err hb]

/-- and with one in the content type of the message neither -/
theorem C46_differences_main (hs : List Hdr) (hw : ∀ h ∈ hs, h.WF) (m : Media) (hm : m.Conf) (as : List Param)
    (ha : ∀ a ∈ as, a.InStep) (t : List Nat) (more : List Param)
    (hl : (CType.general m (as ++ .differences t :: more)).body.length < 2 ^ 63) (rest : List Nat) :
    decodeData (hs.flatMap Hdr.enc ++ (0x84 :: (CType.general m (as ++ .differences t :: more)).enc ++ rest)) =
      .error .runtimeError := by
  have hv : decodeMmsValue .contentTypeValue ⟨(CType.general m (as ++ .differences t :: more)).enc ++ rest, 0⟩ =
      .err .attributeError ⟨rest, 0⟩ := by
    show (decodeContentTypeValue >>= fun x => pure (HVal.ct x.1 x.2)) _ = _
    exact M.bind_err (ctype_differences hm as ha t more hl rest)
  have hh : decodeHeader ⟨0x84 :: (CType.general m (as ++ .differences t :: more)).enc ++ rest, 0⟩ =
      .err .runtimeError ⟨rest, 0⟩ := by
    unfold decodeHeader
    refine orDE_other ?_ (by decide)
    unfold decodeMmsHeader
    rw [List.cons_append, M.bind_ok (preview_zero _ _), show decodeShortIntegerFromByte 0x84 = .ok 4 from rfl,
      M.bind_ok (M.lift_ok _ _)]
    show (do let _ ← next; let v ← wrapFatal (decodeMmsValue .contentTypeValue); pure (py! "Content-Type", v) : D _) _ = _
    rw [M.bind_ok (next_cons _ _ _)]
    apply M.bind_err
    unfold wrapFatal M.tryCatch
    rw [hv]
    rfl
  obtain ⟨fuel, h⟩ := messageHeader_rest hs hw (0x84 :: (CType.general m (as ++ .differences t :: more)).enc ++ rest)
  have hm' : decodeMessageHeader ⟨hs.flatMap Hdr.enc ++ (0x84 :: (CType.general m (as ++ .differences t :: more)).enc ++ rest), 0⟩ =
      .err .runtimeError ⟨rest, 0⟩ := by
    rw [h, headerLoop]
    simp only [hh]
  unfold decodeData It.new
  rw [M.bind_err hm']

/-! ### the hypotheses are met -/

/-- parameters of all the misread forms, and one of the others, that are read in step -/
def sampleMisread : List Param := [.charsetAny, .otherNone (py! "foo"), .otherQuoted (py! "bar") (py! "a.b"), .name (py! "x")]

theorem sampleMisread_inStep : ∀ p ∈ sampleMisread, p.InStep := by
  intro p hp
  simp only [sampleMisread, List.mem_cons, List.not_mem_nil, or_false] at hp
  rcases hp with rfl | rfl | rfl | rfl
  · trivial
  · exact ⟨by decide, by decide⟩
  · exact ⟨⟨by decide, by decide⟩, by show (0 : Nat) ∉ _; decide, by decide⟩
  · show (0 : Nat) ∉ _; decide

def sampleMisreadType : CType := .general (.known 14 (py! "multipart/byteranges")) sampleMisread

theorem sampleMisreadType_inStep : sampleMisreadType.InStep :=
  ⟨by show mediaTypes[14]? = some _; decide +kernel, sampleMisread_inStep, by decide +kernel⟩

example : sampleMisreadType.mediaRead = py! "multipart/byterantes" ∧
    sampleMisreadType.paramsRead.get (py! "bar") = some (.str (py! "\"a.b")) ∧
    sampleMisreadType.paramsRead.get (py! "foo") = some (.int 0) := by decide

/-- a message whose parts have such a content type, a Content-ID and a Content-Location -/
example : ∃ m, decodeData (sampleHeaders.flatMap Hdr.enc ++ (0x84 :: sampleMisreadType.enc ++ (multipart
    [⟨sampleMisreadType, [.app (py! "X-Foo") (py! "bar"), .contentId (py! "<1>"), .location (py! "a.jpg")], [1, 2, 3]⟩] ++ [])))
      = .ok m ∧ m.dataParts.length = 1 := by
  obtain ⟨m, h1, _, _, h2, _⟩ := C46_read sampleHeaders sampleMisreadType
    [⟨sampleMisreadType, [.app (py! "X-Foo") (py! "bar"), .contentId (py! "<1>"), .location (py! "a.jpg")], [1, 2, 3]⟩] []
    sampleHeaders_wf sampleMisreadType_inStep (by
      intro p hp
      rw [List.mem_singleton] at hp
      subst hp
      refine ⟨sampleMisreadType_inStep, ⟨[.app (py! "X-Foo") (py! "bar"), .contentId (py! "<1>")], ?_,
        .inr ⟨py! "a.jpg", ⟨by decide, by decide⟩, rfl⟩⟩, by decide +kernel, by decide +kernel⟩
      intro h hh
      simp only [List.mem_cons, List.not_mem_nil, or_false] at hh
      rcases hh with rfl | rfl
      · exact ⟨⟨by decide, by decide⟩, by show (0 : Nat) ∉ _; decide⟩
      · exact ⟨by show (0 : Nat) ∉ _; decide, ⟨60, by decide, by decide⟩, by decide⟩) (by decide)
  refine ⟨m, h1, ?_⟩
  generalize m.dataParts = l at h2
  cases h2 with
  | cons _ h => cases h; rfl

example : ∀ rest, decodeContentTypeValue ⟨(CType.general (.known 3 (py! "text/plain")) (sampleMisread ++ .differences (py! "foo") ::
    [.q 5])).enc ++ rest, 0⟩ = .err .attributeError ⟨rest, 0⟩ :=
  C46_differences_read _ (by show mediaTypes[3]? = some _; decide +kernel) _ sampleMisread_inStep _ _ (by decide +kernel)

/-- `bar="a;b=c` as a quoted parameter, followed by data -/
example : decodeParameter ⟨(Param.otherQuoted (py! "bar") (py! "a" ++ 59 :: py! "b=c")).enc ++ [1, 2], 0⟩ =
    .ok (py! "bar", .str (py! "\"a")) ⟨py! "b=c" ++ [0, 1, 2], 0⟩ :=
  C46_quoted_read (py! "bar") ⟨by decide, by decide⟩ (py! "a") (by decide) 59 (by decide) (py! "b=c") [1, 2]

/-- a photo as phones send it -/
example : ∃ d, decodePart ⟨(Part.mk (.constrained (.known 30 (py! "image/jpeg"))) [.contentId (60 :: py! "1>"), .location (py! "a.jpg")]
      [1, 2, 3]).enc ++ [9], 0⟩ = .ok d ⟨[9], 0⟩ ∧ d.data = some [1, 2, 3] ∧ d.headers.get (py! "Content-Location") = none ∧
      d.headers.get (py! "\"") = some (.v (.str (py! "1>"))) := by
  obtain ⟨d, h1, _, _, h2, h3, _, h4⟩ := C46_phone_part (.constrained (.known 30 (py! "image/jpeg")))
    (by refine ⟨?_, ?_⟩ <;> decide +kernel) (py! "1>") (py! "a.jpg") (by show (0 : Nat) ∉ _; decide) (by decide) ⟨by decide, by decide⟩
    [1, 2, 3] [9] (by decide +kernel) (by decide)
  exact ⟨d, h1, h2, h3, h4⟩

/-- a message whose second part has a Differences parameter -/
example : decodeData (sampleHeaders.flatMap Hdr.enc ++ (0x84 :: sampleMisreadType.enc ++ (multipart
    ([⟨sampleMisreadType, [], [1, 2, 3]⟩] ++ ⟨.general (.known 3 (py! "text/plain")) (sampleMisread ++ .differences (py! "foo") :: []), [], [4]⟩ :: [])
      ++ []))) = .error .attributeError :=
  C46_differences_message sampleHeaders sampleMisreadType _ _ [] sampleHeaders_wf sampleMisreadType_inStep
    (by
      intro q hq
      rw [List.mem_singleton] at hq
      subst hq
      exact ⟨sampleMisreadType_inStep, ⟨[], by simp, .inl rfl⟩, by decide +kernel, by decide +kernel⟩)
    (by decide) _ (by show mediaTypes[3]? = some _; decide +kernel) sampleMisread sampleMisread_inStep (py! "foo") [] rfl
    (by decide +kernel) []

end Verif.Props

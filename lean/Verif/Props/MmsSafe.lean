import Verif.Proofs.Safe2
/-!
# Properties of the MMS decoder on arbitrary octets: termination, exceptions, iterator state after a failure

`It` is a `PreviewIterator`: `rem` what `next()` has still to return, `k` the preview offset.
-/
set_option autoImplicit false

namespace Verif.Props
open Verif Verif.Mms

/-! ### C50 decoding terminates

The three unbounded Python loops (`while byte_iter...` over headers, parameters and part headers) carry a step budget
in the model, and give `.diverge` when it runs out.  The theorems say that it never runs out, that a larger budget
changes nothing, and that each iteration consumes input. -/

/-- for every octet string, `decode_data` ends -/
theorem C50_terminates (data : List Nat) : decodeData data ≠ .error .diverge := by
  intro h
  have := decodeData_err data _ h
  simp at this

/-- one iteration of the header loop consumes at least one octet -/
theorem C50_header_consumes (s s' : It) (nv : Str × HVal) (h : decodeHeader s = .ok nv s') :
    s'.rem <:+ s.rem ∧ s'.rem.length < s.rem.length := ⟨(header_safe s).1 _ _ h, header_prog _ _ _ h⟩

example := C50_header_consumes ⟨[0x98, 49, 0, 7], 0⟩ ⟨[7], 0⟩ (py! "Transaction-Id", .v (.str (py! "1"))) (by decide +kernel)

/-- one iteration of the parameter loop consumes at least one octet -/
theorem C50_parameter_consumes (s s' : It) (nv : Str × Val) (h : decodeParameter s = .ok nv s') :
    s'.rem <:+ s.rem ∧ s'.rem.length < s.rem.length := ⟨(parameter_safe s).1 _ _ h, parameter_prog _ _ _ h⟩

example := C50_parameter_consumes ⟨[0x81, 0xea, 7], 0⟩ ⟨[7], 0⟩ (py! "Charset", .str (py! "utf-8")) (by decide +kernel)

/-- one iteration of the loop over parts consumes the octets of the data and at least two more -/
theorem C50_part_consumes (s s' : It) (p : DataPart) (h : decodePart s = .ok p s') :
    s'.rem <:+ s.rem ∧ ∃ d, p.data = some d ∧ d.length + 2 + s'.rem.length ≤ s.rem.length := by
  obtain ⟨d, h1, h2, _⟩ := decodePart_size _ _ _ h
  exact ⟨(part_safe s).1 _ _ h, d, h1, h2⟩

example : ∃ p, decodePart ⟨[1, 2, 0x83, 72, 105, 9], 0⟩ = .ok p ⟨[9], 0⟩ := ⟨_, rfl⟩

/-- the header loop never needs more iterations than there are octets left, plus the one that finds the end -/
theorem C50_headers (n : Nat) (d : Dict HVal) (s : It) (h : s.rem.length < n) :
    headerLoop n d s = headerLoop (s.rem.length + 1) d s ∧ ∀ s', headerLoop n d s ≠ .err .diverge s' := by
  refine ⟨headerLoop_fuel _ _ _ _ h (by omega), ?_⟩
  intro s' he
  have := ((headerLoop_safe n d s h).2 _ _ he).1
  simp at this

example := C50_headers 9 [] ⟨[0x98, 49, 0, 7], 0⟩ (by decide)

/-- same for the headers of a part -/
theorem C50_part_headers (n : Nat) (d : Dict HVal) (s : It) (h : s.rem.length < n) :
    partHeaderLoop n d s = partHeaderLoop (s.rem.length + 1) d s ∧ ∀ s', partHeaderLoop n d s ≠ .err .diverge s' := by
  refine ⟨partHeaderLoop_fuel _ _ _ _ h (by omega), ?_⟩
  intro s' he
  have := partHeaderLoop_safe n d s h _ _ he
  simp at this

example := C50_part_headers 9 [] ⟨[0x8e, 49, 0, 7], 0⟩ (by decide)

/-- same for the parameters of a content type -/
theorem C50_params (n : Nat) (d : Dict Val) (s : It) (h : s.rem.length < n) :
    paramLoop n d s = paramLoop (s.rem.length + 1) d s ∧ ∀ s', paramLoop n d s ≠ .err .diverge s' := by
  refine ⟨paramLoop_fuel _ _ _ _ h (by omega), ?_⟩
  intro s' he
  have := paramLoop_safe n d s h _ _ he
  simp at this

example := C50_params 9 [] ⟨[0x81, 0xea, 7], 0⟩ (by decide)

/-- what comes out is bounded by what went in: headers, parts and octets of data; every data octet is one of the input -/
theorem C50_size (data : List Nat) (m : Msg) (h : decodeData data = .ok m) :
    m.headers.length ≤ 4 + data.length ∧
    (m.dataParts.map (fun p => (p.data.elim 0 List.length) + 2)).sum ≤ data.length ∧
    (∀ p ∈ m.dataParts, ∃ d, p.data = some d ∧ ∀ x ∈ d, x ∈ data) ∧ m.pages = [] := by
  obtain ⟨hdrs, parts, s1, s2, h1, h2, rfl⟩ := decodeData_inv h
  have a := headerLoop_count _ _ _ _ _ h1
  have b := messageBody_size _ _ _ h2
  have c : s1.rem <:+ data := (messageHeader_safe (It.new data)).1 _ _ h1
  have hc := c.length_le
  have e : Msg.new.headers.length = 4 := by decide
  simp only [It.new] at a
  refine ⟨by simp only; omega, ?_, ?_, rfl⟩
  · have := b.1
    simp only [partsSize] at this
    simp only
    omega
  · intro p hp
    obtain ⟨d, hd, hx⟩ := b.2 p hp
    exact ⟨d, hd, fun x h => c.mem (hx x h)⟩

example : ∃ m, decodeData [0x84, 0xa3, 1, 1, 2, 0x83, 72, 105] = .ok m ∧ m.dataParts.length = 1 ∧ m.headers.length = 4 :=
  ⟨_, rfl, by decide +kernel, by decide +kernel⟩
example : decodeParameter ⟨[0x81, 0xea, 7], 0⟩ = .ok (py! "Charset", .str (py! "utf-8")) ⟨[7], 0⟩ := by decide +kernel

/-! ### C51 exceptions -/

/-- `decode_data` returns or raises one of five exceptions -/
theorem C51_contract (data : List Nat) : (∃ m, decodeData data = .ok m) ∨
    ∃ e, decodeData data = .error e ∧
      (e = .decodeError ∨ e = .stopIteration ∨ e = .runtimeError ∨ e = .attributeError ∨ e = .overflowError) := by
  cases h : decodeData data with
  | ok m => exact .inl ⟨m, rfl⟩
  | error e =>
    have := decodeData_err data _ h
    simp only [List.mem_cons, List.not_mem_nil, or_false] at this
    refine .inr ⟨e, rfl, ?_⟩
    rcases this with h | h | h | h | h <;> simp [h]

/-- and each of the five does occur -/
theorem C51_sharp :
    decodeData [0x84, 0xa3, 1, 2, 0, 1, 31] = .error .decodeError ∧
    decodeData [0x84, 0xa3, 1] = .error .stopIteration ∧
    decodeData [0x98, 65] = .error .runtimeError ∧
    decodeData [0x84, 0xa3, 1, 4, 0, 3, 0x83, 0x87, 0x81] = .error .attributeError ∧
    decodeData [0x84, 0xa3, 0x81, 0x80, 0x80, 0x80, 0x80, 0x80, 0x80, 0x80, 0x80, 0x00] = .error .overflowError := by
  refine ⟨?_, ?_, ?_, ?_, ?_⟩ <;> decide +kernel

theorem wspHeader_noDE : Safe [.stopIteration, .attributeError, .overflowError] decodeWspHeader :=
  .orDE (wellKnownHeader_safe.mono (mem_sub rfl)) (applicationHeader_safe.mono (mem_sub rfl))

/-- a single header never fails with DecodeError: whatever does not parse as an MMS or WSP header is read as an
application header -/
theorem C51_header (s s' : It) (e : PyErr) (h : decodeHeader s = .err e s') :
    e = .stopIteration ∨ e = .runtimeError ∨ e = .attributeError ∨ e = .overflowError := by
  have hs : Safe [.stopIteration, .attributeError, .overflowError, .runtimeError] decodeHeader :=
    .orDE (mmsHeader_safe.mono (mem_sub rfl)) (wspHeader_noDE.mono (mem_sub rfl))
  have := ((hs s).2 _ _ h).1
  simp only [List.mem_cons, List.not_mem_nil, or_false] at this
  rcases this with h | h | h | h <;> simp [h]

example := C51_header ⟨[0x85, 6, 255, 255, 255, 255, 255, 255], 0⟩ ⟨[], 0⟩ .runtimeError (by decide +kernel)

/-- a header that is an MMS one, whatever its value, only ever fails with RuntimeError, unless its value is rejected with
DecodeError and the rest is then read as a WSP header -/
theorem C51_mms_value (ty : MType) (s s' : It) (e : PyErr) (h : wrapFatal (decodeMmsValue ty) s = .err e s') :
    e = .decodeError ∨ e = .runtimeError := by
  have := ((wrapFatal_safe ty s).2 _ _ h).1
  simpa using this

example : ∃ e s', wrapFatal (decodeMmsValue .priorityValue) ⟨[127, 5], 0⟩ = .err e s' := ⟨_, _, rfl⟩

/-- `decode_file` adds OSError for a missing file -/
theorem C51_file (env : Env) (f : Str) (e : PyErr) (h : decodeFile env f = .error e) :
    (e = .osError ∧ env.files f = none) ∨
      (e = .decodeError ∨ e = .stopIteration ∨ e = .runtimeError ∨ e = .attributeError ∨ e = .overflowError) := by
  unfold decodeFile at h
  split at h
  · rename_i hf
    injection h with h
    exact .inl ⟨h.symm, hf⟩
  · rename_i d hd
    have := decodeData_err d _ h
    simp only [List.mem_cons, List.not_mem_nil, or_false] at this
    refine .inr ?_
    rcases this with h | h | h | h | h <;> simp [h]

example : decodeHeader ⟨[0x85, 6, 255, 255, 255, 255, 255, 255], 0⟩ = .err .runtimeError ⟨[], 0⟩ := by decide +kernel

/-! ### C59 the iterator after DecodeError -/

/-- after DecodeError nothing has been consumed and the preview position is at the next octet -/
def Unmoved {α : Type} (m : D α) : Prop :=
  ∀ (data : List Nat) (k : Nat) (s' : It), m ⟨data, k⟩ = .err .decodeError s' → s' = ⟨data, 0⟩

/-- the primitives whose documentation promises it -/
def C59_full : Prop :=
  Unmoved decodeTokenText ∧ Unmoved decodeExtensionMedia ∧ Unmoved decodeShortLength ∧ Unmoved decodeValueLength ∧
  Unmoved decodeIntegerValue ∧ Unmoved decodeWellKnownMedia ∧ (∀ v, Unmoved (decodeWellKnownParameter v)) ∧
  Unmoved decodeCompactValue ∧ Unmoved decodeNoValue ∧ Unmoved decodePriorityValue ∧ Unmoved decodeAcceptValue ∧
  Unmoved decodePragmaValue

/-- a number that is not in the table of media is consumed all the same -/
theorem C59_refuted : ¬ C59_full := by
  intro h
  have := h.2.2.2.2.2.1 [0xff, 7] 0 ⟨[7], 0⟩ (by decide +kernel)
  simp at this

/-- the other promises that do not hold -/
theorem C59_refuted_parameter : ¬ Unmoved (decodeWellKnownParameter (py! "1.2")) := by
  intro h
  have := h [0xff, 2] 0 ⟨[2], 0⟩ (by decide +kernel)
  simp at this

theorem C59_refuted_accept : ¬ Unmoved decodeAcceptValue := by
  intro h
  have := h [1, 31] 0 ⟨[31], 0⟩ (by decide +kernel)
  simp at this

theorem C59_refuted_pragma : ¬ Unmoved decodePragmaValue := by
  intro h
  have := h [1, 31] 0 ⟨[31], 0⟩ (by decide +kernel)
  simp at this

/-- the visible consequence: a media type given by an unassigned number is read as the text that follows it -/
theorem C59_consequence (text rest : List Nat) (h : ∀ b ∈ text, b ≠ 0) (h1 : ∀ b r, text = b :: r → 32 ≤ b ∧ b ≠ 127)
    (hne : text ≠ []) (n : Nat) (hn : wellKnownContentTypes.length ≤ n) (hn2 : n < 128) :
    decodeMediaType ⟨(0x80 + n) :: text ++ 0 :: rest, 0⟩ = .ok text ⟨rest, 0⟩ := by
  have hm : 128 + n < 256 := by omega
  have e0 : (128 + n) &&& 128 ≠ 0 := by
    revert hn2 hm
    clear hn
    revert n
    have : ∀ n : Fin 128, (128 + n.val) &&& 128 ≠ 0 := by decide +kernel
    intro n h2 _
    exact this ⟨n, h2⟩
  have e1 : (128 + n) &&& 0x7f = n := by
    have : ∀ n : Fin 128, (128 + n.val) &&& 0x7f = n.val := by decide +kernel
    exact this ⟨n, hn2⟩
  have hs : decodeIntegerValue ⟨(0x80 + n) :: text ++ 0 :: rest, 0⟩ = .ok n ⟨text ++ 0 :: rest, 0⟩ := by
    unfold decodeIntegerValue
    apply orDE_ok
    unfold decodeShortInteger
    rw [List.cons_append, M.bind_ok (preview_zero _ _), if_neg e0, M.bind_ok (next_cons _ _ _), e1]
    rfl
  have hw : decodeWellKnownMedia ⟨(0x80 + n) :: text ++ 0 :: rest, 0⟩ = .err .decodeError ⟨text ++ 0 :: rest, 0⟩ := by
    unfold decodeWellKnownMedia
    rw [M.bind_ok hs]
    have : mediaName n = .error .decodeError := by
      unfold mediaName
      rw [List.getElem?_eq_none hn]
    rw [this]
    rfl
  unfold decodeMediaType
  rw [orDE_err hw]
  cases text with
  | nil => exact absurd rfl hne
  | cons b r =>
    have hb := h1 b r rfl
    unfold decodeExtensionMedia
    rw [List.cons_append, M.bind_ok (preview_zero _ _), if_neg (by omega)]
    have := textLoop_eq [] (b :: r) (fun h0 => h 0 h0 rfl) rest
    simpa using this

example : decodeMediaType ⟨[0xff, 97, 47, 98, 0, 1], 0⟩ = .ok (py! "a/b") ⟨[1], 0⟩ := by decide +kernel
example : wellKnownContentTypes.length ≤ 0x7f := by decide +kernel

/-- the promises that hold -/
theorem C59_partial :
    Unmoved decodeTokenText ∧ Unmoved decodeExtensionMedia ∧ Unmoved decodeShortLength ∧ Unmoved decodeValueLength ∧
    Unmoved decodeIntegerValue ∧ Unmoved decodeCompactValue ∧ Unmoved decodeNoValue ∧ Unmoved decodePriorityValue :=
  ⟨fun _ _ _ h => tokenText_restores _ _ h, fun _ _ _ h => extensionMedia_restores _ _ h,
   fun _ _ _ h => shortLength_restores _ _ h, fun _ _ _ h => valueLength_restores _ _ h,
   fun _ _ _ h => integerValue_restores _ _ h, fun _ _ _ h => compactValue_restores _ _ h,
   fun _ _ _ h => noValue_restores _ _ h, fun _ _ _ h => priority_restores _ _ h⟩

/-- the same for the primitives that make no promise -/
theorem C59_other_partial :
    Unmoved decodeShortInteger ∧ Unmoved decodeLongInteger ∧ Unmoved decodeTextString ∧ Unmoved decodeQuotedString ∧
    Unmoved decodeUintVar ∧ Unmoved decodeConstrainedEncoding ∧ Unmoved decodeDateValue ∧ Unmoved decodeQValue ∧
    Unmoved decodeVersionValue ∧ Unmoved decodeTextValue ∧ Unmoved decodeTypedValue ∧ Unmoved decodeWellKnownCharset ∧
    Unmoved decodeUntypedValue ∧ Unmoved decodeUntypedParameter ∧ Unmoved decodeApplicationHeader ∧
    Unmoved decodeEncodedStringValue ∧ Unmoved decodeBooleanValue ∧ Unmoved decodeFromValue ∧
    Unmoved decodeMessageClassValue ∧ Unmoved decodeMessageTypeValue ∧ Unmoved decodeSenderVisibilityValue ∧
    Unmoved decodeResponseStatusValue ∧ Unmoved decodeStatusValue :=
  ⟨fun _ _ _ h => shortInteger_restores _ _ h, fun _ _ _ h => longInteger_restores _ _ h,
   fun _ _ _ h => textString_restores _ _ h, fun _ _ _ h => quotedString_restores _ _ h,
   fun _ _ _ h => uintVar_restores _ _ h, fun _ _ _ h => constrainedEncoding_restores _ _ h,
   fun _ _ _ h => dateValue_restores _ _ h, fun _ _ _ h => qValue_restores _ _ h,
   fun _ _ _ h => versionValue_restores _ _ h, fun _ _ _ h => textValue_restores _ _ h,
   fun _ _ _ h => typedValue_restores _ _ h, fun _ _ _ h => wellKnownCharset_restores _ _ h,
   fun _ _ _ h => untypedValue_restores _ _ h, fun _ _ _ h => untypedParameter_restores _ _ h,
   fun _ _ _ h => applicationHeader_restores _ _ h, fun _ _ _ h => encodedString_restores _ _ h,
   fun _ _ _ h => booleanValue_restores _ _ h, fun _ _ _ h => fromValue_restores _ _ h,
   fun _ _ _ h => messageClass_restores _ _ h, fun _ _ _ h => messageType_restores _ _ h,
   fun _ _ _ h => visibility_restores _ _ h, fun _ _ _ h => responseStatus_restores _ _ h,
   fun _ _ _ h => status_restores _ _ h⟩

/-- `decode_well_known_media` fails without moving, except after a number that has no media type -/
theorem C59_media_partial (data : List Nat) (k : Nat) (s' : It) (h : decodeWellKnownMedia ⟨data, k⟩ = .err .decodeError s') :
    s' = ⟨data, 0⟩ ∨ ∃ n, decodeIntegerValue ⟨data, k⟩ = .ok n s' ∧ wellKnownContentTypes.length ≤ n := by
  rcases after_integer _ _ _ h with h | ⟨n, s1, h1, h2⟩
  · exact .inl h
  · refine .inr ⟨n, ?_⟩
    unfold mediaName at h2
    cases hn : wellKnownContentTypes[n]? with
    | some x => rw [hn] at h2; cases h2
    | none =>
      rw [hn] at h2
      injection h2 with _ h2
      subst h2
      exact ⟨h1, List.getElem?_eq_none_iff.1 hn⟩

example := C59_media_partial [0xff, 1] 0 ⟨[1], 0⟩ (by decide +kernel)

/-- `decode_well_known_parameter` fails without moving, except after a number that has no parameter -/
theorem C59_parameter_partial (data : List Nat) (k : Nat) (s' : It)
    (h : decodeWellKnownParameter (py! "1.2") ⟨data, k⟩ = .err .decodeError s') :
    s' = ⟨data, 0⟩ ∨ ∃ n, decodeIntegerValue ⟨data, k⟩ = .ok n s' ∧ lookupNum params12 n = none := by
  rcases after_integer _ _ _ h with h | ⟨n, s1, h1, h2⟩
  · exact .inl h
  · refine .inr ⟨n, ?_⟩
    rw [params12_eq, M.bind_ok (M.lift_ok _ _)] at h2
    cases hn : lookupNum params12 n with
    | some x => rw [hn] at h2; cases h2
    | none =>
      rw [hn] at h2
      injection h2 with _ h2
      subst h2
      exact ⟨h1, rfl⟩

example := C59_parameter_partial [0xff, 1] 0 ⟨[1], 0⟩ (by decide +kernel)

/-- the first step of `decode_header` leaves a preview pending when the octet is not a header number.  The next
alternative then looks at the wrong octet: this application header named by `!` and a Latin-1 letter is taken for
header number 0x21 -/
theorem C59_mms_header_preview :
    decodeMmsHeader ⟨[0x21, 0xe9, 65, 0, 66, 0], 0⟩ = .err .decodeError ⟨[0x21, 0xe9, 65, 0, 66, 0], 1⟩ ∧
    decodeApplicationHeader ⟨[0x21, 0xe9, 65, 0, 66, 0], 0⟩ = .ok ([0x21, 0xe9, 65], .v (.str [66])) ⟨[], 0⟩ ∧
    decodeHeader ⟨[0x21, 0xe9, 65, 0, 66, 0], 0⟩ =
      .ok (py! "Proxy-Authorization", .v (.str [0xe9, 65])) ⟨[66, 0], 0⟩ := by
  refine ⟨?_, ?_, ?_⟩ <;> decide +kernel

example : decodePriorityValue ⟨[127, 5], 0⟩ = .err .decodeError ⟨[127, 5], 0⟩ := by decide +kernel
example : decodeFromValue ⟨[32, 5], 0⟩ = .err .decodeError ⟨[32, 5], 0⟩ := by decide +kernel

end Verif.Props

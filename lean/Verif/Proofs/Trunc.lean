import Verif.Proofs.Safe2
/-!
# Reading a part of the input: a decoder given the first octets only either stops for want of octets or does what it
would do on the whole
-/
set_option autoImplicit false

namespace Verif.Mms

/-- the exceptions a decoder raises when the octets run out; RuntimeError only if `w` -/
def Starved (w : Prop) (e : PyErr) : Prop := e = .stopIteration ∨ w ∧ e = .runtimeError

/-- on a part of its input `m` starves, or it does what it does on the whole -/
def Trunc (w : Prop) {α : Type} (m : D α) : Prop := ∀ pre suf k,
  (∃ e s', m ⟨pre, k⟩ = .err e s' ∧ Starved w e) ∨
  (∃ a r j, m ⟨pre, k⟩ = .ok a ⟨r, j⟩ ∧ m ⟨pre ++ suf, k⟩ = .ok a ⟨r ++ suf, j⟩) ∨
  (∃ e r j, m ⟨pre, k⟩ = .err e ⟨r, j⟩ ∧ m ⟨pre ++ suf, k⟩ = .err e ⟨r ++ suf, j⟩)

namespace Trunc
variable {α β : Type} {w : Prop}

theorem pure (a : α) : Trunc w (Pure.pure a : D α) := fun pre _ k => .inr (.inl ⟨a, pre, k, rfl, rfl⟩)

theorem throw (e : PyErr) : Trunc w (M.throw e : D α) := fun pre _ k => .inr (.inr ⟨e, pre, k, rfl, rfl⟩)

theorem lift (x : Py α) : Trunc w (M.lift x : D α) := by
  intro pre suf k
  cases x with
  | ok a => exact .inr (.inl ⟨a, pre, k, rfl, rfl⟩)
  | error e => exact .inr (.inr ⟨e, pre, k, rfl, rfl⟩)

theorem onFresh (bytes : List Nat) (m : D α) : Trunc w (Mms.onFresh bytes m) := by
  intro pre suf k
  cases h : m (It.new bytes) with
  | ok a s => exact .inr (.inl ⟨a, pre, k, by simp [Mms.onFresh, h], by simp [Mms.onFresh, h]⟩)
  | err e s => exact .inr (.inr ⟨e, pre, k, by simp [Mms.onFresh, h], by simp [Mms.onFresh, h]⟩)

theorem bind {m : D α} {f : α → D β} (hm : Trunc w m) (hf : ∀ a, Trunc w (f a)) : Trunc w (m >>= f) := by
  intro pre suf k
  rcases hm pre suf k with ⟨e, s', h, he⟩ | ⟨a, r, j, h1, h2⟩ | ⟨e, r, j, h1, h2⟩
  · exact .inl ⟨e, s', M.bind_err h, he⟩
  · rw [M.bind_ok h1, M.bind_ok h2]
    exact hf a r suf j
  · exact .inr (.inr ⟨e, r, j, M.bind_err h1, M.bind_err h2⟩)

theorem orDE {m h : D α} (hm : Trunc w m) (hh : Trunc w h) : Trunc w (orDecodeError m h) := by
  intro pre suf k
  rcases hm pre suf k with ⟨e, s', h1, he⟩ | ⟨a, r, j, h1, h2⟩ | ⟨e, r, j, h1, h2⟩
  · refine .inl ⟨e, s', ?_, he⟩
    rcases he with rfl | ⟨_, rfl⟩ <;> simp [orDecodeError, M.tryCatch, h1]
  · exact .inr (.inl ⟨a, r, j, by simp [orDecodeError, M.tryCatch, h1], by simp [orDecodeError, M.tryCatch, h2]⟩)
  · by_cases he : e = .decodeError
    · subst he
      have e1 : orDecodeError m h ⟨pre, k⟩ = h ⟨r, j⟩ := by simp [orDecodeError, M.tryCatch, h1]
      have e2 : orDecodeError m h ⟨pre ++ suf, k⟩ = h ⟨r ++ suf, j⟩ := by simp [orDecodeError, M.tryCatch, h2]
      rw [e1, e2]
      exact hh r suf j
    · exact .inr (.inr ⟨e, r, j, by simp [orDecodeError, M.tryCatch, h1, he],
        by simp [orDecodeError, M.tryCatch, h2, he]⟩)

/-- `except DecodeError: raise` something else -/
theorem rethrow {m : D α} (hm : Trunc w m) (p : PyErr → Bool) (e' : PyErr)
    (hp : ∀ e, Starved w e → p e = true → Starved w e') :
    Trunc w (M.tryCatch m p (fun _ => M.throw e')) := by
  intro pre suf k
  rcases hm pre suf k with ⟨e, s', h1, he⟩ | ⟨a, r, j, h1, h2⟩ | ⟨e, r, j, h1, h2⟩
  · left
    by_cases h : p e = true
    · exact ⟨e', s', by simp [M.tryCatch, h1, h], hp e he h⟩
    · exact ⟨e, s', by simp [M.tryCatch, h1, h], he⟩
  · exact .inr (.inl ⟨a, r, j, by simp [M.tryCatch, h1], by simp [M.tryCatch, h2]⟩)
  · by_cases h : p e = true
    · exact .inr (.inr ⟨e', r, j, by simp [M.tryCatch, h1, h], by simp [M.tryCatch, h2, h]⟩)
    · exact .inr (.inr ⟨e, r, j, by simp [M.tryCatch, h1, h], by simp [M.tryCatch, h2, h]⟩)

theorem next : Trunc w Mms.next := by
  intro pre suf k
  cases pre with
  | nil => exact .inl ⟨_, _, rfl, .inl rfl⟩
  | cons x r => exact .inr (.inl ⟨x, r, 0, rfl, rfl⟩)

theorem preview : Trunc w Mms.preview := by
  intro pre suf k
  cases h : pre[k]? with
  | none => exact .inl ⟨_, ⟨pre, k⟩, by simp [Mms.preview, h], .inl rfl⟩
  | some x =>
    have h2 : (pre ++ suf)[k]? = some x := by
      rw [List.getElem?_append_left (List.getElem?_eq_some_iff.mp h).1, h]
    exact .inr (.inl ⟨x, pre, k + 1, by simp [Mms.preview, h], by simp [Mms.preview, h2]⟩)

theorem reset : Trunc w Mms.resetPreview := fun pre _ _ => .inr (.inl ⟨(), pre, 0, rfl, rfl⟩)

theorem uintVarLoop (n : Nat) : Trunc w (fun s => Mms.uintVarLoop n s.rem) := by
  intro pre suf k
  induction pre generalizing n with
  | nil => exact .inl ⟨_, _, rfl, .inl rfl⟩
  | cons b r ih =>
    simp only [Mms.uintVarLoop, List.cons_append]
    split
    · exact ih _
    · exact .inr (.inl ⟨_, r, 0, rfl, rfl⟩)

theorem uintVar : Trunc w decodeUintVar := uintVarLoop 0

theorem textLoop (acc : Str) : Trunc w (fun s => Mms.textLoop acc s.rem) := by
  intro pre suf k
  induction pre generalizing acc with
  | nil => exact .inl ⟨_, _, rfl, .inl rfl⟩
  | cons b r ih =>
    simp only [Mms.textLoop, List.cons_append]
    split
    · exact ih _
    · exact .inr (.inl ⟨_, r, 0, rfl, rfl⟩)

theorem tokenLoop (acc : Str) : Trunc w (fun s => Mms.tokenLoop acc s.rem) := by
  intro pre suf k
  induction pre generalizing acc with
  | nil => exact .inl ⟨_, _, rfl, .inl rfl⟩
  | cons b r ih =>
    simp only [Mms.tokenLoop, List.cons_append]
    split
    · exact ih _
    · exact .inr (.inl ⟨_, r, 0, rfl, rfl⟩)

theorem text : Trunc w decodeTextString := by
  intro pre suf k
  cases pre with
  | nil => exact .inl ⟨_, _, rfl, .inl rfl⟩
  | cons b r =>
    by_cases hb : b = 127
    · subst hb
      exact textLoop [] r suf k
    · have e : ∀ t, decodeTextString ⟨b :: t, k⟩ = Mms.textLoop [] (b :: t) := by
        intro t
        unfold decodeTextString
        split
        · rename_i h
          simp at h
          exact absurd h.1 hb
        · rfl
      rw [List.cons_append, e, e]
      exact textLoop [] (b :: r) suf k

theorem longIntLoop (v n : Nat) : Trunc w (Mms.longIntLoop v n) := by
  induction n generalizing v with
  | zero => exact pure _
  | succ n ih => exact bind next (fun _ => ih _)

theorem nextN (n : Nat) : Trunc w (Mms.nextN n) := by
  induction n with
  | zero => exact pure _
  | succ n ih => exact bind next (fun _ => bind ih (fun _ => pure _))

theorem xrange (n : Nat) : Trunc w (xrangeCheck n) := by
  unfold xrangeCheck
  split
  · exact pure _
  · exact throw _

/-- assemble from the pieces -/
macro "trunc" : tactic => `(tactic| repeat' (first
  | exact pure _ | exact throw _ | exact lift _ | exact next | exact preview | exact reset | exact uintVar
  | exact text | exact textLoop _ | exact tokenLoop _ | exact longIntLoop _ _ | exact nextN _ | exact xrange _
  | exact onFresh _ _ | assumption
  | refine Trunc.bind ?_ (fun _ => ?_) | apply Trunc.orDE | split))

theorem shortInteger : Trunc w decodeShortInteger := by unfold decodeShortInteger; trunc
theorem shortLength : Trunc w decodeShortLength := by unfold decodeShortLength; trunc
theorem longInteger : Trunc w decodeLongInteger := bind shortLength (fun _ => longIntLoop _ _)
theorem integerValue : Trunc w decodeIntegerValue := orDE shortInteger longInteger
theorem quoted : Trunc w decodeQuotedString := by unfold decodeQuotedString; trunc
theorem token : Trunc w decodeTokenText := by unfold decodeTokenText; trunc
theorem extensionMedia : Trunc w decodeExtensionMedia := by unfold decodeExtensionMedia; trunc
theorem constrainedEncoding : Trunc w decodeConstrainedEncoding :=
  orDE (bind shortInteger fun _ => pure _) (bind extensionMedia fun _ => pure _)
theorem valueLength : Trunc w decodeValueLength := by
  unfold decodeValueLength
  exact orDE shortLength (by trunc)
theorem wellKnownMedia : Trunc w decodeWellKnownMedia := bind integerValue fun _ => lift _
theorem mediaType : Trunc w decodeMediaType := orDE wellKnownMedia extensionMedia
theorem constrainedMedia : Trunc w decodeConstrainedMedia := by
  unfold decodeConstrainedMedia
  exact bind constrainedEncoding (fun _ => by trunc)
theorem ite {p : Prop} [Decidable p] {a b : D α} (ha : Trunc w a) (hb : Trunc w b) : Trunc w (if p then a else b) := by
  split <;> assumption
theorem qValue : Trunc w decodeQValue :=
  bind uintVar fun _ => ite (ite (throw _) (pure _)) (pure _)
theorem version : Trunc w decodeVersionValue := orDE (bind shortInteger fun _ => pure _) text
theorem textValue : Trunc w decodeTextValue := orDE token (orDE quoted (pure _))
theorem noValue : Trunc w decodeNoValue := by unfold decodeNoValue; trunc
theorem date : Trunc w decodeDateValue := bind longInteger fun _ => lift _
theorem charset : Trunc w decodeWellKnownCharset := by
  unfold decodeWellKnownCharset
  have := integerValue (w := w)
  trunc
theorem typed (t : PType) : Trunc w (decodeTyped t) := by
  cases t <;> unfold decodeTyped
  · exact qValue
  · exact bind charset fun _ => pure _
  · exact bind version fun _ => pure _
  · exact bind integerValue fun _ => pure _
  · exact bind text fun _ => pure _
  · exact throw _
  · exact bind shortInteger fun _ => pure _
  · exact constrainedEncoding
  · exact bind integerValue fun _ => pure _
  · exact noValue
  · exact bind textValue fun _ => pure _
  · exact bind date fun _ => pure _
theorem wellKnownParameter (v : Str) : Trunc w (decodeWellKnownParameter v) := by
  unfold decodeWellKnownParameter
  exact bind integerValue (fun _ => by trunc)
theorem typedParameter : Trunc w decodeTypedParameter :=
  bind (wellKnownParameter _) fun _ => bind (typed _) fun _ => pure _
theorem untypedValue : Trunc w decodeUntypedValue :=
  orDE (bind integerValue fun _ => pure _) (bind textValue fun _ => pure _)
theorem untypedParameter : Trunc w decodeUntypedParameter :=
  bind token fun _ => bind untypedValue fun _ => pure _
theorem parameter : Trunc w decodeParameter := orDE typedParameter untypedParameter
theorem generalForm : Trunc w decodeContentGeneralForm := by
  unfold decodeContentGeneralForm
  exact bind valueLength (fun _ => by trunc)
theorem contentType : Trunc w decodeContentTypeValue := orDE (bind constrainedMedia fun _ => pure _) generalForm
theorem acceptTail (m : Str) : Trunc w (Mms.acceptTail m) := by
  unfold Mms.acceptTail
  have := parameter (w := w)
  have := qValue (w := w)
  trunc
theorem accept : Trunc w decodeAcceptValue :=
  orDE constrainedMedia (bind valueLength fun _ => bind (orDE wellKnownMedia extensionMedia) fun _ => acceptTail _)
theorem pragma : Trunc w decodePragmaValue := by
  unfold decodePragmaValue
  have := parameter (w := w)
  have := valueLength (w := w)
  trunc
theorem wapValue (n : Str) : Trunc w (decodeWapValue n) := by
  unfold decodeWapValue
  have := accept (w := w)
  have := pragma (w := w)
  trunc
theorem wellKnownHeader : Trunc w decodeWellKnownHeader := by
  unfold decodeWellKnownHeader
  refine bind shortInteger fun _ => bind (lift _) fun names => ?_
  split
  · exact throw _
  · exact bind (wapValue _) fun _ => pure _
theorem applicationHeader : Trunc w decodeApplicationHeader :=
  bind (orDE token text) fun _ => bind text fun _ => pure _
theorem wspHeader : Trunc w decodeWspHeader := orDE wellKnownHeader applicationHeader

theorem encodedString : Trunc w decodeEncodedStringValue := by
  unfold decodeEncodedStringValue
  refine orDE (bind valueLength fun _ => bind (rethrow charset _ _ ?_) fun _ => text) text
  rintro e (rfl | ⟨_, rfl⟩) h <;> simp at h
theorem boolean : Trunc w decodeBooleanValue := by unfold decodeBooleanValue; trunc
theorem deliveryTime : Trunc w decodeDeliveryTimeValue := by
  unfold decodeDeliveryTimeValue
  have := valueLength (w := w)
  have := longInteger (w := w)
  trunc
theorem fromValue : Trunc w decodeFromValue := by
  unfold decodeFromValue
  have := valueLength (w := w)
  have := encodedString (w := w)
  trunc
theorem messageClass : Trunc w decodeMessageClassValue := by
  unfold decodeMessageClassValue
  have := token (w := w)
  trunc
theorem messageType : Trunc w decodeMessageTypeValue := by unfold decodeMessageTypeValue; trunc
theorem priority : Trunc w decodePriorityValue := by unfold decodePriorityValue; trunc
theorem senderVisibility : Trunc w decodeSenderVisibilityValue := by unfold decodeSenderVisibilityValue; trunc
theorem responseStatus : Trunc w decodeResponseStatusValue := by unfold decodeResponseStatusValue; trunc
theorem status : Trunc w decodeStatusValue := by unfold decodeStatusValue; trunc
theorem expiry : Trunc w decodeExpiryValue := by
  unfold decodeExpiryValue
  have := valueLength (w := w)
  have := date (w := w)
  have : Trunc w decodeDeltaSecondsValue := integerValue
  trunc

theorem mmsValue (t : MType) : Trunc w (decodeMmsValue t) := by
  cases t <;> unfold decodeMmsValue
  · exact bind encodedString fun _ => pure _
  · exact bind text fun _ => pure _
  · exact bind contentType fun _ => pure _
  · exact bind date fun _ => pure _
  · exact bind boolean fun _ => pure _
  · exact bind deliveryTime fun _ => pure _
  · exact bind expiry fun _ => pure _
  · exact bind fromValue fun _ => pure _
  · exact bind messageClass fun _ => pure _
  · exact bind text fun _ => pure _
  · exact bind messageType fun _ => pure _
  · exact bind version fun _ => pure _
  · exact bind longInteger fun _ => pure _
  · exact bind priority fun _ => pure _
  · exact bind responseStatus fun _ => pure _
  · exact bind senderVisibility fun _ => pure _
  · exact bind status fun _ => pure _

theorem wrap {m : D α} (hw : w) (hm : Trunc w m) : Trunc w (wrapFatal m) :=
  rethrow hm _ _ (fun _ _ _ => .inr ⟨hw, rfl⟩)

theorem mmsHeader (hw : w) : Trunc w decodeMmsHeader := by
  unfold decodeMmsHeader
  refine bind preview fun _ => bind (lift _) fun _ => ?_
  split
  · exact bind next fun _ => bind (wrap hw (mmsValue _)) fun _ => pure _
  · trunc

theorem header (hw : w) : Trunc w decodeHeader := orDE (mmsHeader hw) wspHeader

theorem part : Trunc w decodePart := by
  unfold decodePart
  trunc

theorem partLoop (n : Nat) (acc : List DataPart) : Trunc w (Mms.partLoop n acc) := by
  induction n generalizing acc with
  | zero => exact pure _
  | succ n ih => exact bind part fun _ => ih _

end Trunc

end Verif.Mms

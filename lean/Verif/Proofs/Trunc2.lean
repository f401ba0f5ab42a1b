import Verif.Proofs.Trunc
/-!
# How many octets are left when a header stops for want of octets
-/
set_option autoImplicit false

namespace Verif.Mms

/-- after success the preview offset is at most `b`, after a DecodeError it is 0, and when the octets run out no
more than two are left (asked for only if `t`) -/
def FewAt (t : Prop) {α : Type} (b : Nat) : Res It α → Prop
  | .ok _ s' => s'.k ≤ b
  | .err e s' => (e = .decodeError → s'.k = 0) ∧ (t → e = .stopIteration → s'.rem.length ≤ 2)

/-- `FewAt`, from every preview offset of at most `j` -/
def Few (t : Prop) {α : Type} (j b : Nat) (m : D α) : Prop := ∀ s, s.k ≤ j → FewAt t b (m s)

namespace Few
variable {α β : Type} {t : Prop}

theorem atMono {r : Res It α} {b b' : Nat} (h : FewAt t b r) (hb : b ≤ b') : FewAt t b' r := by
  cases r with
  | ok a s => exact le_trans h hb
  | err e s => exact h

theorem mono {m : D α} {j b j' b' : Nat} (h : Few t j b m) (hj : j' ≤ j) (hb : b ≤ b') : Few t j' b' m :=
  fun s hs => atMono (h s (le_trans hs hj)) hb

theorem pure (a : α) (j : Nat) : Few t j j (Pure.pure a : D α) := fun _ hs => hs

theorem throw (e : PyErr) (j b : Nat) (he : e ≠ .stopIteration) (hj : e = .decodeError → j = 0) :
    Few t j b (M.throw e : D α) :=
  fun _ hs => ⟨fun h => Nat.le_zero.mp (hj h ▸ hs), fun _ h => absurd h he⟩

theorem lift (x : Py α) (j b : Nat) (hj : j ≤ b) (h1 : j = 0)
    (hx : x ≠ .error .stopIteration) : Few t j b (M.lift x : D α) := by
  cases x with
  | ok a => exact mono (pure a j) le_rfl hj
  | error e => exact throw e j b (by simpa using hx) (fun _ => h1)

theorem bind {m : D α} {f : α → D β} {j b c : Nat} (hm : Few t j b m) (hf : ∀ a, Few t b c (f a)) :
    Few t j c (m >>= f) := by
  intro s hs
  have h := hm s hs
  cases e : m s with
  | ok a s' =>
    rw [M.bind_ok e]
    rw [e] at h
    exact hf a s' h
  | err x s' =>
    rw [M.bind_err e]
    rw [e] at h
    exact h

theorem orDE {m h : D α} {j b : Nat} (hm : Few t j b m) (hh : Few t 0 b h) : Few t j b (orDecodeError m h) := by
  intro s hs
  have h1 := hm s hs
  cases e : m s with
  | ok a s' =>
    have : orDecodeError m h s = .ok a s' := by simp [orDecodeError, M.tryCatch, e]
    rw [this, ← e]
    exact h1
  | err x s' =>
    by_cases hx : x = .decodeError
    · subst hx
      have : orDecodeError m h s = h s' := by simp [orDecodeError, M.tryCatch, e]
      rw [this]
      rw [e] at h1
      exact hh s' (le_of_eq (h1.1 rfl))
    · have : orDecodeError m h s = .err x s' := by simp [orDecodeError, M.tryCatch, e, hx]
      rw [this, ← e]
      exact h1

/-- exceptions turned into another one -/
theorem rethrow {m : D α} {j b : Nat} (hm : Few t j b m) (p : PyErr → Bool) (e' : PyErr) (h1 : e' ≠ .stopIteration)
    (h2 : e' ≠ .decodeError) : Few t j b (M.tryCatch m p (fun _ => M.throw e')) := by
  intro s hs
  have h := hm s hs
  cases e : m s with
  | ok a s' =>
    have : M.tryCatch m p (fun _ => M.throw e') s = .ok a s' := by simp [M.tryCatch, e]
    rw [this, ← e]
    exact h
  | err x s' =>
    by_cases hx : p x = true
    · have : M.tryCatch m p (fun _ => M.throw e') s = .err e' s' := by simp [M.tryCatch, e, hx]
      rw [this]
      exact ⟨fun h => absurd h h2, fun _ h => absurd h h1⟩
    · have : M.tryCatch m p (fun _ => M.throw e') s = .err x s' := by simp [M.tryCatch, e, hx]
      rw [this, ← e]
      exact h

theorem ite {p : Prop} [Decidable p] {a b : D α} {j c : Nat} (ha : Few t j c a) (hb : Few t j c b) :
    Few t j c (if p then a else b) := by
  split <;> assumption

theorem next (j : Nat) : Few t j 0 Mms.next := by
  intro s hs
  unfold Mms.next
  split
  · exact ⟨fun h => (nomatch h), fun _ _ => Nat.zero_le _⟩
  · exact le_rfl

theorem preview (j : Nat) (hj : j ≤ 2) : Few t j (j + 1) Mms.preview := by
  intro s hs
  unfold Mms.preview
  split
  · exact Nat.succ_le_succ hs
  · rename_i h
    have hl := List.getElem?_eq_none_iff.mp h
    exact ⟨fun h => (nomatch h), fun _ _ => by omega⟩

theorem reset (j : Nat) : Few t j 0 Mms.resetPreview := fun _ _ => le_rfl

/-- what a loop that reads octets with `next` until one ends it comes to -/
def LoopAt (r : Res It α) : Prop := (∃ a l, r = .ok a ⟨l, 0⟩) ∨ r = .err .stopIteration ⟨[], 0⟩

theorem atLoop {r : Res It α} (h : LoopAt r) : FewAt t 0 r := by
  rcases h with ⟨a, l, rfl⟩ | rfl
  · exact le_rfl
  · exact ⟨fun h => (nomatch h), fun _ _ => Nat.zero_le _⟩

theorem uintVarLoop_at (n : Nat) (l : List Nat) : LoopAt (Mms.uintVarLoop n l) := by
  induction l generalizing n with
  | nil => exact .inr rfl
  | cons b r ih =>
    unfold Mms.uintVarLoop
    split
    · exact ih _
    · exact .inl ⟨_, _, rfl⟩

theorem textLoop_at (acc : Str) (l : List Nat) : LoopAt (Mms.textLoop acc l) := by
  induction l generalizing acc with
  | nil => exact .inr rfl
  | cons b r ih =>
    unfold Mms.textLoop
    split
    · exact ih _
    · exact .inl ⟨_, _, rfl⟩

theorem tokenLoop_at (acc : Str) (l : List Nat) : LoopAt (Mms.tokenLoop acc l) := by
  induction l generalizing acc with
  | nil => exact .inr rfl
  | cons b r ih =>
    unfold Mms.tokenLoop
    split
    · exact ih _
    · exact .inl ⟨_, _, rfl⟩

theorem uintVar (j : Nat) : Few t j 0 decodeUintVar := fun _ _ => atLoop (uintVarLoop_at _ _)
theorem textLoop (acc : Str) (j : Nat) : Few t j 0 (fun s => Mms.textLoop acc s.rem) :=
  fun _ _ => atLoop (textLoop_at _ _)
theorem tokenLoop (acc : Str) (j : Nat) : Few t j 0 (fun s => Mms.tokenLoop acc s.rem) :=
  fun _ _ => atLoop (tokenLoop_at _ _)
theorem text (j : Nat) : Few t j 0 decodeTextString := by
  intro s hs
  unfold decodeTextString
  split <;> exact atLoop (textLoop_at _ _)

theorem longIntLoop (v n : Nat) : Few t 0 0 (Mms.longIntLoop v n) := by
  induction n generalizing v with
  | zero => exact pure _ _
  | succ n ih => exact bind (next _) (fun _ => ih _)

theorem nextN (n : Nat) : Few t 0 0 (Mms.nextN n) := by
  induction n with
  | zero => exact pure _ _
  | succ n ih => exact bind (next _) (fun _ => bind ih (fun _ => pure _ _))

theorem xrange (n : Nat) : Few t 0 0 (xrangeCheck n) :=
  ite (pure _ _) (throw _ _ _ (by decide) (by decide))

theorem de : Few t 0 0 (M.throw .decodeError : D α) := throw _ _ _ (by decide) (fun _ => rfl)

theorem low {m : D α} (h : Few t 1 0 m) : Few t 0 0 m := mono h (by decide) le_rfl

/-- `reset_preview` and DecodeError -/
theorem refuse (j : Nat) : Few t j 0 (do resetPreview; M.throw .decodeError : D α) :=
  bind (reset j) (fun _ => de)

theorem onFresh (bytes : List Nat) (m : D α) : Few False 0 0 (Mms.onFresh bytes m) := by
  intro s hs
  cases e : m (It.new bytes) with
  | ok a s' =>
    have : Mms.onFresh bytes m s = .ok a s := by simp [Mms.onFresh, e]
    rw [this]
    exact hs
  | err x s' =>
    have : Mms.onFresh bytes m s = .err x s := by simp [Mms.onFresh, e]
    rw [this]
    exact ⟨fun _ => by omega, fun h => h.elim⟩

theorem shortInteger : Few t 1 0 decodeShortInteger :=
  bind (preview 1 (by decide)) fun _ => ite (refuse _) (bind (next _) fun _ => pure _ _)
theorem shortLength : Few t 1 0 decodeShortLength :=
  bind (preview 1 (by decide)) fun _ => ite (refuse _) (next _)
theorem longInteger : Few t 1 0 decodeLongInteger := bind shortLength fun _ => longIntLoop _ _
theorem integerValue : Few t 1 0 decodeIntegerValue := orDE shortInteger (low longInteger)
theorem quoted : Few t 1 0 decodeQuotedString :=
  bind (preview 1 (by decide)) fun _ => ite (refuse _) (bind (next _) fun _ => text _)
theorem token : Few t 1 0 decodeTokenText :=
  bind (preview 1 (by decide)) fun _ => ite (refuse _) (tokenLoop _ _)
theorem extensionMedia : Few t 1 0 decodeExtensionMedia :=
  bind (preview 1 (by decide)) fun _ => ite (refuse _) (textLoop _ _)
theorem constrainedEncoding : Few t 1 0 decodeConstrainedEncoding :=
  orDE (bind shortInteger fun _ => pure _ _) (bind (low extensionMedia) fun _ => pure _ _)
theorem valueLength : Few t 1 0 decodeValueLength :=
  orDE shortLength (bind (preview 0 (by decide)) fun _ => ite (bind (next _) fun _ => uintVar _) (refuse _))
theorem liftMedia (n : Nat) : Few t 0 0 (M.lift (mediaName n) : D Str) := by
  refine lift _ _ _ le_rfl rfl ?_
  unfold mediaName
  split <;> simp
theorem wellKnownMedia : Few t 1 0 decodeWellKnownMedia := bind integerValue fun _ => liftMedia _
theorem constrainedMedia : Few t 1 0 decodeConstrainedMedia := by
  refine bind constrainedEncoding fun v => ?_
  split
  · exact liftMedia _
  · exact pure _ _
  · exact de
theorem qRest (q c : Nat) : Few t 0 0 (if q > 100 then
    if q - 100 ≥ c then M.throw .overflowError
    else Pure.pure (.flt ((q : Int) - 100) 1000)
  else Pure.pure (.flt ((q : Int) - 1) 100) : D Val) :=
  ite (ite (throw _ _ _ (by decide) (by decide)) (pure _ _)) (pure _ _)
theorem qValue : Few t 1 0 decodeQValue := bind (uintVar _) fun q => qRest q _
theorem version : Few t 1 0 decodeVersionValue := orDE (bind shortInteger fun _ => pure _ _) (text _)
theorem textValue : Few t 0 0 decodeTextValue := orDE (low token) (orDE (low quoted) (pure _ _))
theorem date : Few t 1 0 decodeDateValue := by
  refine bind longInteger fun n => lift _ _ _ le_rfl rfl ?_
  unfold utcFromTimestamp
  split <;> simp
theorem charset : Few t 1 0 decodeWellKnownCharset := by
  refine bind (preview 1 (by decide)) fun _ => bind (reset _) fun _ => ite (bind (next _) fun _ => pure _ _) ?_
  refine bind (low integerValue) fun _ => ?_
  split <;> exact pure _ _
theorem typed (p : PType) : Few t 0 0 (decodeTyped p) := by
  cases p <;> unfold decodeTyped
  · exact low qValue
  · exact bind (low charset) fun _ => pure _ _
  · exact bind (low version) fun _ => pure _ _
  · exact bind (low integerValue) fun _ => pure _ _
  · exact bind (text _) fun _ => pure _ _
  · exact throw _ _ _ (by decide) (by decide)
  · exact bind (low shortInteger) fun _ => pure _ _
  · exact low constrainedEncoding
  · exact bind (low integerValue) fun _ => pure _ _
  · exact bind (next _) fun _ => throw _ _ _ (by decide) (by decide)
  · exact bind textValue fun _ => pure _ _
  · exact bind (low date) fun _ => pure _ _
theorem wellKnownParameter (v : Str) (hv : getWellKnownParameters v ≠ .error .stopIteration) :
    Few t 1 0 (decodeWellKnownParameter v) := by
  refine bind integerValue fun n => bind (lift _ _ _ le_rfl rfl hv) fun _ => ?_
  split
  · exact pure _ _
  · exact de
theorem typedParameter : Few t 1 0 decodeTypedParameter :=
  bind (wellKnownParameter _ (by decide +kernel)) fun _ => bind (typed _) fun _ => pure _ _
theorem untypedValue : Few t 0 0 decodeUntypedValue :=
  orDE (bind (low integerValue) fun _ => pure _ _) (bind textValue fun _ => pure _ _)
theorem untypedParameter : Few t 0 0 decodeUntypedParameter :=
  bind (low token) fun _ => bind untypedValue fun _ => pure _ _
theorem parameter : Few t 1 0 decodeParameter := orDE typedParameter untypedParameter
theorem generalForm : Few False 0 0 decodeContentGeneralForm :=
  bind (low valueLength) fun _ => bind (xrange _) fun _ => bind (nextN _) fun _ => onFresh _ _
theorem contentType : Few False 1 0 decodeContentTypeValue :=
  orDE (bind constrainedMedia fun _ => pure _ _) generalForm
theorem acceptTail (m : Str) : Few t 0 0 (Mms.acceptTail m) :=
  bind (preview 0 (by decide)) fun _ => ite
    (bind (next _) fun _ => bind (low qValue) fun _ =>
      bind (orDE (bind (low parameter) fun _ => pure _ _) (pure _ _)) fun _ =>
      bind (reset _) fun _ => pure _ _)
    (bind (reset _) fun _ => pure _ _)
theorem accept : Few t 0 0 decodeAcceptValue :=
  orDE (low constrainedMedia) (bind (low valueLength) fun _ =>
    bind (orDE (low wellKnownMedia) (low extensionMedia)) fun _ => acceptTail _)
theorem pragma : Few t 0 0 decodePragmaValue :=
  bind (preview 0 (by decide)) fun _ => ite (bind (next _) fun _ => pure _ _)
    (bind (reset _) fun _ => bind (low valueLength) fun _ => low parameter)
theorem wapValue (n : Str) : Few t 0 0 (decodeWapValue n) :=
  ite (bind accept fun _ => pure _ _) (ite (bind pragma fun _ => pure _ _) (bind (text _) fun _ => pure _ _))
theorem wellKnownHeader : Few t 1 0 decodeWellKnownHeader := by
  refine bind shortInteger fun _ => bind (lift _ _ _ le_rfl rfl (by decide +kernel)) fun names => ?_
  split
  · exact de
  · exact bind (wapValue _) fun _ => pure _ _
theorem wspHeader : Few t 1 0 decodeWspHeader :=
  orDE wellKnownHeader (bind (orDE (low token) (text _)) fun _ => bind (text _) fun _ => pure _ _)

theorem encodedString : Few t 0 0 decodeEncodedStringValue :=
  orDE (bind (low valueLength) fun _ =>
    bind (rethrow (low charset) _ _ (by decide) (by decide)) fun _ => text _) (text _)
theorem mmsValue (p : MType) : Few False 0 0 (decodeMmsValue p) := by
  cases p <;> unfold decodeMmsValue
  · exact bind encodedString fun _ => pure _ _
  · exact bind (text _) fun _ => pure _ _
  · exact bind (low contentType) fun _ => pure _ _
  · exact bind (low date) fun _ => pure _ _
  · exact bind (bind (preview 0 (by decide)) fun _ => ite (refuse _) (bind (next _) fun _ => pure _ _)) fun _ => pure _ _
  · exact bind (bind (low valueLength) fun _ => bind (next _) fun _ => bind (low longInteger) fun _ =>
      ite (pure _ _) (ite (pure _ _) de)) fun _ => pure _ _
  · exact bind (bind (low valueLength) fun _ => bind (next _) fun _ =>
      ite (bind (low date) fun _ => pure _ _) (ite (bind (low integerValue) fun _ => pure _ _) de)) fun _ => pure _ _
  · exact bind (bind (low valueLength) fun _ => bind (next _) fun _ => ite (pure _ _) encodedString) fun _ => pure _ _
  · refine bind (bind (preview 0 (by decide)) fun _ => ?_) fun _ => pure _ _
    split
    · exact bind (next _) fun _ => pure _ _
    · exact bind (reset _) fun _ => low token
  · exact bind (text _) fun _ => pure _ _
  · refine bind (bind (preview 0 (by decide)) fun _ => ?_) fun _ => pure _ _
    split
    · exact bind (next _) fun _ => pure _ _
    · exact bind (reset _) fun _ => pure _ _
  · exact bind (low version) fun _ => pure _ _
  · exact bind (low longInteger) fun _ => pure _ _
  · refine bind (bind (preview 0 (by decide)) fun _ => ?_) fun _ => pure _ _
    split
    · exact bind (next _) fun _ => pure _ _
    · exact refuse _
  · refine bind (bind (preview 0 (by decide)) fun _ => bind (next _) fun _ => ?_) fun _ => pure _ _
    split <;> exact pure _ _
  · exact bind (bind (preview 0 (by decide)) fun _ => ite (refuse _) (bind (next _) fun _ => pure _ _)) fun _ => pure _ _
  · refine bind (bind (next _) fun _ => ?_) fun _ => pure _ _
    split <;> exact pure _ _

theorem wrap {m : D α} {j b : Nat} (hm : Few False j b m) : Few t j b (wrapFatal m) := by
  intro s hs
  have h := hm s hs
  unfold wrapFatal M.tryCatch
  cases e : m s with
  | ok a s' => rw [e] at h; exact h
  | err x s' =>
    rw [e] at h
    dsimp only
    split
    · exact ⟨fun h => (nomatch h), fun _ h => (nomatch h)⟩
    · rename_i hx
      refine ⟨h.1, fun _ hx' => ?_⟩
      subst hx'
      exact absurd (by decide) hx

/-- a header, read from offset 0 -/
theorem header (s : It) (hs : s.k = 0) : FewAt t 0 (decodeHeader s) := by
  have key : FewAt t 0 (decodeMmsHeader s) ∨
      ∃ s', decodeMmsHeader s = .err .decodeError s' ∧ s'.k ≤ 1 := by
    have hp := preview (t := t) 0 (by decide) s (le_of_eq hs)
    cases e : Mms.preview s with
    | err x s' =>
      left
      unfold decodeMmsHeader
      rw [M.bind_err e]
      rw [e] at hp
      exact hp
    | ok p s' =>
      rw [e] at hp
      unfold decodeMmsHeader
      rw [M.bind_ok e]
      cases e2 : decodeShortIntegerFromByte p with
      | error x =>
        right
        have : x = .decodeError := by
          unfold decodeShortIntegerFromByte at e2
          split at e2 <;> cases e2
          rfl
        subst this
        exact ⟨s', by rw [M.bind_err (M.lift_error _ _)], hp⟩
      | ok b =>
        left
        rw [M.bind_ok (M.lift_ok _ _)]
        cases lookupNum mmsFieldNames b with
        | some x => exact bind (next 1) (fun _ => bind (wrap (mmsValue _)) fun _ => pure _ _) s' hp
        | none => exact refuse 1 s' hp
  rcases key with h | ⟨s', h, hk⟩
  · unfold decodeHeader orDecodeError M.tryCatch
    cases e : decodeMmsHeader s with
    | ok a s' => rw [e] at h; exact h
    | err x s' =>
      rw [e] at h
      dsimp only
      split
      · rename_i hx
        have : x = .decodeError := by simpa using hx
        exact low wspHeader s' (le_of_eq (h.1 this))
      · exact h
  · have : decodeHeader s = decodeWspHeader s' := by simp [decodeHeader, orDecodeError, M.tryCatch, h]
    rw [this]
    exact wspHeader s' hk

end Few

end Verif.Mms

import Verif.Proofs.Trunc3
import Verif.Proofs.ReadAs
/-!
# Headers of a message that are cut short
-/
set_option autoImplicit false

namespace Verif.Mms
open Verif.Spec.Wsp Verif.Spec.Mms

/-- octets that are the number of an MMS field and a value of its type -/
def IsField (l : List Nat) : Prop := ∃ n name ty v body, l = (0x80 + n) :: body ∧ n < 128 ∧
  lookupNum mmsFieldNames n = some (name, ty) ∧ ∀ rest, decodeMmsValue ty ⟨body ++ rest, 0⟩ = .ok v ⟨rest, 0⟩

theorem isField_mk {n : Nat} {name : Str} {ty : MType} {v : HVal} {body : List Nat} (hn : n < 128)
    (hl : lookupNum mmsFieldNames n = some (name, ty))
    (hv : ∀ rest, decodeMmsValue ty ⟨body ++ rest, 0⟩ = .ok v ⟨rest, 0⟩) : IsField ((0x80 + n) :: body) :=
  ⟨n, name, ty, v, body, rfl, hn, hl, hv⟩

theorem hdr_isField {h : Hdr} (hw : h.WF) (ha : ∀ n v, h ≠ .app n v) : IsField h.enc := by
  cases h with
  | str f s =>
    have hv : ∀ rest, decodeMmsValue .encodedStringValue ⟨text s ++ rest, 0⟩ = .ok (.v (.str s)) ⟨rest, 0⟩ :=
      fun rest =>
      mmsValue_str rfl (encodedString_plain hw rest)
    cases f <;> exact isField_mk (ty := .encodedStringValue) (by decide) rfl hv
  | strCs f c s =>
    have hv : ∀ rest, decodeMmsValue .encodedStringValue ⟨sized (c.enc ++ text s) ++ rest, 0⟩ = .ok (.v (.str s)) ⟨rest, 0⟩ :=
      fun rest =>
      mmsValue_str rfl (encodedString_cs hw.1 hw.2 rest)
    cases f <;> exact isField_mk (ty := .encodedStringValue) (by decide) rfl hv
  | contentLocation s =>
    exact isField_mk (n := 3) (by decide) rfl (fun rest => mmsValue_str rfl (decodeTextString_text s hw rest 0))
  | date d o =>
    refine isField_mk (v := (Hdr.date d o).value) (n := 5) (ty := .dateValue) (by decide) rfl (fun rest => ?_)
    show (do let d ← decodeDateValue; pure (HVal.v (.dt d)) : D HVal) _ = _
    rw [M.bind_ok (date_ok hw rest)]; rfl
  | bool f b =>
    have hv : ∀ rest, decodeMmsValue .booleanValue ⟨[if b then 128 else 129] ++ rest, 0⟩ = .ok (.v (.bool b)) ⟨rest, 0⟩ :=
      fun rest => by
      show (do let d ← decodeBooleanValue; pure (HVal.v (.bool d)) : D HVal) _ = _
      rw [List.cons_append, List.nil_append, M.bind_ok (bool_ok b rest)]; rfl
    cases f <;> exact isField_mk (ty := .booleanValue) (by decide) rfl hv
  | deliveryAbs o =>
    refine isField_mk (v := (Hdr.deliveryAbs o).value) (n := 7) (ty := .deliveryTimeValue) (by decide) rfl (fun rest => ?_)
    show (do let (t, n) ← decodeDeliveryTimeValue; pure (HVal.tup t (.int n)) : D HVal) _ = _
    rw [M.bind_ok (delivery_ok hw (Or.inl rfl) rest)]; rfl
  | deliveryRel o =>
    refine isField_mk (v := (Hdr.deliveryRel o).value) (n := 7) (ty := .deliveryTimeValue) (by decide) rfl (fun rest => ?_)
    show (do let (t, n) ← decodeDeliveryTimeValue; pure (HVal.tup t (.int n)) : D HVal) _ = _
    rw [M.bind_ok (delivery_ok hw (Or.inr rfl) rest)]; rfl
  | expiryAbs d o =>
    exact isField_mk (n := 8) (by decide) rfl (fun rest => mmsValue_val rfl (expiryAbs_ok hw rest))
  | expiryRel i =>
    exact isField_mk (n := 8) (by decide) rfl (fun rest => mmsValue_val rfl (expiryRel_ok hw rest))
  | fromInsert =>
    exact isField_mk (n := 9) (by decide) rfl (fun rest => mmsValue_str rfl (fromInsert_ok rest))
  | fromAddr s =>
    exact isField_mk (n := 9) (by decide) rfl (fun rest => mmsValue_str rfl (fromAddr_ok (encodedString_plain hw rest)))
  | fromCs c s =>
    exact isField_mk (n := 9) (by decide) rfl
      (fun rest => mmsValue_str rfl (fromAddr_ok (encodedString_cs hw.1 hw.2 rest)))
  | classId i =>
    exact isField_mk (n := 10) (by decide) rfl (fun rest => mmsValue_str (ty := .messageClassValue) rfl (classId_ok hw rest))
  | classToken s =>
    refine isField_mk (v := (Hdr.classToken s).value) (n := 10) (by decide) rfl (fun rest =>
      mmsValue_str (s := s) (ty := .messageClassValue) rfl ?_)
    rw [List.append_assoc]
    exact classToken_ok hw rest
  | messageId s =>
    exact isField_mk (n := 11) (by decide) rfl (fun rest => mmsValue_str rfl (decodeTextString_text s hw rest 0))
  | transactionId s =>
    exact isField_mk (n := 24) (by decide) rfl (fun rest => mmsValue_str rfl (decodeTextString_text s hw rest 0))
  | messageType i =>
    exact isField_mk (n := 12) (by decide) rfl (fun rest => mmsValue_str (ty := .messageTypeValue) rfl (messageType_ok hw rest))
  | version a b =>
    exact isField_mk (n := 13) (by decide) rfl (fun rest => mmsValue_str rfl (version_ok hw.1 hw.2.1 hw.2.2 rest))
  | size o =>
    refine isField_mk (v := (Hdr.size o).value) (n := 14) (ty := .longInteger) (by decide) rfl (fun rest => ?_)
    show (do let n ← decodeLongInteger; pure (HVal.v (.int n)) : D HVal) _ = _
    rw [M.bind_ok (decodeLongInteger_ok o hw.1 hw.2 rest)]; rfl
  | priority i =>
    exact isField_mk (n := 15) (by decide) rfl (fun rest => mmsValue_str (ty := .priorityValue) rfl (priority_ok hw rest))
  | responseStatus i =>
    exact isField_mk (n := 18) (by decide) rfl
      (fun rest => mmsValue_val (ty := .responseStatusValue) rfl (responseStatus_ok hw rest))
  | visibility b =>
    exact isField_mk (n := 20) (by decide) rfl
      (fun rest => mmsValue_str (ty := .senderVisibilityValue) rfl (visibility_ok b rest))
  | status i =>
    exact isField_mk (n := 21) (by decide) rfl (fun rest => mmsValue_val (ty := .statusValue) rfl (status_ok hw rest))
  | app n v => exact absurd rfl (ha n v)
  | deliveryRelShort _ => exact hw.elim
  | versionMajor _ => exact hw.elim

theorem ctype_isField {c : CType} (hc : c.WF) : IsField (0x84 :: c.enc) := by
  refine isField_mk (v := .ct c.media c.params) (n := 4) (ty := .contentTypeValue) (by decide) (by rfl) (fun rest => ?_)
  show (decodeContentTypeValue >>= fun x => pure (HVal.ct x.1 x.2)) _ = _
  rw [M.bind_ok (ctype_ok hc rest)]
  rfl

/-- a field of which only the beginning has arrived -/
theorem field_cut {l : List Nat} (h : IsField l) {k : Nat} (h0 : 0 < k) (hk : k < l.length) :
    ∃ s, decodeHeader ⟨l.take k, 0⟩ = .err .runtimeError s := by
  obtain ⟨n, name, ty, v, body, rfl, hn, hl, hv⟩ := h
  obtain ⟨j, rfl⟩ : ∃ j, k = j + 1 := ⟨k - 1, by omega⟩
  have hj : j < body.length := by simpa using hk
  rw [List.take_succ_cons]
  have hbody : body.take j ++ body.drop j = body := List.take_append_drop _ _
  have hval : ∃ s, decodeMmsValue ty ⟨body.take j, 0⟩ = .err .stopIteration s := by
    have h1 := hv []
    rw [List.append_nil] at h1
    rcases (Trunc.mmsValue (w := False) ty) (body.take j) (body.drop j) 0 with ⟨e, s, he, hs⟩ | ⟨a, r, i, _, h2⟩ | ⟨e, r, i, _, h2⟩
    · rcases hs with rfl | ⟨h, _⟩
      · exact ⟨s, he⟩
      · exact h.elim
    · rw [hbody, h1] at h2
      injection h2 with _ h2
      injection h2 with h2 _
      have := congrArg List.length h2
      simp at this
      omega
    · rw [hbody, h1] at h2
      cases h2
  obtain ⟨s, hval⟩ := hval
  have hm : decodeMmsHeader ⟨(0x80 + n) :: body.take j, 0⟩ = .err .runtimeError s := by
    unfold decodeMmsHeader
    rw [M.bind_ok (preview_zero _ _), fromByte_ok (by omega) (by omega), M.bind_ok (M.lift_ok _ _),
      show 0x80 + n - 128 = n by omega, hl]
    simp only []
    rw [M.bind_ok (next_cons _ _ _)]
    apply M.bind_err
    unfold wrapFatal M.tryCatch
    rw [hval]
    rfl
  refine ⟨s, ?_⟩
  unfold decodeHeader orDecodeError M.tryCatch
  rw [hm]
  rfl

theorem textLoop_starved (l : List Nat) (h : 0 ∉ l) (acc : Str) : textLoop acc l = .err .stopIteration ⟨[], 0⟩ := by
  induction l generalizing acc with
  | nil => rfl
  | cons c l ih =>
    have hc : c ≠ 0 := fun e => h (by simp [e])
    simp only [textLoop, ne_eq, hc, not_false_eq_true, if_true]
    exact ih (fun e => h (by simp [e])) _

theorem textString_starved (l : List Nat) (h : 0 ∉ l) : decodeTextString ⟨l, 0⟩ = .err .stopIteration ⟨[], 0⟩ := by
  unfold decodeTextString
  simp only []
  split
  · exact textLoop_starved _ (fun e => h (by simp [e])) _
  · exact textLoop_starved _ h _

theorem tokenLoop_starved (l : List Nat) (h : ∀ c ∈ l, 31 < c ∧ c ∉ separators) (acc : Str) :
    tokenLoop acc l = .err .stopIteration ⟨[], 0⟩ := by
  induction l generalizing acc with
  | nil => rfl
  | cons c l ih =>
    rw [tokenLoop, if_pos (h c (by simp))]
    exact ih (fun x hx => h x (by simp [hx])) _

/-- an application header of which at least two octets have arrived, but not all -/
theorem app_cut {n v : List Nat} (hn : IsToken n) (hv : IsText v) {k : Nat} (h2 : 2 ≤ k)
    (hk : k < (Hdr.app n v).enc.length) :
    decodeHeader ⟨((Hdr.app n v).enc).take k, 0⟩ = .err .stopIteration ⟨[], 0⟩ := by
  have henc : (Hdr.app n v).enc = n ++ 0 :: text v := rfl
  have htok : ∀ c ∈ n, 31 < c ∧ c ∉ separators := fun c hc => by
    have := isTokenChar_sep (hn.2 c hc); exact ⟨this.1, this.2.1⟩
  have h128 : ∀ c ∈ n ++ [0], c < 128 := fun c hc => by
    rcases List.mem_append.1 hc with hc | hc
    · have := (isTokenChar_sep (hn.2 c hc)).2.2; omega
    · rw [List.mem_singleton] at hc; omega
  obtain ⟨c, d, r, hl, hc, hd⟩ : ∃ c d r, ((Hdr.app n v).enc).take k = c :: d :: r ∧ c < 128 ∧ d < 128 := by
    obtain ⟨j, rfl⟩ : ∃ j, k = j + 2 := ⟨k - 2, by omega⟩
    rw [henc]
    obtain ⟨c, t, rfl, _, _, _⟩ := token_head hn
    cases t with
    | nil => exact ⟨c, 0, _, rfl, h128 c (by simp), by decide⟩
    | cons d t => exact ⟨c, d, _, rfl, h128 c (by simp), h128 d (by simp)⟩
  have happ : decodeApplicationHeader ⟨((Hdr.app n v).enc).take k, 0⟩ = .err .stopIteration ⟨[], 0⟩ := by
    rw [henc] at hk ⊢
    by_cases hkn : k ≤ n.length
    · rw [List.take_append_of_le_length hkn]
      have ht : ∀ c ∈ n.take k, 31 < c ∧ c ∉ separators := fun c hc => htok c (List.mem_of_mem_take hc)
      have hne : n.take k ≠ [] := by
        rw [ne_eq, List.take_eq_nil_iff]
        rintro (h | h)
        · omega
        · exact hn.1 h
      obtain ⟨c, t, hct⟩ := List.exists_cons_of_ne_nil hne
      rw [hct] at ht ⊢
      unfold decodeApplicationHeader
      apply M.bind_err
      have : decodeTokenText ⟨c :: t, 0⟩ = .err .stopIteration ⟨[], 0⟩ := by
        unfold decodeTokenText
        have hc := ht c (by simp)
        rw [M.bind_ok (preview_zero _ _), if_neg (by rintro (h | h); · omega
                                                     · exact hc.2 h)]
        exact tokenLoop_starved _ ht _
      unfold orDecodeError M.tryCatch
      rw [this]
      rfl
    · obtain ⟨j, rfl⟩ : ∃ j, k = n.length + (j + 1) := ⟨k - n.length - 1, by omega⟩
      rw [List.take_length_add_append, List.take_succ_cons]
      unfold decodeApplicationHeader
      rw [M.bind_ok (orDE_ok (decodeTokenText_token hn _))]
      apply M.bind_err
      apply textString_starved
      have hj : j < (text v).length := by simp at hk; omega
      have htext : text v = (text v).dropLast ++ [0] := by
        unfold text
        rw [List.dropLast_concat]
      have hlen : (text v).length = (text v).dropLast.length + 1 := by
        conv => lhs; rw [htext]
        simp
      have h0 : 0 ∉ (text v).dropLast := by
        have hv : 0 ∉ v := hv
        unfold text
        rw [List.dropLast_concat]
        cases v with
        | nil => simp
        | cons c r =>
          simp only []
          split
          · simpa using hv
          · simpa using hv
      rw [htext, List.take_append_of_le_length (by omega)]
      exact fun h => h0 (List.mem_of_mem_take h)
  have hm : decodeMmsHeader ⟨c :: d :: r, 0⟩ = .err .decodeError ⟨c :: d :: r, 1⟩ := by
    unfold decodeMmsHeader
    rw [M.bind_ok (preview_zero _ _), fromByte_err hc]
    rfl
  have hw : decodeWellKnownHeader ⟨c :: d :: r, 1⟩ = .err .decodeError ⟨c :: d :: r, 0⟩ := by
    have hs : decodeShortInteger ⟨c :: d :: r, 1⟩ = .err .decodeError ⟨c :: d :: r, 0⟩ := by
      have hp : preview ⟨c :: d :: r, 1⟩ = .ok d ⟨c :: d :: r, 2⟩ := rfl
      unfold decodeShortInteger
      rw [M.bind_ok hp, if_pos ((and_80 (by omega)).2 hd), M.bind_ok (resetPreview_apply _)]
      rfl
    unfold decodeWellKnownHeader
    rw [M.bind_err hs]
  rw [hl] at happ ⊢
  unfold decodeHeader decodeWspHeader
  rw [orDE_err hm, orDE_err hw]
  exact happ

/-- an application header of which only the first octet has arrived: it is still there -/
theorem app_first {n v : List Nat} (hn : IsToken n) :
    ∃ c, 32 < c ∧ c < 127 ∧ ((Hdr.app n v).enc).take 1 = [c] ∧ decodeHeader ⟨[c], 0⟩ = .err .stopIteration ⟨[c], 1⟩ := by
  obtain ⟨c, t, rfl, h1, h2, h3⟩ := token_head hn
  have h32 : c ≠ 32 := by rintro rfl; exact h3 (by decide)
  refine ⟨c, by omega, h2, rfl, ?_⟩
  have hm : decodeMmsHeader ⟨[c], 0⟩ = .err .decodeError ⟨[c], 1⟩ := by
    unfold decodeMmsHeader
    rw [M.bind_ok (preview_zero _ _), fromByte_err (by omega)]
    rfl
  unfold decodeHeader
  rw [orDE_err hm]
  rfl

end Verif.Mms

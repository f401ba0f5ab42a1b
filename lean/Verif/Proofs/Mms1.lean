import Verif.Model.MmsPdu
import Verif.Spec.Mms
import Verif.Proofs.Wsp3
import Verif.Proofs.Calendar
/-!
# Lemmas: conformant MMS headers and content types are decoded to their values
-/
set_option autoImplicit false

namespace Verif.Mms
open Verif.Spec.Wsp Verif.Spec.Mms

theorem wrapFatal_ok {α : Type} {m : D α} {s s' : It} {a : α} (h : m s = .ok a s') : wrapFatal m s = .ok a s' := by
  unfold wrapFatal M.tryCatch; rw [h]

theorem fromByte_ok {b : Nat} (h1 : 128 ≤ b) (h2 : b < 256) : decodeShortIntegerFromByte b = .ok (b - 128) := by
  have : ¬ (b &&& 0x80 = 0) := by rw [and_80 h2]; omega
  unfold decodeShortIntegerFromByte
  rw [if_neg this, and_7f, show b % 128 = b - 128 by omega]

theorem fromByte_err {b : Nat} (h : b < 128) : decodeShortIntegerFromByte b = .error .decodeError := by
  unfold decodeShortIntegerFromByte
  rw [if_pos ((and_80 (by omega)).2 h)]

theorem decodeHeader_field {n : Nat} {name : Str} {ty : MType} {v : HVal} {body rest : List Nat} (hn : n < 128)
    (hl : lookupNum mmsFieldNames n = some (name, ty))
    (hv : decodeMmsValue ty ⟨body ++ rest, 0⟩ = .ok v ⟨rest, 0⟩) :
    decodeHeader ⟨(0x80 + n) :: body ++ rest, 0⟩ = .ok (name, v) ⟨rest, 0⟩ := by
  unfold decodeHeader
  apply orDE_ok
  unfold decodeMmsHeader
  rw [List.cons_append, M.bind_ok (preview_zero _ _), fromByte_ok (by omega) (by omega), M.bind_ok (M.lift_ok _ _),
    show 0x80 + n - 128 = n by omega, hl]
  simp only []
  rw [M.bind_ok (next_cons _ _ _), M.bind_ok (wrapFatal_ok hv)]
  rfl

/-! ### pieces -/

theorem intEnc_ok {i : IntEnc} (h : i.WF) (rest : List Nat) :
    decodeIntegerValue ⟨i.enc ++ rest, 0⟩ = .ok i.val ⟨rest, 0⟩ := by
  cases i with
  | short n =>
    have h : n < 128 := h
    have := decodeIntegerValue_short (b := 128 + n) (by omega) (by omega) rest
    rw [show 128 + n - 128 = n by omega] at this
    exact this
  | long o => exact decodeIntegerValue_long o h.1 h.2 rest

theorem intEnc_ne_nil (i : IntEnc) : i.enc ≠ [] := by cases i <;> simp [IntEnc.enc, shortInt, longInt]

theorem intEnc_head {i : IntEnc} (h : i.WF) : ∃ b t, i.enc = b :: t ∧ b ≠ 127 := by
  cases i with
  | short n => exact ⟨128 + n, [], rfl, by omega⟩
  | long o => exact ⟨o.length, o, rfl, by have := h.1; omega⟩

theorem decodeWellKnownCharset_int {i : IntEnc} (h : i.WF) (rest : List Nat) :
    decodeWellKnownCharset ⟨i.enc ++ rest, 0⟩ = .ok (match lookupNum wellKnownCharsets i.val with
      | some s => s | none => natStr i.val) ⟨rest, 0⟩ := by
  have hd := intEnc_ok h rest
  obtain ⟨b, t, he, hb⟩ := intEnc_head h
  rw [he, List.cons_append] at hd ⊢
  unfold decodeWellKnownCharset
  rw [M.bind_ok (preview_zero _ _), M.bind_ok (resetPreview_apply _), if_neg hb, M.bind_ok hd]
  cases lookupNum wellKnownCharsets i.val <;> rfl

theorem text_head {s : List Nat} (h : IsPrintText s) : ∃ b t, text s = b :: t ∧ 31 < b ∧ b ≤ 127 := by
  obtain ⟨_, c, hc, h32⟩ := h
  cases s with
  | nil => cases hc
  | cons d s =>
    injection hc with hc
    subst hc
    unfold text
    by_cases h : d ≥ 127
    · simp only [if_pos h]; exact ⟨127, _, rfl, by omega⟩
    · simp only [if_neg h]; exact ⟨d, _, rfl, by omega⟩

theorem encodedString_plain {s : List Nat} (h : IsPrintText s) (rest : List Nat) :
    decodeEncodedStringValue ⟨text s ++ rest, 0⟩ = .ok s ⟨rest, 0⟩ := by
  have ht := decodeTextString_text s h.1 rest 0
  obtain ⟨b, t, he, h1, h2⟩ := text_head h
  rw [he, List.cons_append] at ht ⊢
  unfold decodeEncodedStringValue
  rw [orDE_err (M.bind_err (decodeValueLength_err h1 _))]
  exact ht

theorem tryCatch_ok {σ α : Type} {m : M σ α} {p : PyErr → Bool} {h : PyErr → M σ α} {s s' : σ} {a : α}
    (e : m s = .ok a s') : M.tryCatch m p h s = .ok a s' := by
  unfold M.tryCatch; rw [e]

theorem encodedString_cs {c : IntEnc} {s : List Nat} (hc : c.WF) (hs : IsText s) (rest : List Nat) :
    decodeEncodedStringValue ⟨sized (c.enc ++ text s) ++ rest, 0⟩ = .ok s ⟨rest, 0⟩ := by
  unfold decodeEncodedStringValue sized
  apply orDE_ok
  rw [List.append_assoc, M.bind_ok (decodeValueLength_ok _ _), List.append_assoc,
    M.bind_ok (tryCatch_ok (decodeWellKnownCharset_int hc _))]
  exact decodeTextString_text s hs rest 0

theorem decodeTokenText_token {s : List Nat} (h : IsToken s) (rest : List Nat) :
    decodeTokenText ⟨s ++ 0 :: rest, 0⟩ = .ok s ⟨rest, 0⟩ :=
  decodeTokenText_ok s h.1 (fun c hc => by have := isTokenChar_sep (h.2 c hc); exact ⟨this.1, this.2.1⟩) rest

theorem token_head {s : List Nat} (h : IsToken s) : ∃ c t, s = c :: t ∧ 31 < c ∧ c < 127 ∧ c ∉ separators := by
  obtain ⟨hne, hc⟩ := h
  cases s with
  | nil => exact absurd rfl hne
  | cons c t =>
    have := isTokenChar_sep (hc c (by simp))
    exact ⟨c, t, rfl, this.1, this.2.2, this.2.1⟩

theorem dec_eq (n : Nat) : dec n = natStr n := by
  induction n using Nat.strongRecOn with
  | _ n ih =>
    rw [dec, natStr]
    by_cases h : n < 10
    · rw [if_pos h, if_pos h]
    · rw [if_neg h, if_neg h, ih (n / 10) (by omega)]

theorem dotted_eq (a b : Nat) : dotted a b = versionStr a b := by
  unfold dotted versionStr; rw [dec_eq, dec_eq]

theorem version_ok {a b : Nat} (h1 : 1 ≤ a) (h2 : a ≤ 7) (h3 : b ≤ 14) (rest : List Nat) :
    decodeVersionValue ⟨shortInt (16 * a + b) ++ rest, 0⟩ = .ok (dotted a b) ⟨rest, 0⟩ := by
  unfold shortInt
  rw [List.cons_append, List.nil_append, decodeVersionValue_octet (by omega) (by omega), dotted_eq,
    show (128 + (16 * a + b) - 128) / 16 = a by omega, show (128 + (16 * a + b)) % 16 = b by omega]

/-! ### dates -/

theorem epoch_secs : ∀ d : DateTime, Cal.civil d = ⟨d.year, d.month, d.day, d.hour, d.minute, d.second⟩ := fun _ => rfl

theorem utcFromTimestamp_ok {d : DateTime} {o : List Nat} (h : IsDate d o) : utcFromTimestamp (beVal o) = .ok d := by
  obtain ⟨_, hv, hoff, hy, hu⟩ := h
  have hlt : beVal o < 253402300800 := by
    have hc : (Spec.Time.Civil.mk d.year d.month d.day d.hour d.minute d.second).seconds < 315537897600 := by
      have hd := Cal.doy_lt hv
      have hyl : Spec.Time.yearStart d.year + (if Spec.Time.Leap d.year then 366 else 365) ≤ Spec.Time.yearStart 10000 :=
        Cal.yearStart_lt hv.1 (by omega)
      have hys : Spec.Time.yearStart 10000 = 3652059 := by rw [← Cal.daysBeforeYear_eq]; decide +kernel
      rw [hys] at hyl
      obtain ⟨_, _, _, _, _, h1, h2, h3⟩ := hv
      unfold Spec.Time.Civil.seconds
      simp only at h1 h2 h3 hd ⊢
      omega
    unfold unixTime at hu
    omega
  unfold utcFromTimestamp
  rw [if_pos hlt]
  congr 1
  obtain ⟨h1, h2⟩ := Cal.ofSecs_ok (s := (719163 : Int) * 86400 + beVal o) (by omega)
  have hs : (Cal.civil (Cal.ofSecs ((719163 : Int) * 86400 + beVal o))).seconds = (Cal.civil d).seconds := by
    unfold unixTime at hu
    rw [epoch_secs d]
    omega
  have he := Cal.seconds_inj h1 hv hs
  have hoff' : (Cal.ofSecs ((719163 : Int) * 86400 + beVal o)).off = none := rfl
  generalize Cal.ofSecs ((719163 : Int) * 86400 + beVal o) = e at he hoff'
  obtain ⟨y, m, dd, hh, mi, s, off⟩ := e
  obtain ⟨y', m', dd', hh', mi', s', off'⟩ := d
  simp only [Cal.civil, Spec.Time.Civil.mk.injEq] at he
  obtain ⟨rfl, rfl, rfl, rfl, rfl, rfl⟩ := he
  simp only at hoff hoff'
  rw [hoff, hoff']

theorem date_ok {d : DateTime} {o : List Nat} (h : IsDate d o) (rest : List Nat) :
    decodeDateValue ⟨longInt o ++ rest, 0⟩ = .ok d ⟨rest, 0⟩ := by
  unfold decodeDateValue
  rw [M.bind_ok (decodeLongInteger_ok o h.1.1 h.1.2 rest), utcFromTimestamp_ok h]
  rfl

/-! ### the headers -/

theorem sized_append (l rest : List Nat) : sized l ++ rest = valueLength l.length ++ (l ++ rest) := by
  unfold sized; rw [List.append_assoc]

theorem bool_ok (b : Bool) (rest : List Nat) :
    decodeBooleanValue ⟨(if b then 128 else 129) :: rest, 0⟩ = .ok b ⟨rest, 0⟩ := by
  cases b <;> rfl

theorem delivery_ok {t : Nat} {o : List Nat} (h : IsOctets o) (ht : t = 128 ∨ t = 129) (rest : List Nat) :
    decodeDeliveryTimeValue ⟨sized (t :: longInt o) ++ rest, 0⟩
      = .ok (if t = 128 then py! "absolute" else py! "relative", beVal o) ⟨rest, 0⟩ := by
  unfold decodeDeliveryTimeValue
  rw [sized_append, M.bind_ok (decodeValueLength_ok _ _), List.cons_append, M.bind_ok (next_cons _ _ _),
    M.bind_ok (decodeLongInteger_ok o h.1 h.2 rest)]
  rcases ht with rfl | rfl <;> rfl

theorem expiryAbs_ok {d : DateTime} {o : List Nat} (h : IsDate d o) (rest : List Nat) :
    decodeExpiryValue ⟨sized (128 :: longInt o) ++ rest, 0⟩ = .ok (.dt d) ⟨rest, 0⟩ := by
  unfold decodeExpiryValue
  rw [sized_append, M.bind_ok (decodeValueLength_ok _ _), List.cons_append, M.bind_ok (next_cons _ _ _), if_pos rfl,
    M.bind_ok (date_ok h rest)]
  rfl

theorem expiryRel_ok {i : IntEnc} (h : i.WF) (rest : List Nat) :
    decodeExpiryValue ⟨sized (129 :: i.enc) ++ rest, 0⟩ = .ok (.int i.val) ⟨rest, 0⟩ := by
  have hd : decodeDeltaSecondsValue ⟨i.enc ++ rest, 0⟩ = .ok i.val ⟨rest, 0⟩ := intEnc_ok h rest
  unfold decodeExpiryValue
  rw [sized_append, M.bind_ok (decodeValueLength_ok _ _), List.cons_append, M.bind_ok (next_cons _ _ _),
    if_neg (by decide), if_pos rfl, M.bind_ok hd]
  rfl

theorem fromInsert_ok (rest : List Nat) :
    decodeFromValue ⟨sized [129] ++ rest, 0⟩ = .ok (py! "<not inserted>") ⟨rest, 0⟩ := by
  unfold decodeFromValue
  rw [sized_append, M.bind_ok (decodeValueLength_ok _ _), List.cons_append, M.bind_ok (next_cons _ _ _), if_pos rfl]
  rfl

theorem fromAddr_ok {l s : List Nat} {rest : List Nat}
    (h : decodeEncodedStringValue ⟨l ++ rest, 0⟩ = .ok s ⟨rest, 0⟩) :
    decodeFromValue ⟨sized (128 :: l) ++ rest, 0⟩ = .ok s ⟨rest, 0⟩ := by
  unfold decodeFromValue
  rw [sized_append, M.bind_ok (decodeValueLength_ok _ _), List.cons_append, M.bind_ok (next_cons _ _ _),
    if_neg (by decide)]
  exact h

theorem lookupNum_none_of {α : Type} {t : List (Nat × α)} {n : Nat} (h : ∀ e ∈ t, e.1 ≠ n) : lookupNum t n = none := by
  induction t with
  | nil => rfl
  | cons e r ih =>
    obtain ⟨k, x⟩ := e
    unfold lookupNum
    rw [if_neg (h (k, x) (by simp)), ih (fun e he => h e (by simp [he]))]

theorem classId_ok {i : Nat} (h : i < 4) (rest : List Nat) :
    decodeMessageClassValue ⟨(128 + i) :: rest, 0⟩ = .ok (classNames.getD i []) ⟨rest, 0⟩ := by
  have : i = 0 ∨ i = 1 ∨ i = 2 ∨ i = 3 := by omega
  rcases this with rfl | rfl | rfl | rfl <;> rfl

theorem classToken_ok {s : List Nat} (h : IsToken s) (rest : List Nat) :
    decodeMessageClassValue ⟨s ++ 0 :: rest, 0⟩ = .ok s ⟨rest, 0⟩ := by
  have hd := decodeTokenText_token h rest
  obtain ⟨c, t, rfl, h1, h2, _⟩ := token_head h
  rw [List.cons_append] at hd ⊢
  have hl : lookupNum classIdentifiers c = none := by
    apply lookupNum_none_of
    intro e he
    simp only [classIdentifiers, List.mem_cons, List.not_mem_nil, or_false] at he
    rcases he with rfl | rfl | rfl | rfl <;> simp only <;> omega
  unfold decodeMessageClassValue
  rw [M.bind_ok (preview_zero _ _), hl]
  simp only []
  rw [M.bind_ok (resetPreview_apply _)]
  exact hd

theorem messageType_ok {i : Nat} (h : i < 7) (rest : List Nat) :
    decodeMessageTypeValue ⟨(128 + i) :: rest, 0⟩ = .ok (typeNames.getD i []) ⟨rest, 0⟩ := by
  have : i = 0 ∨ i = 1 ∨ i = 2 ∨ i = 3 ∨ i = 4 ∨ i = 5 ∨ i = 6 := by omega
  rcases this with rfl | rfl | rfl | rfl | rfl | rfl | rfl <;> rfl

theorem priority_ok {i : Nat} (h : i < 3) (rest : List Nat) :
    decodePriorityValue ⟨(128 + i) :: rest, 0⟩ = .ok (priorityNames.getD i []) ⟨rest, 0⟩ := by
  have : i = 0 ∨ i = 1 ∨ i = 2 := by omega
  rcases this with rfl | rfl | rfl <;> rfl

theorem responseStatus_ok {i : Nat} (h : i < 9) (rest : List Nat) :
    decodeResponseStatusValue ⟨(128 + i) :: rest, 0⟩ = .ok (.str (responseNames.getD i [])) ⟨rest, 0⟩ := by
  have : i = 0 ∨ i = 1 ∨ i = 2 ∨ i = 3 ∨ i = 4 ∨ i = 5 ∨ i = 6 ∨ i = 7 ∨ i = 8 := by omega
  rcases this with rfl | rfl | rfl | rfl | rfl | rfl | rfl | rfl | rfl <;> rfl

theorem status_ok {i : Nat} (h : i < 5) (rest : List Nat) :
    decodeStatusValue ⟨(128 + i) :: rest, 0⟩ = .ok (.str (statusNames.getD i [])) ⟨rest, 0⟩ := by
  have : i = 0 ∨ i = 1 ∨ i = 2 ∨ i = 3 ∨ i = 4 := by omega
  rcases this with rfl | rfl | rfl | rfl | rfl <;> rfl

theorem visibility_ok (b : Bool) (rest : List Nat) :
    decodeSenderVisibilityValue ⟨(if b then 129 else 128) :: rest, 0⟩
      = .ok (if b then py! "Show" else py! "Hide") ⟨rest, 0⟩ := by
  cases b <;> rfl

/-- an application header: first octet below 128 and second octet below 128 -/
theorem appHeader_gen {n v l : List Nat} (hn : IsToken n) (rest : List Nat)
    (hv : decodeTextString ⟨l ++ rest, 0⟩ = .ok v ⟨rest, 0⟩) :
    decodeHeader ⟨n ++ 0 :: l ++ rest, 0⟩ = .ok (n, .v (.str v)) ⟨rest, 0⟩ := by
  have hd := decodeTokenText_token hn (l ++ rest)
  have htail : ∀ c ∈ n, c < 127 := fun c hc => (isTokenChar_sep (hn.2 c hc)).2.2
  obtain ⟨c, t, rfl, h1, h2, _⟩ := token_head hn
  rw [List.append_assoc, List.cons_append, List.cons_append]
  rw [List.cons_append] at hd
  have hm : decodeMmsHeader ⟨c :: (t ++ 0 :: (l ++ rest)), 0⟩
      = .err .decodeError ⟨c :: (t ++ 0 :: (l ++ rest)), 1⟩ := by
    unfold decodeMmsHeader
    rw [M.bind_ok (preview_zero _ _), fromByte_err (by omega)]
    rfl
  have hw : decodeWellKnownHeader ⟨c :: (t ++ 0 :: (l ++ rest)), 1⟩
      = .err .decodeError ⟨c :: (t ++ 0 :: (l ++ rest)), 0⟩ := by
    have hs : decodeShortInteger ⟨c :: (t ++ 0 :: (l ++ rest)), 1⟩
        = .err .decodeError ⟨c :: (t ++ 0 :: (l ++ rest)), 0⟩ := by
      have hp : ∃ b, b < 128 ∧ preview ⟨c :: (t ++ 0 :: (l ++ rest)), 1⟩
          = .ok b ⟨c :: (t ++ 0 :: (l ++ rest)), 2⟩ := by
        cases t with
        | nil => exact ⟨0, by decide, rfl⟩
        | cons d t => exact ⟨d, by have := htail d (by simp); omega, rfl⟩
      obtain ⟨b, hb, hp⟩ := hp
      unfold decodeShortInteger
      rw [M.bind_ok hp, if_pos ((and_80 (by omega)).2 hb), M.bind_ok (resetPreview_apply _)]
      rfl
    unfold decodeWellKnownHeader
    rw [M.bind_err hs]
  unfold decodeHeader
  rw [orDE_err hm]
  unfold decodeWspHeader
  rw [orDE_err hw]
  unfold decodeApplicationHeader
  rw [M.bind_ok (orDE_ok hd), M.bind_ok hv]
  rfl

theorem appHeader_ok {n v : List Nat} (hn : IsToken n) (hv : IsText v) (rest : List Nat) :
    decodeHeader ⟨n ++ 0 :: text v ++ rest, 0⟩ = .ok (n, .v (.str v)) ⟨rest, 0⟩ :=
  appHeader_gen hn rest (decodeTextString_text v hv rest 0)

theorem mmsValue_str {ty : MType} {s : Str} {m : D Str} {t t' : It}
    (hm : decodeMmsValue ty = (do let s ← m; pure (.v (.str s)))) (h : m t = .ok s t') :
    decodeMmsValue ty t = .ok (.v (.str s)) t' := by
  rw [hm, M.bind_ok h]; rfl

theorem mmsValue_val {ty : MType} {v : Val} {m : D Val} {t t' : It}
    (hm : decodeMmsValue ty = (do let v ← m; pure (.v v))) (h : m t = .ok v t') :
    decodeMmsValue ty t = .ok (.v v) t' := by
  rw [hm, M.bind_ok h]; rfl

theorem decodeHeader_hdr {h : Hdr} (hw : h.WF) (rest : List Nat) :
    decodeHeader ⟨h.enc ++ rest, 0⟩ = .ok (h.name, h.value) ⟨rest, 0⟩ := by
  cases h with
  | str f s =>
    have hv : decodeMmsValue .encodedStringValue ⟨text s ++ rest, 0⟩ = .ok (.v (.str s)) ⟨rest, 0⟩ :=
      mmsValue_str rfl (encodedString_plain hw rest)
    cases f <;> exact decodeHeader_field (ty := .encodedStringValue) (by decide) rfl hv
  | strCs f c s =>
    have hv : decodeMmsValue .encodedStringValue ⟨sized (c.enc ++ text s) ++ rest, 0⟩ = .ok (.v (.str s)) ⟨rest, 0⟩ :=
      mmsValue_str rfl (encodedString_cs hw.1 hw.2 rest)
    cases f <;> exact decodeHeader_field (ty := .encodedStringValue) (by decide) rfl hv
  | contentLocation s =>
    exact decodeHeader_field (n := 3) (by decide) rfl (mmsValue_str rfl (decodeTextString_text s hw rest 0))
  | date d o =>
    refine decodeHeader_field (n := 5) (ty := .dateValue) (by decide) rfl ?_
    show (do let d ← decodeDateValue; pure (HVal.v (.dt d)) : D HVal) _ = _
    rw [M.bind_ok (date_ok hw rest)]; rfl
  | bool f b =>
    have hv : decodeMmsValue .booleanValue ⟨[if b then 128 else 129] ++ rest, 0⟩ = .ok (.v (.bool b)) ⟨rest, 0⟩ := by
      show (do let d ← decodeBooleanValue; pure (HVal.v (.bool d)) : D HVal) _ = _
      rw [List.cons_append, List.nil_append, M.bind_ok (bool_ok b rest)]; rfl
    cases f <;> exact decodeHeader_field (ty := .booleanValue) (by decide) rfl hv
  | deliveryAbs o =>
    refine decodeHeader_field (n := 7) (ty := .deliveryTimeValue) (by decide) rfl ?_
    show (do let (t, n) ← decodeDeliveryTimeValue; pure (HVal.tup t (.int n)) : D HVal) _ = _
    rw [M.bind_ok (delivery_ok hw (Or.inl rfl) rest)]; rfl
  | deliveryRel o =>
    refine decodeHeader_field (n := 7) (ty := .deliveryTimeValue) (by decide) rfl ?_
    show (do let (t, n) ← decodeDeliveryTimeValue; pure (HVal.tup t (.int n)) : D HVal) _ = _
    rw [M.bind_ok (delivery_ok hw (Or.inr rfl) rest)]; rfl
  | expiryAbs d o =>
    exact decodeHeader_field (n := 8) (by decide) rfl (mmsValue_val rfl (expiryAbs_ok hw rest))
  | expiryRel i =>
    exact decodeHeader_field (n := 8) (by decide) rfl (mmsValue_val rfl (expiryRel_ok hw rest))
  | fromInsert =>
    exact decodeHeader_field (n := 9) (by decide) rfl (mmsValue_str rfl (fromInsert_ok rest))
  | fromAddr s =>
    exact decodeHeader_field (n := 9) (by decide) rfl (mmsValue_str rfl (fromAddr_ok (encodedString_plain hw rest)))
  | fromCs c s =>
    exact decodeHeader_field (n := 9) (by decide) rfl
      (mmsValue_str rfl (fromAddr_ok (encodedString_cs hw.1 hw.2 rest)))
  | classId i =>
    exact decodeHeader_field (n := 10) (by decide) rfl (mmsValue_str (ty := .messageClassValue) rfl (classId_ok hw rest))
  | classToken s =>
    refine decodeHeader_field (n := 10) (by decide) rfl (mmsValue_str (ty := .messageClassValue) rfl ?_)
    rw [List.append_assoc]
    exact classToken_ok hw rest
  | messageId s =>
    exact decodeHeader_field (n := 11) (by decide) rfl (mmsValue_str rfl (decodeTextString_text s hw rest 0))
  | transactionId s =>
    exact decodeHeader_field (n := 24) (by decide) rfl (mmsValue_str rfl (decodeTextString_text s hw rest 0))
  | messageType i =>
    exact decodeHeader_field (n := 12) (by decide) rfl (mmsValue_str (ty := .messageTypeValue) rfl (messageType_ok hw rest))
  | version a b =>
    exact decodeHeader_field (n := 13) (by decide) rfl (mmsValue_str rfl (version_ok hw.1 hw.2.1 hw.2.2 rest))
  | size o =>
    refine decodeHeader_field (n := 14) (ty := .longInteger) (by decide) rfl ?_
    show (do let n ← decodeLongInteger; pure (HVal.v (.int n)) : D HVal) _ = _
    rw [M.bind_ok (decodeLongInteger_ok o hw.1 hw.2 rest)]; rfl
  | priority i =>
    exact decodeHeader_field (n := 15) (by decide) rfl (mmsValue_str (ty := .priorityValue) rfl (priority_ok hw rest))
  | responseStatus i =>
    exact decodeHeader_field (n := 18) (by decide) rfl
      (mmsValue_val (ty := .responseStatusValue) rfl (responseStatus_ok hw rest))
  | visibility b =>
    exact decodeHeader_field (n := 20) (by decide) rfl
      (mmsValue_str (ty := .senderVisibilityValue) rfl (visibility_ok b rest))
  | status i =>
    exact decodeHeader_field (n := 21) (by decide) rfl (mmsValue_val (ty := .statusValue) rfl (status_ok hw rest))
  | app n v => exact appHeader_ok hw.1 hw.2.1 rest
  | deliveryRelShort _ => exact hw.elim
  | versionMajor _ => exact hw.elim

end Verif.Mms

import Verif.Props.AnyString
import Verif.Spec.UniPdu
/-!
# Received short messages given as `unicode`
-/
set_option autoImplicit false

namespace Verif.Deliver

theorem setPdu_rest (pdu : Str) : setPdu pdu = (do
    let s ← M.get
    let pdu := if !s.strict && pdu.length % 2 ≠ 0 then pdu.dropLast else pdu
    if pdu.length % 2 ≠ 0 then M.throw .valueError
    else do
      M.modify fun s => { s with pdu := some pdu }
      let data ← M.lift (toArray pdu)
      setPduRest data) := rfl

theorem setPduRest_out (data : List Nat) (st : State) :
    (setPduRest data st).out = (pduP data).bind fun f => .ok (f st) := by
  unfold setPduRest
  simp only [pduP, smscP]
  rw [out_lift]
  have hrest : ∀ (s : State) (x : Option Str) (data : List Nat), s.csca = x →
      ((M.lift (pop0 data) >>= fun m => (M.modify (fun s => { s with mtype := some m.1 }) >>= fun _ =>
        if m.1 &&& 0x03 = 0x02 then decodeStatusReport m.2
        else if m.1 &&& 0x03 = 0x01 then M.throw .valueError
        else decodeDeliver m.2) : M State Unit) s).out =
      ((pop0 data).bind fun m =>
        (if m.1 &&& 0x03 = 0x02 then reportP m.2
         else if m.1 &&& 0x03 = 0x01 then .error .valueError
         else deliverP m.1 m.2).bind fun f => .ok fun s => f { s with csca := x, mtype := some m.1 }).bind
        fun f => .ok (f s) := by
    intro s x data hx
    rw [out_lift]
    cases pop0 data with
    | error e => rfl
    | ok m =>
      simp only [Except.bind]
      rw [out_modify]
      split
      · rw [decodeStatusReport_out]
        cases reportP m.2 with
        | error e => rfl
        | ok f => simp only [Except.bind, ← hx]
      · split
        · rfl
        · rw [decodeDeliver_out (mt := m.1) rfl]
          cases deliverP m.1 m.2 with
          | error e => rfl
          | ok f => simp only [Except.bind, ← hx]
  cases pop0 data with
  | error e => rfl
  | ok a =>
  simp only [Except.bind]
  split
  · rw [out_lift]
    cases pop0 a.2 with
    | error e => rfl
    | ok b =>
      simp only [Except.bind]
      rw [out_modify, M.bind_ok (M.pure_apply _ _)]
      refine (hrest _ (some (recipientP b.1 (b.2.take (a.1 - 1)))) _ rfl).trans ?_
      cases pop0 (b.2.drop (a.1 - 1)) with
      | error e => rfl
      | ok m =>
        simp only [Except.bind]
        cases (if m.1 &&& 0x03 = 0x02 then reportP m.2 else if m.1 &&& 0x03 = 0x01 then .error .valueError
          else deliverP m.1 m.2) <;> rfl
  · rw [out_modify, M.bind_ok (M.pure_apply _ _)]
    refine (hrest _ none _ rfl).trans ?_
    simp only []
    cases pop0 a.2 with
    | error e => rfl
    | ok m =>
      simp only [Except.bind]
      cases (if m.1 &&& 0x03 = 0x02 then reportP m.2 else if m.1 &&& 0x03 = 0x01 then .error .valueError
        else deliverP m.1 m.2) <;> rfl

/-- assigning a `unicode` object as a pure function -/
theorem setPduU_out (t : CharTable) (pdu : Str) (st : State) : (setPduU t pdu st).out =
    if (trim st.strict pdu).length % 2 ≠ 0 then .error .valueError
    else (toArrayU t (trim st.strict pdu)).bind fun data => (pduP data).bind fun f =>
      .ok (f { st with pdu := some (trim st.strict pdu) }) := by
  unfold setPduU
  rw [M.bind_ok (M.get_apply st)]
  change ((if (trim st.strict pdu).length % 2 ≠ 0 then _ else _ : M State Unit) st).out = _
  split
  · rfl
  change ((M.modify (fun s => { s with pdu := some (trim st.strict pdu) }) >>= _ : M State Unit) st).out = _
  rw [out_modify, out_lift]
  change ((toArrayU t (trim st.strict pdu)).bind _) = _
  cases toArrayU t (trim st.strict pdu) with
  | error e => rfl
  | ok data => exact setPduRest_out data _

theorem smsDeliverU_out (t : CharTable) (pdu : Str) (strict : Bool) :
    smsDeliverU t pdu strict = (setPduU t pdu (State.fresh strict)).out := by
  unfold smsDeliverU
  cases setPduU t pdu (State.fresh strict) <;> rfl

end Verif.Deliver

namespace Verif.Props
open Verif Verif.Spec Verif.Spec.Sms Verif.Spec.Accepted Verif.Spec.UniPdu
open Verif.Deliver (smsDeliver smsDeliverU setPdu setPduU State CharTable encodeDecimalChar encodeDecimal toArrayU parseHexPairsU
  pyInt16U)

theorem means_iff {t : CharTable} (ht : Valid t) (c x : Nat) : encodeDecimalChar t c = .ok x ↔ Means t c x := by
  unfold encodeDecimalChar
  constructor
  · intro h
    split at h
    · rename_i hs; cases h; exact .space c hs
    · rename_i hs
      have hs : t.space c = false := by simpa using hs
      split at h
      · rename_i d hd; cases h; exact .digit c d hd
      · rename_i hd
        split at h
        · rename_i hc; cases h; exact .self c hs hd hc.1 hc.2
        · cases h
  · intro h
    cases h with
    | space hs => rw [if_pos hs]
    | digit d hd =>
      have hs : ¬ t.space c = true := fun hs => by rw [ht.apart c hs] at hd; cases hd
      rw [if_neg hs, hd]
    | self hs hd h0 h1 =>
      rw [if_neg (by simp [hs]), hd]
      exact if_pos ⟨h0, h1⟩

theorem means_fails {t : CharTable} {c : Nat} (e : PyErr) (h : encodeDecimalChar t c = .error e) :
    e = .unicodeError := by
  unfold encodeDecimalChar at h
  split at h
  · cases h
  · split at h
    · cases h
    · split at h
      · cases h
      · cases h; rfl

theorem encodeDecimal_ok {t : CharTable} (ht : Valid t) {p q : Str} (h : List.Forall₂ (Means t) p q) :
    encodeDecimal t p = .ok q := by
  induction h with
  | nil => rfl
  | cons h1 _ ih =>
    unfold encodeDecimal
    rw [(means_iff ht _ _).2 h1, ih]
    rfl

theorem encodeDecimal_inv {t : CharTable} (ht : Valid t) : ∀ {p q : Str}, encodeDecimal t p = .ok q →
    List.Forall₂ (Means t) p q
  | [], q, h => by cases h; exact .nil
  | c :: p, q, h => by
    unfold encodeDecimal at h
    obtain ⟨x, h1, h⟩ := Deliver.ebind_ok h
    obtain ⟨xs, h2, h⟩ := Deliver.ebind_ok h
    cases h
    exact .cons ((means_iff ht _ _).1 h1) (encodeDecimal_inv ht h2)

theorem encodeDecimal_fails {t : CharTable} : ∀ {p : Str} {e : PyErr}, encodeDecimal t p = .error e → e = .unicodeError
  | [], e, h => by cases h
  | c :: p, e, h => by
    unfold encodeDecimal at h
    cases h1 : encodeDecimalChar t c with
    | error e' => rw [h1] at h; cases h; exact means_fails _ h1
    | ok x =>
      rw [h1] at h
      cases h2 : encodeDecimal t p with
      | error e' =>
        rw [h2] at h
        cases h
        exact encodeDecimal_fails h2
      | ok xs => rw [h2] at h; cases h

theorem parse_means {t : CharTable} (ht : Valid t) : ∀ {p q : Str}, List.Forall₂ (Means t) p q →
    parseHexPairsU t p = parseHexPairs q
  | [], _, h => by cases h; rfl
  | [a], _, h => by
    cases h with
    | cons h1 h2 =>
      cases h2
      unfold parseHexPairsU parseHexPairs pyInt16U
      rw [encodeDecimal_ok ht (.cons h1 .nil)]
      rfl
  | a :: b :: r, _, h => by
    cases h with
    | cons h1 h2 =>
      cases h2 with
      | cons h2 h3 =>
        unfold parseHexPairsU parseHexPairs pyInt16U
        rw [encodeDecimal_ok ht (.cons h1 (.cons h2 .nil)), parse_means ht h3]
        rfl

theorem toArray_means {t : CharTable} (ht : Valid t) {p q : Str} (h : List.Forall₂ (Means t) p q) :
    toArrayU t p = toArray q := by
  unfold toArrayU toArray
  rw [parse_means ht h]

theorem trim_means {t : CharTable} (strict : Bool) {p q : Str} (h : List.Forall₂ (Means t) p q) :
    List.Forall₂ (Means t) (Deliver.trim strict p) (Deliver.trim strict q) := by
  unfold Deliver.trim
  rw [h.length_eq]
  split
  · rw [List.dropLast_eq_take, List.dropLast_eq_take, h.length_eq]
    exact List.forall₂_take _ h
  · exact h

/-- what is observable after an assignment, besides the stored string itself -/
def shownAfter (r : Res State Unit) : Py State := noPdu r.out

/-- C109: a `unicode` object shows, and fails, as the `str` its characters stand for; on any object. -/
theorem C109_shown (t : CharTable) (ht : Valid t) (p q : Str) (h : List.Forall₂ (Means t) p q) (st : State) :
    shownAfter (setPduU t p st) = shownAfter (setPdu q st) := by
  unfold shownAfter
  rw [Deliver.setPduU_out, Deliver.setPdu_out]
  unfold Deliver.setP
  have h' := trim_means st.strict h
  rw [toArray_means ht h', h'.length_eq]
  split
  · rfl
  · cases toArray (Deliver.trim st.strict q) with
    | error e => rfl
    | ok data =>
      simp only [Except.bind]
      cases hp : Deliver.pduP data with
      | error e => rfl
      | ok f =>
        simp only [noPdu, Except.map]
        rw [Deliver.pduP_pdu hp st (some (Deliver.trim _ p)), Deliver.pduP_pdu hp st (some (Deliver.trim _ q))]

/-- C109 for the constructor -/
theorem C109_new (t : CharTable) (ht : Valid t) (p q : Str) (h : List.Forall₂ (Means t) p q) (strict : Bool) :
    noPdu (smsDeliverU t p strict) = noPdu (smsDeliver q strict) := by
  have := C109_shown t ht p q h (State.fresh strict)
  unfold shownAfter at this
  rw [Deliver.smsDeliverU_out, this, Deliver.setPdu_out, ← Deliver.smsDeliver_eq]

/-- the octet a character stands for in ASCII -/
def asciiOf (c : Nat) : Nat := if isSpace c then 32 else c

theorem means_ascii {t : CharTable} (ht : Valid t) {c : Nat} (h : 0 < c ∧ c < 128 ∧ ¬ (28 ≤ c ∧ c ≤ 31)) :
    Means t c (asciiOf c) := by
  obtain ⟨h0, h1, h2⟩ := h
  unfold asciiOf
  split
  · rename_i hs
    rw [isSpace_blank] at hs
    unfold Blank at hs
    exact .space c ((ht.space c h1).2 (by omega))
  · rename_i hs
    rw [isSpace_blank] at hs
    unfold Blank at hs
    have hsp : t.space c = false := by
      rw [← Bool.not_eq_true, ht.space c h1]
      omega
    by_cases hd : 48 ≤ c ∧ c ≤ 57
    · have := Means.digit (t := t) c (c - 48) (by rw [ht.ascii c h1, if_pos hd])
      rw [show 48 + (c - 48) = c by omega] at this
      exact this
    · exact .self c hsp (by rw [ht.ascii c h1, if_neg hd]) h0 (by omega)

theorem hexVal_ascii (c : Nat) : hexVal (asciiOf c) = hexVal c := by
  unfold asciiOf
  split
  · rename_i hs
    rw [isSpace_blank] at hs
    cases h : hexVal c with
    | none => rfl
    | some n => exact absurd ((hexVal_digit c n).1 h) (blank_not hs)
  · rfl

theorem isSpace_ascii (c : Nat) : isSpace (asciiOf c) = isSpace c := by
  unfold asciiOf
  split
  · rename_i hs; rw [hs]; rfl
  · rfl

theorem sign_ascii (c : Nat) (k : Nat) (hk : k = 43 ∨ k = 45) : (asciiOf c == k) = (c == k) := by
  unfold asciiOf
  split
  · rename_i hs
    rw [isSpace_blank] at hs
    unfold Blank at hs
    rw [Bool.eq_iff_iff, beq_iff_eq, beq_iff_eq]
    omega
  · rfl

theorem parse_ascii : ∀ p : Str, parseHexPairs (p.map asciiOf) = parseHexPairs p
  | [] => rfl
  | [a] => by
    simp only [List.map_cons, List.map_nil, parseHexPairs, pyInt16, hexVal_ascii]
  | a :: b :: r => by
    simp only [List.map_cons, parseHexPairs, pyInt16, hexVal_ascii, isSpace_ascii, sign_ascii _ 43 (.inl rfl),
      sign_ascii _ 45 (.inr rfl), parse_ascii r]

/-- C109: an ASCII text without control characters (other than the five blanks), say of hexadecimal digits, is treated in
every respect as the `str`: same result, same exception, same object after an exception. -/
theorem C109_ascii (t : CharTable) (ht : Valid t) (p : Str) (h : ∀ c ∈ p, 0 < c ∧ c < 128 ∧ ¬ (28 ≤ c ∧ c ≤ 31)) :
    setPduU t p = setPdu p := by
  have hm : ∀ q : Str, (∀ c ∈ q, 0 < c ∧ c < 128 ∧ ¬ (28 ≤ c ∧ c ≤ 31)) → List.Forall₂ (Means t) q (q.map asciiOf) := by
    intro q
    induction q with
    | nil => intro _; exact .nil
    | cons c q ih =>
      intro h
      exact .cons (means_ascii ht (h c (by simp))) (ih fun x hx => h x (List.mem_cons_of_mem _ hx))
  have hq : ∀ strict, toArrayU t (Deliver.trim strict p) = toArray (Deliver.trim strict p) := by
    intro strict
    rw [toArray_means ht (hm _ fun c hc => h c (Deliver.trim_mem hc))]
    unfold toArray
    rw [parse_ascii]
  rw [Deliver.setPdu_rest]
  unfold setPduU
  funext st
  rw [M.bind_ok (M.get_apply st), M.bind_ok (M.get_apply st)]
  change (if (Deliver.trim st.strict p).length % 2 ≠ 0 then _ else _ : M State Unit) st =
    (if (Deliver.trim st.strict p).length % 2 ≠ 0 then _ else _ : M State Unit) st
  split
  · rfl
  · change (M.modify _ >>= fun _ => M.lift (toArrayU t (Deliver.trim st.strict p)) >>= _ : M State Unit) st = _
    rw [hq]
    rfl

theorem parse_inv {t : CharTable} (ht : Valid t) : ∀ {p : Str} {xs : List Int}, parseHexPairsU t p = .ok xs →
    ∃ q, List.Forall₂ (Means t) p q
  | [], _, _ => ⟨[], .nil⟩
  | [a], _, h => by
    unfold parseHexPairsU pyInt16U at h
    obtain ⟨x, h1, h⟩ := Deliver.ebind_ok h
    obtain ⟨b, h1, _⟩ := Deliver.ebind_ok h1
    exact ⟨b, encodeDecimal_inv ht h1⟩
  | a :: b :: r, _, h => by
    unfold parseHexPairsU pyInt16U at h
    obtain ⟨x, h1, h⟩ := Deliver.ebind_ok h
    obtain ⟨xs, h2, h⟩ := Deliver.ebind_ok h
    obtain ⟨y, h1, _⟩ := Deliver.ebind_ok h1
    obtain ⟨q, hq⟩ := parse_inv ht h2
    exact ⟨y ++ q, List.rel_append (encodeDecimal_inv ht h1) hq⟩

theorem pyInt16_fails {s : Str} {e : PyErr} (h : pyInt16 s = .error e) : e = .valueError := by
  unfold pyInt16 at h
  repeat' split at h
  all_goals first | (cases h; done) | (cases h; rfl)

theorem parse_fails {t : CharTable} (ht : Valid t) : ∀ {p : Str} {e : PyErr}, parseHexPairsU t p = .error e →
    e = .valueError ∨ e = .unicodeError
  | [], _, h => by cases h
  | [a], e, h => by
    unfold parseHexPairsU pyInt16U at h
    cases h1 : encodeDecimal t [a] with
    | error e' => rw [h1] at h; cases h; exact .inr (encodeDecimal_fails h1)
    | ok b =>
      rw [h1] at h
      cases h2 : pyInt16 b with
      | error e' =>
        have : e' = e := by change (Except.bind (pyInt16 b) _) = _ at h; rw [h2] at h; cases h; rfl
        subst this
        exact .inl (pyInt16_fails h2)
      | ok x => change (Except.bind (pyInt16 b) _) = _ at h; rw [h2] at h; cases h
  | a :: b :: r, e, h => by
    unfold parseHexPairsU pyInt16U at h
    cases h1 : encodeDecimal t [a, b] with
    | error e' => rw [h1] at h; cases h; exact .inr (encodeDecimal_fails h1)
    | ok y =>
      rw [h1] at h
      change (Except.bind (pyInt16 y) _) = _ at h
      cases h2 : pyInt16 y with
      | error e' =>
        rw [h2] at h; cases h
        exact .inl (pyInt16_fails h2)
      | ok x =>
        rw [h2] at h
        change (Except.bind (parseHexPairsU t r) _) = _ at h
        cases h3 : parseHexPairsU t r with
        | error e' => rw [h3] at h; cases h; exact parse_fails ht h3
        | ok xs => rw [h3] at h; cases h

/-- C109: which `unicode` objects are received short messages: those whose characters stand for a `str` that spells octets in
the form of C83. -/
theorem C109_strings (t : CharTable) (ht : Valid t) (p : Str) (strict : Bool) :
    (∃ d, smsDeliverU t p strict = .ok d) ↔
      ∃ q o, List.Forall₂ (Means t) (if strict = false ∧ p.length % 2 = 1 then p.dropLast else p) q ∧ Spells q o ∧ Frame o := by
  have he : (if strict = false ∧ p.length % 2 = 1 then p.dropLast else p) = Deliver.trim strict p := by
    unfold Deliver.trim
    cases strict <;> simp
  have hlen : ∀ {q o}, Spells q o → q.length % 2 = 0 := by
    intro q o h
    induction h with
    | nil => rfl
    | cons a b n s o _ _ ih => simp only [List.length_cons]; omega
  have htrim : ∀ {q : Str}, q.length % 2 = 0 → Deliver.trim strict q = q := by
    intro q h
    unfold Deliver.trim
    rw [if_neg]
    simp [h]
  have hout : ∀ {q : Str}, List.Forall₂ (Means t) (Deliver.trim strict p) q → q.length % 2 = 0 →
      ((∃ d, smsDeliverU t p strict = .ok d) ↔ ∃ d, smsDeliver q strict = .ok d) := by
    intro q hq hl
    have hl' : (Deliver.trim strict p).length % 2 = 0 := by rw [hq.length_eq]; exact hl
    have h1 : noPdu (smsDeliverU t p strict) = noPdu (smsDeliverU t (Deliver.trim strict p) strict) := by
      rw [Deliver.smsDeliverU_out, Deliver.smsDeliverU_out, Deliver.setPduU_out, Deliver.setPduU_out]
      rw [show Deliver.trim (State.fresh strict).strict (Deliver.trim strict p) = Deliver.trim strict p from htrim hl']
      rfl
    rw [C109_new t ht _ q hq] at h1
    unfold noPdu at h1
    cases h2 : smsDeliverU t p strict <;> cases h3 : smsDeliver q strict <;> simp_all [Except.map]
  rw [he]
  constructor
  · intro hd
    have : ∃ q, List.Forall₂ (Means t) (Deliver.trim strict p) q ∧ q.length % 2 = 0 := by
      obtain ⟨d, hd⟩ := hd
      rw [Deliver.smsDeliverU_out, Deliver.setPduU_out] at hd
      change (if (Deliver.trim strict p).length % 2 ≠ 0 then _ else _) = _ at hd
      split at hd
      · cases hd
      · rename_i hl
        obtain ⟨o, ho, _⟩ := Deliver.ebind_ok hd
        unfold toArrayU at ho
        obtain ⟨xs, hx, _⟩ := Deliver.ebind_ok ho
        obtain ⟨q, hq⟩ := parse_inv ht hx
        replace hl : ¬ (Deliver.trim strict p).length % 2 ≠ 0 := hl
        replace hq : List.Forall₂ (Means t) (Deliver.trim strict p) q := hq
        exact ⟨q, hq, by rw [← hq.length_eq]; omega⟩
    obtain ⟨q, hq, hl⟩ := this
    obtain ⟨o, ho, hF⟩ := (C83_strings q strict).1 ((hout hq hl).1 hd)
    rw [if_neg (by omega)] at ho
    exact ⟨q, o, hq, ho, hF⟩
  · rintro ⟨q, o, hq, ho, hF⟩
    exact (hout hq (hlen ho)).2 ((C83_strings q strict).2 ⟨o, by rw [if_neg (by have := hlen ho; omega)]; exact ho, hF⟩)

/-- C109: if nothing is said about strictness an odd number of characters is refused. -/
theorem C109_default (t : CharTable) (ht : Valid t) (p : Str) (h : p.length % 2 = 1) : ¬ ∃ d, smsDeliverU t p = .ok d := by
  rw [C109_strings t ht p true]
  rintro ⟨q, o, h1, h2, _⟩
  simp only [Bool.true_eq_false, false_and, if_false] at h1
  have h3 := h1.length_eq
  have hlen : ∀ {q o}, Spells q o → q.length % 2 = 0 := by
    intro q o h
    induction h with
    | nil => rfl
    | cons a b n s o _ _ ih => simp only [List.length_cons]; omega
  have h4 := hlen h2
  omega


/-- C109: a `unicode` object with a character that stands for nothing is refused with ValueError or UnicodeEncodeError (which
is a ValueError). -/
theorem C109_refused (t : CharTable) (ht : Valid t) (p : Str) (strict : Bool)
    (h : ∃ c ∈ (if strict = false ∧ p.length % 2 = 1 then p.dropLast else p), ∀ x, ¬ Means t c x) :
    ∃ e, smsDeliverU t p strict = .error e ∧ (e = .valueError ∨ e = .unicodeError) := by
  have he : (if strict = false ∧ p.length % 2 = 1 then p.dropLast else p) = Deliver.trim strict p := by
    unfold Deliver.trim
    cases strict <;> simp
  rw [he] at h
  rw [Deliver.smsDeliverU_out, Deliver.setPduU_out]
  change ∃ e, (if (Deliver.trim strict p).length % 2 ≠ 0 then _ else (toArrayU t (Deliver.trim strict p)).bind _) = _ ∧ _
  split
  · exact ⟨_, rfl, .inl rfl⟩
  · unfold toArrayU
    cases hx : parseHexPairsU t (Deliver.trim strict p) with
    | error e => exact ⟨e, rfl, parse_fails ht hx⟩
    | ok xs =>
      obtain ⟨q, hq⟩ := parse_inv ht hx
      obtain ⟨c, hc, hn⟩ := h
      obtain ⟨i, hi, rfl⟩ := List.getElem_of_mem hc
      exact absurd (hq.get hi (by rw [← hq.length_eq]; exact hi)) (hn _)

/-- C109: the exceptions, for every `unicode` object: ValueError, UnicodeEncodeError (which is a ValueError) or IndexError;
OverflowError only if it contains '-'. -/
theorem C109_exceptions (t : CharTable) (ht : Valid t) (p : Str) (st : State) (e : PyErr) (st' : State)
    (h : setPduU t p st = .err e st') :
    e = .valueError ∨ e = .unicodeError ∨ e = .indexError ∨ (e = .overflowError ∧ 45 ∈ p) := by
  have h1 := Deliver.setPduU_out t p st
  rw [h] at h1
  change Except.error e = _ at h1
  split at h1
  · cases h1; exact .inl rfl
  · cases hx : parseHexPairsU t (Deliver.trim st.strict p) with
    | error e' =>
      unfold toArrayU at h1
      rw [hx] at h1
      cases h1
      rcases parse_fails ht hx with h | h
      · exact .inl h
      · exact .inr (.inl h)
    | ok xs =>
      obtain ⟨q, hq⟩ := parse_inv ht hx
      rw [toArray_means ht hq] at h1
      have hr : Deliver.Raises (fun e => Deliver.VI e ∨ (e = .overflowError ∧ 45 ∈ q))
          ((toArray q).bind fun data => (Deliver.pduP data).bind fun f =>
            .ok (f { st with pdu := some (Deliver.trim st.strict p) })) := by
        refine Deliver.Raises.bind (fun e he => ?_) fun data hd => Deliver.Raises.bind (fun e he => .inl ?_)
          fun _ _ => Deliver.Raises.ok _
        · exact Deliver.toArray_raises _ e he
        · exact Deliver.pduP_raises (Deliver.toArray_lt hd) e he
      rcases hr e h1.symm with (h | h) | ⟨h, hm⟩
      · exact .inl h
      · exact .inr (.inr (.inl h))
      · refine .inr (.inr (.inr ⟨h, ?_⟩))
        obtain ⟨i, hi, h45⟩ := List.getElem_of_mem hm
        have hi' : i < (Deliver.trim st.strict p).length := by rw [hq.length_eq]; exact hi
        have := hq.get hi' hi
        simp only [List.get_eq_getElem, h45] at this
        generalize hc : (Deliver.trim st.strict p)[i] = c at this
        have hmem : c ∈ Deliver.trim st.strict p := hc ▸ List.getElem_mem hi'
        generalize hk : (45 : Nat) = k at this
        cases this with
        | space _ => omega
        | digit d hd => omega
        | self _ _ _ _ => subst hk; exact Deliver.trim_mem hmem

/-- a table with the white space of Latin-1, the digits of ASCII, and the full-width ones -/
def sampleChars : CharTable where
  space c := (9 ≤ c && c ≤ 13) || (28 ≤ c && c ≤ 32) || c == 0x85 || c == 0xa0
  decimal c :=
    if 48 ≤ c ∧ c ≤ 57 then some (c - 48)
    else if 0xff10 ≤ c ∧ c ≤ 0xff19 then some (c - 0xff10)
    else none

theorem sampleChars_valid : Valid sampleChars where
  digit c d h := by
    unfold sampleChars at h
    simp only at h
    split at h
    · cases h; omega
    · split at h
      · rw [Option.some.injEq] at h; omega
      · cases h
  ascii c h := by
    unfold sampleChars
    simp only
    split
    · rfl
    · rw [if_neg (by omega)]
  space c h := by
    unfold sampleChars
    simp only [Bool.or_eq_true, Bool.and_eq_true, decide_eq_true_eq, beq_iff_eq]
    omega
  apart c h := by
    unfold sampleChars at h ⊢
    simp only [Bool.or_eq_true, Bool.and_eq_true, decide_eq_true_eq, beq_iff_eq] at h ⊢
    rw [if_neg (by omega), if_neg (by omega)]

/-- a message with its first 0 written full-width is read as with an ordinary one -/
example := C109_default sampleChars sampleChars_valid [48, 49, 0xff10] rfl

example : ∃ d, smsDeliverU sampleChars (0xff10 :: (hexUpper sampleDeliver.octets).tail) = .ok d := ⟨_, rfl⟩

/-- the hypothesis of `C109_ascii` holds for every PDU in hexadecimal digits -/
example : ∀ c ∈ hexUpper sampleDeliver.octets, 0 < c ∧ c < 128 ∧ ¬ (28 ≤ c ∧ c ≤ 31) := by decide +kernel

/-- and that of `C109_refused` for a euro sign, which is refused -/
example : (∀ x, ¬ Means sampleChars 0x20ac x) ∧ smsDeliverU sampleChars [0x20ac, 48] = .error .unicodeError := by
  refine ⟨fun x h => ?_, by decide +kernel⟩
  cases h with
  | space h => exact absurd h (by decide)
  | digit d h => exact absurd h (by unfold sampleChars; simp)
  | self _ _ _ h => exact absurd h (by decide)

/-- the separators 28 to 31 are the difference in ASCII: blanks in a `unicode` object, refused in a `str` -/
example : smsDeliverU sampleChars (28 :: (hexUpper sampleDeliver.octets).tail) ≠ .error .valueError ∧
    smsDeliver (28 :: (hexUpper sampleDeliver.octets).tail) = .error .valueError := by decide +kernel

end Verif.Props

import Verif.Proofs.History
import Verif.Props.Submit
import Verif.Model.Deliver
/-!
# C18-C21, C23, C24, C34, C35: settings, validity, references, repeated calls
-/
set_option autoImplicit false

namespace Verif.Props
open Verif Verif.Spec Verif.Spec.Sms Verif.Spec.Submit Verif.Spec.Time Verif.Submit

/-! ## C18 -/

/-- what may be assigned to `number` and `csca` -/
def Accepted (x : Option (List Nat)) : Prop := x = none ∨ x = some [] ∨ ∃ y, x = some y ∧ ValidNumber y

/-- C18: an acceptable number is stored and nothing else changes; otherwise ValueError and nothing changes. -/
theorem C18_number (s : State) (x : Option (List Nat)) :
    (Accepted x → setNumber x s = .ok () { s with number := x }) ∧
    (¬ Accepted x → setNumber x s = .err .valueError s) := by
  unfold setNumber Accepted
  cases x with
  | none => exact ⟨fun _ => rfl, fun h => absurd (.inl rfl) h⟩
  | some y =>
    have hv : (¬ (!y.isEmpty && !validNumber y) = true) ↔ (y = [] ∨ ValidNumber y) := by
      rw [← validNumber_iff]
      cases y <;> simp
    have ha : (some y = none ∨ some y = some [] ∨ ∃ z, some y = some z ∧ ValidNumber z) ↔ (y = [] ∨ ValidNumber y) := by
      simp
    rw [ha, ← hv]
    refine ⟨fun h => ?_, fun h => ?_⟩
    · simp only []; rw [if_neg h]; rfl
    · rw [not_not] at h; simp only []; rw [if_pos h]; rfl

/-- C18: the same for the service centre number. -/
theorem C18_csca (s : State) (x : Option (List Nat)) :
    (Accepted x → setCsca x s = .ok () { s with csca := x }) ∧
    (¬ Accepted x → setCsca x s = .err .valueError s) := by
  unfold setCsca Accepted
  cases x with
  | none => exact ⟨fun _ => rfl, fun h => absurd (.inl rfl) h⟩
  | some y =>
    have hv : (¬ (!y.isEmpty && !validNumber y) = true) ↔ (y = [] ∨ ValidNumber y) := by
      rw [← validNumber_iff]
      cases y <;> simp
    have ha : (some y = none ∨ some y = some [] ∨ ∃ z, some y = some z ∧ ValidNumber z) ↔ (y = [] ∨ ValidNumber y) := by
      simp
    rw [ha, ← hv]
    refine ⟨fun h => ?_, fun h => ?_⟩
    · simp only []; rw [if_neg h]; rfl
    · rw [not_not] at h; simp only []; rw [if_pos h]; rfl

/-- C18: the constructor accepts the same numbers. -/
theorem C18_init (x : Option (List Nat)) (t : PyStr) :
    (Accepted x → ∃ s, init x t = .ok s ∧ s.number = x ∧ s.text = t) ∧
    (¬ Accepted x → init x t = .error .valueError) := by
  unfold init
  simp only []
  constructor
  · intro h
    rw [(C18_number _ x).1 h]
    exact ⟨_, rfl, rfl, rfl⟩
  · intro h
    rw [(C18_number _ x).2 h]

example : Accepted (some (py! "+34616585119")) := .inr (.inr ⟨_, rfl, (validNumber_iff _).1 (by decide +kernel)⟩)
example : ¬ Accepted (some (py! "12a4")) := by
  rintro (h | h | ⟨y, h, hv⟩)
  · cases h
  · cases h
  · cases h; exact absurd ((validNumber_iff _).2 hv) (by decide +kernel)

/-! ## C19 -/

/-- C19: exactly 0 to 3 is accepted; otherwise ValueError (TypeError if it is no int) and the class stays. -/
theorem C19_class (s : State) (k : Int) :
    ((0 ≤ k ∧ k ≤ 3) → ∃ n : Nat, (n : Int) = k ∧ setKlass (.int k) s = .ok () { s with klass := some n }) ∧
    (¬ (0 ≤ k ∧ k ≤ 3) → setKlass (.int k) s = .err .valueError s) ∧
    setKlass .notInt s = .err .typeError s := by
  refine ⟨fun h => ⟨k.toNat, by omega, ?_⟩, fun h => ?_, rfl⟩
  · unfold setKlass; simp only []; rw [if_pos (by omega)]; rfl
  · unfold setKlass; simp only []; rw [if_neg (by omega)]; rfl

/-- C72: the validity accepts exactly None, a timedelta or a datetime; anything else is a TypeError and nothing changes. -/
theorem C72_validity (s : State) (a : ValidityArg) :
    (∀ v, a = .valid v → ∃ s', setValidity a s = .ok () s' ∧ s'.validity = v ∧ { s' with validity := s.validity } = s) ∧
    ((∀ v, a ≠ .valid v) → setValidity a s = .err .typeError s) := by
  constructor
  · rintro v rfl; exact ⟨_, rfl, rfl, rfl⟩
  · intro h
    cases a with
    | valid v => exact absurd rfl (h v)
    | other => rfl

/-- format number of an alphabet, as `fmt` is set and reported -/
def fmtCode : Alphabet → Nat
  | .gsm => 0
  | .bin => 4
  | .ucs2 => 8

/-- C19: the coding scheme octet carries the class, if any, and the receiver derives the same coding. -/
theorem C19_coding (s : State) (al : Alphabet) (hr : Ready s) (hu : Uses s al) (ps : List Pdu) (s' : State)
    (h : toPdu s = .ok ps s') : ∀ p ∈ ps, ∃ (bytes rest : List Nat) (sm : Option Address) (sub : Sms.Submit),
      p.pdu = hexUpper bytes ∧ (∀ x ∈ bytes, x < 256) ∧ readSmsc bytes = some (sm, rest) ∧ readSubmit rest = some sub ∧
      (s.klass = none → sub.dcs / 16 = 0) ∧
      (∀ k, s.klass = some k → sub.dcs / 16 = 1 ∧ sub.dcs % 4 = k) ∧
      Deliver.fmtOfDcs sub.dcs = fmtCode al := by
  obtain ⟨ts, mr, cr, _, h3, h4⟩ := C10_conformance s al hr hu ps s' h
  intro p hp
  obtain ⟨i, hi, rfl⟩ := List.getElem_of_mem hp
  obtain ⟨udl, ud, e, _⟩ := h4 i (by omega) hi
  obtain ⟨bytes, sm, rest, sub, h1, h2, h3, _, _, _, _, h5, _, _, _, _, _, _, _, _, _, hd, _⟩ := e
  refine ⟨bytes, rest, sm, sub, h1, h2, h3, h5, ?_⟩
  have hk := hr.klass
  rw [hd]
  cases hkl : s.klass with
  | none =>
    refine ⟨fun _ => by cases al <;> rfl, by simp, by cases al <;> rfl⟩
  | some k =>
    have hk := hk k hkl
    have : k = 0 ∨ k = 1 ∨ k = 2 ∨ k = 3 := by omega
    refine ⟨by simp, ?_, ?_⟩
    · intro k' hk'
      cases hk'
      rcases this with rfl | rfl | rfl | rfl <;> cases al <;> decide
    · rcases this with rfl | rfl | rfl | rfl <;> cases al <;> decide

example : Ready (sample ⟨true, py! "あ叶葉"⟩ none) ∧ Uses (sample ⟨true, py! "あ叶葉"⟩ none) .ucs2 ∧
    ∃ ps s', toPdu (sample ⟨true, py! "あ叶葉"⟩ none) = .ok ps s' := ⟨sample_ready _ _, sample_ucs2, _, _, rfl⟩

/-! ## C72 -/

/-- a new object has nothing set but number and text -/
theorem init_state {x : Option (List Nat)} {t : PyStr} {s : State} (h : init x t = .ok s) :
    s.number = x ∧ s.csca = none ∧ s.klass = none ∧ s.validity = .none ∧ s.requestStatus = false ∧ s.pid = 0 ∧
      s.text = t ∧ s.fmt = none ∧ s.ref = none := by
  by_cases ha : Accepted x
  · unfold init at h
    simp only [] at h
    rw [(C18_number _ x).1 ha] at h
    injection h with h
    subst h
    exact ⟨rfl, rfl, rfl, rfl, rfl, rfl, rfl, rfl, rfl⟩
  · rw [(C18_init x t).2 ha] at h; cases h

theorem readSmsc_none {bytes rest : List Nat} (h : readSmsc bytes = some (none, rest)) : bytes = 0 :: rest := by
  unfold readSmsc at h
  split at h
  · injection h with h; injection h with _ h; rw [h]
  · split at h
    · cases h
    · injection h with h; injection h with h _; cases h
  · cases h

/-- C72: what the PDUs of a new message say, apart from number and text: no service centre, no status report, no validity,
protocol 0, no reply path, duplicates not rejected, and the coding scheme without class: 0 if the text is GSM text, 8
otherwise. -/
theorem C72_defaults (x : List Nat) (hx : ValidNumber x) (t : PyStr) (s s' : State) (ps : List Pdu)
    (hi : init (some x) t = .ok s) (h : toPdu s = .ok ps s') :
    ∀ p ∈ ps, ∃ (rest : List Nat) (sub : Sms.Submit), p.pdu = hexUpper (0 :: rest) ∧ readSubmit rest = some sub ∧
      sub.srr = false ∧ sub.vpf = 0 ∧ sub.vp = [] ∧ sub.pid = 0 ∧ sub.rp = false ∧ sub.rd = false ∧
      (GsmText t → sub.dcs = 0) ∧ (¬ GsmText t → sub.dcs = 8) ∧ Denotes x sub.da := by
  obtain ⟨i1, i2, i3, i4, i5, i6, i7, i8, _⟩ := init_state hi
  have hr : Ready s :=
    { number := ⟨x, i1, hx⟩
      csca := by rw [i2]; trivial
      klass := by rw [i3]; intro k hk; cases hk
      pid := by rw [i6]; exact ⟨le_refl 0, by decide⟩
      validity := by rw [i4]; trivial }
  have hall := toPdu_any hr h (by rw [i8]; intro h4; cases h4)
  intro p hp
  obtain ⟨i, hi, rfl⟩ := List.getElem_of_mem hp
  obtain ⟨udl, ud, bytes, sm, rest, sub, h1, h2, h3, h4, _, _, _, h5, _, h6, h7, h8, _, _, _, h9, h10, h11, h12, _⟩ := hall i hi
  obtain ⟨y, hy, h9⟩ := h9
  rw [i1] at hy
  cases hy
  rw [i2] at h4
  have h4 : sm = none := h4
  subst h4
  rw [i4] at h12
  obtain ⟨v1, v2⟩ := h12
  rw [i6] at h10
  rw [i3] at h11
  refine ⟨rest, sub, by rw [h1, readSmsc_none h3], h5, by rw [h8, i5], v1, v2, by omega, h7, h6, ?_, ?_, h9⟩
  · intro hg
    rw [h11]
    unfold effFmt
    rw [i8, i7]
    simp only [(gsmText_iff t).2 hg]
    rfl
  · intro hg
    have : ¬ Gsm.isGsmText t = true := fun h => hg ((gsmText_iff t).1 h)
    rw [h11]
    unfold effFmt
    rw [i8, i7]
    simp only [Bool.not_eq_true] at this
    simp only [this]
    rfl

example : ∃ s, init (some (py! "+34616585119")) ⟨true, py! "Hola"⟩ = .ok s ∧ ∃ ps s', toPdu s = .ok ps s' :=
  ⟨_, rfl, _, _, rfl⟩

/-! ## C20 -/

/-- C20: the octet of the longest period not exceeding `t`. -/
theorem C20_floor (t : TimeDelta) (h1 : 5 * 60000000 ≤ t.us) (h2 : t.us ≤ 63 * 7 * 86400000000) :
    ∃ n : Nat, n < 256 ∧ relativeValidity t = .ok (n : Int) ∧ relMicros n ≤ t.us ∧
      ∀ m < 256, relMicros m ≤ t.us → relMicros m ≤ relMicros n ∧ m ≤ n := relativeValidity_floor t h1 h2

example := C20_floor ⟨4 * 86400000000 + 17⟩ (by decide) (by decide)

/-- C20: ValueError outside the range. -/
theorem C20_range (t : TimeDelta) (h : t.us < 5 * 60000000 ∨ 63 * 7 * 86400000000 < t.us) :
    relativeValidity t = .error .valueError := relativeValidity_err t h

example := C20_range ⟨5 * 60000000 - 1⟩ (by decide)

/-- C20: monotone. -/
theorem C20_monotone (t u : TimeDelta) (a b : Int) (h : t.us ≤ u.us) (ha : relativeValidity t = .ok a)
    (hb : relativeValidity u = .ok b) : a ≤ b := by
  have hr : ∀ {t : TimeDelta} {a : Int}, relativeValidity t = .ok a → 5 * 60000000 ≤ t.us ∧ t.us ≤ 63 * 7 * 86400000000 := by
    intro t a h
    by_contra hc
    rw [relativeValidity_err t (by omega)] at h
    cases h
  obtain ⟨n, n1, n2, n3, _⟩ := C20_floor t (hr ha).1 (hr ha).2
  obtain ⟨m, m1, m2, _, m4⟩ := C20_floor u (hr hb).1 (hr hb).2
  rw [n2] at ha; rw [m2] at hb
  cases ha; cases hb
  exact_mod_cast (m4 n n1 (le_trans n3 h)).2

example : relativeValidity ⟨4 * 86400000000 + 17⟩ = .ok 170 := by decide +kernel

/-! ## C21 -/

/-- the date is a datetime Python can format -/
def DateOk (d : DateTime) : Prop :=
  1900 ≤ d.year ∧ (⟨d.year, d.month, d.day, d.hour, d.minute, d.second⟩ : Civil).Valid

/-- the seven octets say the same civil time and the zone rounded toward zero to quarters -/
def StampOf (d : DateTime) (o : List Nat) : Prop :=
  readStamp o = some ⟨d.year % 100, d.month, d.day, d.hour, d.minute, d.second, Int.tdiv (d.off.getD 0) 15⟩

/-- C21 in full: any offset a datetime can have -/
def C21_full : Prop := ∀ d, DateOk d → (∀ o, d.off = some o → o.natAbs < 1440) →
  ∃ o : List Nat, absoluteValidity d = .ok (o.map (fun x : Nat => (x : Int))) ∧ (∀ x ∈ o, x < 256) ∧ StampOf d o

/-- C21 for offsets below 20 hours (all that exist in practice).  Missing: 20 hours to 24 hours, for which it is false
(`C21_refuted`). -/
theorem C21_partial (d : DateTime) (hd : DateOk d) (ho : ∀ o, d.off = some o → o.natAbs < 1200) :
    ∃ o : List Nat, absoluteValidity d = .ok (o.map (fun x : Nat => (x : Int))) ∧ (∀ x ∈ o, x < 256) ∧ StampOf d o := by
  obtain ⟨hy, hv⟩ := hd
  obtain ⟨vp, h1, h2, _, h4⟩ := validityOk_vp (v := .absolute d) ⟨hy, hv, ho⟩
  obtain ⟨_, _, hm, _, hdd, hh, hmi, hs⟩ := hv
  have hd' : d.day < 100 := by
    have : monthLength d.year d.month ≤ 31 := by
      unfold monthLength; split
      · split <;> omega
      · split <;> omega
    simp only at hdd; omega
  simp only at hm hh hmi hs
  obtain ⟨o, o1, o2, o3, _⟩ := absoluteValidity_ok d hy (by omega) hd' (by omega) (by omega) (by omega) ho
  have : vp = o := by
    have hchr : chrHexAll (o.map (fun x : Nat => (x : Int))) = .ok (encodeStr vp) := by
      simp only [vpPdu, o3, bind, Except.bind] at h1
      exact h1
    have hchr' : ∀ l : List Nat, (∀ x ∈ l, x < 256) →
        chrHexAll (l.map (fun x : Nat => (x : Int))) = .ok (encodeStr l) := by
      intro l hl
      induction l with
      | nil => rfl
      | cons x l ih =>
        have hx := hl x (by simp)
        simp only [List.map_cons, chrHexAll, ih (fun y hy => hl y (by simp [hy])), Int.toNat_natCast, pyChr, hx, if_true,
          bind, Except.bind]
        rw [if_neg (by omega)]
        simp [encodeStr]
    rw [hchr' o o2] at hchr
    have he := Except.ok.inj hchr
    have := toArray_encodeStr h2
    rw [← he, toArray_encodeStr o2] at this
    exact (Except.ok.inj this).symm
  subst this
  exact ⟨vp, o3, o2, h4.2⟩

example : DateOk ⟨2026, 2, 28, 23, 59, 59, some (-570)⟩ := by refine ⟨?_, ?_⟩ <;> decide

/-- C21 is false of the code: at UTC+20:00 the zone octet is 0x08, which reads as minus zero. -/
theorem C21_refuted : ¬ C21_full := by
  intro h
  obtain ⟨o, h1, h2, h3⟩ := h ⟨2026, 1, 2, 3, 4, 5, some 1200⟩ (by refine ⟨?_, ?_⟩ <;> decide) (by decide)
  have h4 : absoluteValidity ⟨2026, 1, 2, 3, 4, 5, some 1200⟩ =
      .ok (([98, 16, 32, 48, 64, 80, 8] : List Nat).map (fun x : Nat => (x : Int))) := by decide +kernel
  rw [h4] at h1
  have h5 : o = [98, 16, 32, 48, 64, 80, 8] := by
    refine (List.map_injective_iff.2 ?_ (Except.ok.inj h1)).symm
    intro a b hab
    exact Int.ofNat.inj hab
  rw [h5] at h3
  revert h3
  unfold StampOf
  decide +kernel

/-- C21: from 20 to 24 hours east or west, everything but the zone is right, and the zone reads as west of UTC and 20
hours too small. -/
theorem C21_far (d : DateTime) (hd : DateOk d) (o : Int) (ho : d.off = some o) (h1 : 1200 ≤ o.natAbs) (h2 : o.natAbs < 1440) :
    ∃ l : List Nat, absoluteValidity d = .ok (l.map (fun x : Nat => (x : Int))) ∧ (∀ x ∈ l, x < 256) ∧
      readStamp l = some ⟨d.year % 100, d.month, d.day, d.hour, d.minute, d.second,
        -(((o.natAbs - 1200) / 15 : Nat) : Int)⟩ := by
  obtain ⟨hy, hv⟩ := hd
  obtain ⟨_, _, hm, _, hdd, hh, hmi, hs⟩ := hv
  have hd' : d.day < 100 := by
    have : monthLength d.year d.month ≤ 31 := by
      unfold monthLength; split
      · split <;> omega
      · split <;> omega
    simp only at hdd; omega
  simp only at hm hh hmi hs
  obtain ⟨l, _, l2, l3, l4⟩ := absoluteValidity_all d hy (by omega) hd' (by omega) (by omega) (by omega)
    (fun x hx => by rw [ho] at hx; cases hx; exact h2)
  refine ⟨l, l3, l2, ?_⟩
  rw [l4]
  congr 2
  simp only [zoneSent, ho]
  have hq : ¬ o.natAbs / 15 < 80 := by omega
  simp only [hq, if_false, ite_self]
  omega

example : DateOk ⟨2026, 2, 28, 23, 59, 59, some (-1230)⟩ ∧ 1200 ≤ (-1230 : Int).natAbs ∧ (-1230 : Int).natAbs < 1440 := by
  refine ⟨⟨?_, ?_⟩, ?_, ?_⟩ <;> decide

/-! ## C34 -/

/-- two digits as text -/
def twoDigit (n : Nat) : List Nat := [48 + n / 10, 48 + n % 10]

/-- C34 in full -/
def C34_full : Prop := ∀ h m : Nat, h < 24 → m < 60 →
  fromTimezone (43 :: (twoDigit h ++ twoDigit m)) = .ok (60 * h + m : Int) ∧
  fromTimezone (45 :: (twoDigit h ++ twoDigit m)) = .ok (-(60 * h + m) : Int)

/-- C34 for zones east of Greenwich, and no zone.  Missing: west, for which it is false (`C34_refuted`). -/
theorem C34_partial (h m : Nat) (hh : h < 24) (hm : m < 60) :
    fromTimezone (43 :: (twoDigit h ++ twoDigit m)) = .ok (60 * h + m : Int) ∧ fromTimezone [] = .ok 0 := by
  refine ⟨?_, rfl⟩
  have := fromTimezone_pos (h := h) (m := m) (by omega) (by omega)
  rw [show dec02 h = twoDigit h from rfl, show dec02 m = twoDigit m from rfl] at this
  rw [this]
  congr 1
  push_cast
  ring

example := C34_partial 23 59 (by decide) (by decide)

/-- what a zone west of Greenwich gives instead: a day too few plus the offset -/
theorem C34_west (h m : Nat) (hh : h < 24) (hm : m < 60) :
    fromTimezone (45 :: (twoDigit h ++ twoDigit m)) = .ok (60 * h + m - 1440 : Int) := by
  have := fromTimezone_neg (h := h) (m := m) (by omega) (by omega)
  rw [show dec02 h = twoDigit h from rfl, show dec02 m = twoDigit m from rfl] at this
  rw [this]
  congr 1
  push_cast
  ring

example := C34_west 3 30 (by decide) (by decide)

/-- C34 is false of the code: '-0300' is 21 hours west. -/
theorem C34_refuted : ¬ C34_full := by
  intro hf
  have h1 := (hf 3 0 (by decide) (by decide)).2
  rw [C34_west 3 0 (by decide) (by decide)] at h1
  exact absurd h1 (by decide)

theorem twoDigit_dec {n : Nat} : dec02 n = twoDigit n := rfl

theorem text_of (z : FixedOffset) (h : z.offset.natAbs < 1440) : z.text =
    .ok ((if z.offset < 0 then 45 else 43) :: (twoDigit (z.offset.natAbs / 60) ++ twoDigit (z.offset.natAbs % 60))) := by
  simp only [FixedOffset.text, FixedOffset.utcoffset, if_pos h, bind, Except.bind]
  rfl

/-- C34: a time in the zone made from `+hhmm` is written with `+hhmm`, has the name given, and no summer time. -/
theorem C34_text_partial (h m : Nat) (hh : h < 24) (hm : m < 60) (name : Str) :
    ∃ z, FixedOffset.from_ (43 :: (twoDigit h ++ twoDigit m)) name = .ok z ∧ z.tzname = name ∧ z.dst = 0 ∧
      z.utcoffset = .ok (60 * h + m : Int) ∧ z.text = .ok (43 :: (twoDigit h ++ twoDigit m)) := by
  refine ⟨⟨60 * h + m, name⟩, ?_, rfl, rfl, ?_, ?_⟩
  · simp only [FixedOffset.from_, (C34_partial h m hh hm).1, bind, Except.bind]
  · unfold FixedOffset.utcoffset
    rw [if_pos]
    show (60 * (h : Int) + m).natAbs < 1440
    omega
  · have ha : (60 * (h : Int) + m).natAbs = 60 * h + m := by omega
    rw [text_of _ (by show (60 * (h : Int) + m).natAbs < 1440; omega)]
    show Except.ok (((if (60 * (h : Int) + m) < 0 then 45 else 43) :: (_ ++ _) : List Nat)) = _
    rw [if_neg (by omega), ha, show (60 * h + m) / 60 = h by omega, show (60 * h + m) % 60 = m by omega]

example := C34_text_partial 5 30 (by decide) (by decide) (py! "IST")

/-- C34: a time in the zone made from `-hhmm` is written with what is missing to a day, and cannot be used if that is a
whole day. -/
theorem C34_text_west (h m : Nat) (hh : h < 24) (hm : m < 60) (name : Str) :
    ∃ z, FixedOffset.from_ (45 :: (twoDigit h ++ twoDigit m)) name = .ok z ∧
      z.text = if 60 * h + m = 0 then .error .valueError
        else .ok (45 :: (twoDigit ((1440 - (60 * h + m)) / 60) ++ twoDigit ((1440 - (60 * h + m)) % 60))) := by
  refine ⟨⟨60 * h + m - 1440, name⟩, ?_, ?_⟩
  · simp only [FixedOffset.from_, C34_west h m hh hm, bind, Except.bind]
  · have ha : (60 * (h : Int) + m - 1440).natAbs = 1440 - (60 * h + m) := by omega
    by_cases h0 : 60 * h + m = 0
    · rw [if_pos h0]
      have : ¬ (60 * (h : Int) + m - 1440).natAbs < 1440 := by omega
      simp only [FixedOffset.text, FixedOffset.utcoffset, if_neg this, bind, Except.bind]
    · rw [if_neg h0, text_of _ (by show (60 * (h : Int) + m - 1440).natAbs < 1440; omega)]
      show Except.ok (((if (60 * (h : Int) + m - 1440) < 0 then 45 else 43) :: (_ ++ _) : List Nat)) = _
      rw [if_pos (by omega), ha]

example : ∃ z, FixedOffset.from_ (py! "-0300") (py! "GMT-3") = .ok z ∧ z.text = .ok (py! "-2100") := by
  obtain ⟨z, h1, h2⟩ := C34_text_west 3 0 (by decide) (by decide) (py! "GMT-3")
  exact ⟨z, h1, h2⟩

/-! ## C23 -/

/-- 1 if it holds, else 0 -/
def count (p : Prop) [Decidable p] : Nat := if p then 1 else 0

theorem step_counter (s : State) (op : Op) (c : Nat) (hd : Drawn s c) : ∃ c', c ≤ c' ∧ c' ≤ c + 2 ∧ Drawn (step s op) c' ∧
    (op = .call → ∀ ps s', toPdu s = .ok ps s' →
      c' = c + count (s.ref = none) + count (ps.length ≠ 1 ∧ s.randId = none)) ∧ (op ≠ .call → c' = c) := by
  by_cases hc : op = .call
  · subst hc
    cases ht : toPdu s with
    | ok ps s' =>
      have hb : ∀ (p : Prop) [Decidable p], count p ≤ 1 := by
        intro p _; unfold count; split <;> omega
      have b1 := hb (s.ref = none)
      have b2 := hb (ps.length ≠ 1 ∧ s.randId = none)
      refine ⟨c + count (s.ref = none) + count (ps.length ≠ 1 ∧ s.randId = none), by omega, by omega, ?_,
        fun _ ps' s'' h => ?_, by simp⟩
      · simp only [step, ht]; exact toPdu_drawn hd ht
      · cases h; rfl
    | err e s' =>
      obtain ⟨j, hj, h⟩ := draws_toPdu s c hd
      exact ⟨c + j, by omega, by omega, h, fun _ _ _ h => (by cases h), by simp⟩
  · exact ⟨c, le_refl _, by omega, drawn_of_ids (step_ids s op hc) hd, fun h => absurd h hc, fun _ => rfl⟩

/-- C23: in any history of a message object there is a running count `c` of generated ids (exactly the ids needed by
successful calls: one for an unset message reference, one for an unset concatenation reference of a long text; a call
that raises may waste up to two) such that the id generated with count `k` is `k mod 255`; all PDUs of a call share the
message reference and the concatenation reference; given references are used modulo 256. -/
theorem C23_history (n : Option (List Nat)) (t : PyStr) (s0 : State) (hi : init n t = .ok s0) (ops : List Op) :
    ∃ c : Nat → Nat, c 0 = 0 ∧ ∀ i (h : i < ops.length),
      c i ≤ c (i + 1) ∧ c (i + 1) ≤ c i + 2 ∧ (ops[i] ≠ .call → c (i + 1) = c i) ∧
      (ops[i] = .call → ∀ ps s', toPdu (run s0 (ops.take i)) = .ok ps s' →
        let s := run s0 (ops.take i)
        c (i + 1) = c i + count (s.ref = none) + count (ps.length ≠ 1 ∧ s.randId = none) ∧
        ∀ al, Ready s → Uses s al → ∃ ts mr cr, AllConform s al mr cr ts ps ∧
          (s.ref = none → mr = c i % 255) ∧ (∀ r, s.ref = some r → (mr : Int) = r % 256) ∧
          (s.randId = none → cr = (c i + count (s.ref = none)) % 255) ∧
          (∀ r, s.randId = some r → (cr : Int) = r % 256)) := by
  have key : ∀ (ops : List Op) (s0 : State) (c0 : Nat), Drawn s0 c0 →
      ∃ c : Nat → Nat, c 0 = c0 ∧ ∀ i (h : i < ops.length),
        Drawn (run s0 (ops.take i)) (c i) ∧ c i ≤ c (i + 1) ∧ c (i + 1) ≤ c i + 2 ∧ (ops[i] ≠ .call → c (i + 1) = c i) ∧
        (ops[i] = .call → ∀ ps s', toPdu (run s0 (ops.take i)) = .ok ps s' →
          c (i + 1) = c i + count ((run s0 (ops.take i)).ref = none) +
            count (ps.length ≠ 1 ∧ (run s0 (ops.take i)).randId = none)) := by
    intro ops
    induction ops with
    | nil => intro s0 c0 _; exact ⟨fun _ => c0, rfl, fun i h => absurd h (by simp)⟩
    | cons op ops ih =>
      intro s0 c0 hd
      obtain ⟨c', k1, k2, k3, k4, k5⟩ := step_counter s0 op c0 hd
      obtain ⟨c, j1, j2⟩ := ih (step s0 op) c' k3
      refine ⟨fun i => match i with | 0 => c0 | i + 1 => c i, rfl, ?_⟩
      intro i h
      cases i with
      | zero =>
        simp only [j1]
        exact ⟨hd, k1, k2, k5, k4⟩
      | succ i =>
        exact j2 i (by simpa using h)
  obtain ⟨c, h1, h2⟩ := key ops s0 0 (init_drawn hi)
  refine ⟨c, h1, fun i h => ?_⟩
  obtain ⟨hd, h3, h4, h5, h6⟩ := h2 i h
  refine ⟨h3, h4, h5, fun hc ps s' hp => ⟨h6 hc ps s' hp, ?_⟩⟩
  intro al hr hu
  obtain ⟨ts, s1, _, _, g3, g4⟩ := toPdu_uses hr hu
  by_cases hl : ts.length ≤ 255
  · obtain ⟨ps', g5, g6⟩ := g3 hl
    rw [hp] at g5
    cases g5
    refine ⟨ts, _, _, g6, drawn_mr hd, ?_, ?_, ?_⟩
    · intro r hr; unfold mrOf; rw [hr]; simp only []; omega
    · intro hr
      have := drawn_cr (drawn_afterRef hd) (by rw [(afterRef_fields _).2.2.2.2.2.2.2.2]; exact hr)
      exact this
    · intro r hr
      unfold crOf
      rw [(afterRef_fields _).2.2.2.2.2.2.2.2, hr]
      simp only []; omega
  · rw [g4 (by omega)] at hp; cases hp

/-- C23: so fewer than 255 generated ids apart are distinct, and they are 0 to 254. -/
theorem C23_distinct (i j : Nat) (h : i < j) (hj : j < i + 255) : i % 255 ≠ j % 255 ∧ i % 255 < 255 := by omega

example := C23_distinct 250 300 (by decide) (by decide)

/-! ## C24 -/

/-- result of the `k`-th repetition of `to_pdu` -/
def nthCall (s : State) : Nat → Res State (List Pdu)
  | 0 => toPdu s
  | k + 1 => nthCall (toPdu s).state k

/-- C24: repeating `to_pdu` any number of times gives the same PDUs, if there is one or if `rand_id` is set. -/
theorem C24_repeat (s s' : State) (ps : List Pdu) (h : toPdu s = .ok ps s')
    (hc : s.randId ≠ none ∨ ps.length = 1) (k : Nat) : (nthCall s k).val = .ok ps := by
  induction k generalizing s s' with
  | zero => rw [nthCall, h]; rfl
  | succ k ih =>
    rw [nthCall, h]
    have ha := toPdu_after h
    have hm : mrOf s' = mrOf s := by
      have := mrOf_lt s
      conv_lhs => unfold mrOf
      rw [ha.ref]; simp only []; omega
    have hf : effFmt s' = effFmt s := by
      conv_lhs => unfold effFmt
      rw [ha.fmt]
    have hv := toPdu_val s'
    rw [ha.csca, ha.validity, ha.requestStatus, hm, ha.number, ha.pid, hf, ha.klass, ha.text] at hv
    have hv0 : (toPdu s).val = .ok ps := by rw [h]; rfl
    rw [toPdu_val] at hv0
    have hv1 : (toPdu s').val = .ok ps := by
      rw [hv]
      rcases hc with hc | hc
      · have : crOf (afterRef s') = crOf (afterRef s) := by
          unfold crOf
          rw [(afterRef_fields s').2.2.2.2.2.2.2.2, (afterRef_fields s).2.2.2.2.2.2.2.2, ha.randId]
          cases hr : s.randId with
          | none => exact absurd hr hc
          | some r => rfl
        rw [this]; exact hv0
      · obtain ⟨p, rfl⟩ := List.length_eq_one_iff.1 hc
        exact toPduP_single hv0
    exact ih s' _ (Res.val_ok hv1) (hc.imp (by rw [ha.randId]; exact id) id)

theorem ok_of_count {r : Res State (List Pdu)} {n : Nat} (h : r.val.toOption.map List.length = some n) :
    ∃ ps s', r = .ok ps s' ∧ ps.length = n := by
  cases r with
  | ok ps s' => exact ⟨ps, s', rfl, by simpa [Res.val, Except.toOption] using h⟩
  | err e s' => simp [Res.val, Except.toOption] at h

example : ∃ ps s', toPdu { sample ⟨true, List.replicate 400 0x20AC⟩ none with randId := some 7 } = .ok ps s' ∧
    ps.length = 6 ∧ GsmText ⟨true, List.replicate 400 0x20AC⟩ :=
  have ⟨ps, s', h1, h2⟩ := ok_of_count (r := toPdu { sample ⟨true, List.replicate 400 0x20AC⟩ none with
    randId := some 7 }) (n := 6) (by decide +kernel)
  ⟨ps, s', h1, h2, (gsmText_iff _).1 (by decide +kernel)⟩

/-- C24, second half in full: after changing the text the result is that of an object that was not used before -/
def C24_text_full : Prop := ∀ (s s' : State) (ps : List Pdu) (t : PyStr), Ready s → toPdu s = .ok ps s' →
  s.randId ≠ none → (toPdu { s' with text := t }).val = (toPdu { s with text := t }).val

/-- C24, second half, when the coding is set or both texts call for the same one.  Missing: the other case, for which it
is false (`C24_refuted`). -/
theorem C24_text_partial (s s' : State) (ps : List Pdu) (t : PyStr) (h : toPdu s = .ok ps s')
    (hf : s.fmt ≠ none ∨ (GsmText t ↔ GsmText s.text)) (hr : s.randId ≠ none) :
    (toPdu { s' with text := t }).val = (toPdu { s with text := t }).val := by
  have ha := toPdu_after h
  rw [toPdu_val, toPdu_val]
  have hm : mrOf { s' with text := t } = mrOf { s with text := t } := by
    have e1 : mrOf { s with text := t } = mrOf s := rfl
    have e2 : mrOf { s' with text := t } = mrOf s' := rfl
    rw [e1, e2]
    have := mrOf_lt s
    conv_lhs => unfold mrOf
    rw [ha.ref]; simp only []; omega
  have hfm : effFmt { s' with text := t } = effFmt { s with text := t } := by
    unfold effFmt
    simp only [ha.fmt]
    unfold effFmt
    cases hsf : s.fmt with
    | some f => rfl
    | none =>
      have hg : GsmText t ↔ GsmText s.text := by
        rcases hf with hf | hf
        · exact absurd hsf hf
        · exact hf
      rw [← gsmText_iff, ← gsmText_iff] at hg
      simp only []
      cases h1 : Gsm.isGsmText t <;> cases h2 : Gsm.isGsmText s.text <;> simp_all
  have hcr : crOf (afterRef { s' with text := t }) = crOf (afterRef { s with text := t }) := by
    unfold crOf
    rw [(afterRef_fields _).2.2.2.2.2.2.2.2, (afterRef_fields _).2.2.2.2.2.2.2.2]
    simp only [ha.randId]
    cases hrr : s.randId with
    | none => exact absurd hrr hr
    | some r => rfl
  rw [hm, hfm, hcr]
  simp only [ha.csca, ha.validity, ha.requestStatus, ha.number, ha.pid, ha.klass]

example : ∃ ps s', toPdu { sample ⟨true, py! "あ叶葉"⟩ (some 8) with randId := some 7 } = .ok ps s' := ⟨_, _, rfl⟩

/-- C24 is false of the code: after a GSM text, a Japanese text raises instead of being sent in UCS2. -/
theorem C24_refuted : ¬ C24_text_full := by
  intro hf
  let s : State := { sample ⟨true, py! "hello"⟩ none with randId := some 7 }
  have hp : ∃ ps, (toPdu s).val = .ok ps := by
    have : (match (toPdu s).val with | .ok _ => true | .error _ => false) = true := by decide +kernel
    cases hv : (toPdu s).val with
    | ok ps => exact ⟨ps, rfl⟩
    | error e => rw [hv] at this; cases this
  obtain ⟨ps, hps⟩ := hp
  have h0 := sample_ready ⟨true, py! "hello"⟩ none
  have hready : Ready s := ⟨h0.1, h0.2, h0.3, h0.4, h0.5⟩
  have := hf s _ ps ⟨true, py! "あ"⟩ hready (Res.val_ok hps) (by simp [s])
  have h1 : (toPdu { (toPdu s).state with text := ⟨true, py! "あ"⟩ }).val = .error .unicodeError := by decide +kernel
  have h2 : (match (toPdu { s with text := ⟨true, py! "あ"⟩ }).val with | .ok _ => true | .error _ => false) = true := by
    decide +kernel
  rw [this] at h1
  rw [h1] at h2
  cases h2

/-! ## C35 -/

/-- C35 in full: long messages sent through different objects, with no `rand_id` set, have different concatenation
references -/
def C35_full : Prop := ∀ n1 t1 n2 t2 s1 s2 al1 al2 ts1 ts2 mr1 mr2 cr1 cr2 ps1 ps2 s1' s2',
  init n1 t1 = .ok s1 → init n2 t2 = .ok s2 → toPdu s1 = .ok ps1 s1' → toPdu s2 = .ok ps2 s2' →
  ps1.length ≠ 1 → ps2.length ≠ 1 → (n1, t1) ≠ (n2, t2) →
  AllConform s1 al1 mr1 cr1 ts1 ps1 → AllConform s2 al2 mr2 cr2 ts2 ps2 → cr1 ≠ cr2

/-- What happens instead: the first long message of every object has concatenation reference 1 (0 if its message
reference was set), whatever its text and number. -/
theorem C35_same (n : Option (List Nat)) (t : PyStr) (s0 : State) (hi : init n t = .ok s0) (al : Alphabet)
    (hr : Ready s0) (hu : Uses s0 al) (ps : List Pdu) (s' : State) (h : toPdu s0 = .ok ps s') :
    ∃ ts mr, AllConform s0 al mr 1 ts ps := by
  obtain ⟨c, h0, h1⟩ := C23_history n t s0 hi [.call]
  obtain ⟨_, _, _, h2⟩ := h1 0 (by simp)
  obtain ⟨ts, mr, cr, h3, _, _, h4, _⟩ := (h2 rfl ps s' h).2 al hr hu
  have hini : s0.ref = none ∧ s0.randId = none := by
    unfold init at hi
    simp only [] at hi
    split at hi
    · rename_i s1 hs
      simp only [Except.ok.injEq] at hi
      subst hi
      unfold setNumber at hs
      cases n with
      | none => simp only [M.modify, Res.ok.injEq, true_and] at hs; rw [← hs]; exact ⟨rfl, rfl⟩
      | some x =>
        simp only [] at hs
        split at hs
        · cases hs
        · simp only [M.modify, Res.ok.injEq, true_and] at hs; rw [← hs]; exact ⟨rfl, rfl⟩
    · cases hi
  have h5 := h4 hini.2
  rw [h0] at h5
  have h6 : count ((run s0 (List.take 0 [Op.call])).ref = none) = 1 := by
    unfold count
    rw [if_pos (by exact hini.1)]
  rw [h6] at h5
  subst h5
  exact ⟨ts, mr, h3⟩

example : ∃ s0, init (some (py! "+34616585119")) ⟨true, py! "Hola"⟩ = .ok s0 ∧ ∃ ps s', toPdu s0 = .ok ps s' :=
  ⟨_, rfl, _, _, rfl⟩

/-- C35 is false of the code. -/
theorem C35_refuted : ¬ C35_full := by
  intro hf
  have key : ∀ c, c = 97 ∨ c = 98 → ∃ s0 ts mr ps s', init (some (py! "123")) ⟨true, List.replicate 161 c⟩ = .ok s0 ∧
      toPdu s0 = .ok ps s' ∧ ps.length ≠ 1 ∧ AllConform s0 .gsm mr 1 ts ps := by
    intro c hc
    have hi : ∃ s0, init (some (py! "123")) ⟨true, List.replicate 161 c⟩ = .ok s0 ∧ Ready s0 ∧ Uses s0 .gsm ∧
        s0.text = ⟨true, List.replicate 161 c⟩ := by
      refine ⟨_, rfl, ⟨⟨_, rfl, (validNumber_iff _).1 (by decide +kernel)⟩, trivial, ?_, ⟨?_, ?_⟩, trivial⟩,
        ⟨.inr rfl, (gsmText_iff _).1 ?_⟩, rfl⟩
      · intro k hk; cases hk
      · exact le_refl (0 : Int)
      · exact (by decide : (0 : Int) < 256)
      · rcases hc with rfl | rfl <;> decide +kernel
    obtain ⟨s0, h1, h2, h3, h4⟩ := hi
    have hun : Units .gsm s0.text.s (List.replicate 161 c) := by
      rw [h4]
      refine ((encode_iff (t := ⟨true, List.replicate 161 c⟩)).1 ?_).1
      rcases hc with rfl | rfl <;> decide +kernel
    obtain ⟨ps, s', h5⟩ := C10_succeeds s0 .gsm h2 h3 _ hun (by rw [List.length_replicate]; decide)
    obtain ⟨ts, mr, h6⟩ := C35_same _ _ _ h1 .gsm h2 h3 ps s' h5
    refine ⟨s0, ts, mr, ps, s', h1, h5, ?_, h6⟩
    intro hl
    have := (C09_count s0 .gsm h2 h3 ps s' h5 _ hun).1.1 hl
    rw [List.length_replicate] at this
    exact absurd this (by decide)
  obtain ⟨s1, ts1, mr1, ps1, s1', a1, a2, a3, a4⟩ := key 97 (.inl rfl)
  obtain ⟨s2, ts2, mr2, ps2, s2', b1, b2, b3, b4⟩ := key 98 (.inr rfl)
  exact hf _ _ _ _ _ _ _ _ _ _ _ _ _ _ _ _ _ _ a1 b1 a2 b2 a3 b3 (by decide) a4 b4 rfl

/-- C35 for one object: two long messages with no `rand_id` set, at most 126 operations apart, have different
references.  Missing: messages from different objects (the usual case), for which it is false (`C35_refuted`). -/
theorem C35_partial (n : Option (List Nat)) (t : PyStr) (s0 : State) (hi : init n t = .ok s0) (ops : List Op)
    (i j : Nat) (hij : i < j) (hd : j ≤ i + 126) (hj : j < ops.length) (ci : ops[i] = .call) (cj : ops[j] = .call)
    (pi pj : List Pdu) (si sj : State) (ti : toPdu (run s0 (ops.take i)) = .ok pi si)
    (tj : toPdu (run s0 (ops.take j)) = .ok pj sj) (li : pi.length ≠ 1)
    (ri : (run s0 (ops.take i)).randId = none) (rj : (run s0 (ops.take j)).randId = none)
    (ai aj : Alphabet) (yi : Ready (run s0 (ops.take i))) (yj : Ready (run s0 (ops.take j)))
    (ui : Uses (run s0 (ops.take i)) ai) (uj : Uses (run s0 (ops.take j)) aj) :
    ∃ tsi mri cri tsj mrj crj, AllConform (run s0 (ops.take i)) ai mri cri tsi pi ∧
      AllConform (run s0 (ops.take j)) aj mrj crj tsj pj ∧ cri ≠ crj := by
  obtain ⟨c, _, hc⟩ := C23_history n t s0 hi ops
  obtain ⟨_, _, _, hci⟩ := hc i (by omega)
  obtain ⟨_, _, _, hcj⟩ := hc j hj
  obtain ⟨ei, hci⟩ := hci ci pi si ti
  obtain ⟨ej, hcj⟩ := hcj cj pj sj tj
  obtain ⟨tsi, mri, cri, h1, _, _, h2, _⟩ := hci ai yi ui
  obtain ⟨tsj, mrj, crj, h3, _, _, h4, _⟩ := hcj aj yj uj
  refine ⟨tsi, mri, cri, tsj, mrj, crj, h1, h3, ?_⟩
  rw [h2 ri, h4 rj]
  have hmono : ∀ k, i + 1 + k ≤ j → c (i + 1) ≤ c (i + 1 + k) ∧ c (i + 1 + k) ≤ c (i + 1) + 2 * k := by
    intro k
    induction k with
    | zero => intro _; simp
    | succ k ih =>
      intro hk
      obtain ⟨a1, a2⟩ := ih (by omega)
      obtain ⟨b1, b2, _⟩ := hc (i + 1 + k) (by omega)
      have : i + 1 + (k + 1) = i + 1 + k + 1 := by omega
      rw [this]
      omega
  obtain ⟨m1, m2⟩ := hmono (j - (i + 1)) (by omega)
  rw [show i + 1 + (j - (i + 1)) = j by omega] at m1 m2
  have hcnt : count (pi.length ≠ 1 ∧ (run s0 (ops.take i)).randId = none) = 1 := if_pos ⟨li, ri⟩
  have hb : ∀ (p : Prop) [Decidable p], count p ≤ 1 := by
    intro p _; unfold count; split <;> omega
  have b1 := hb ((run s0 (ops.take i)).ref = none)
  have b2 := hb ((run s0 (ops.take j)).ref = none)
  rw [hcnt] at ei
  generalize hx : count ((run s0 (ops.take i)).ref = none) = x at *
  generalize hy : count ((run s0 (ops.take j)).ref = none) = y at *
  rw [ei] at m1 m2
  intro h
  omega

/-- two long messages through one object: `to_pdu`, another text, `to_pdu` -/
def sampleOps : List Op := [.call, .text ⟨true, List.replicate 200 97⟩, .call]

/-- the object of `sampleOps` before anything else is done with it ... -/
def sampleNew : State :=
  { number := some (py! "+34616585119"), csca := none, klass := none, validity := .none, requestStatus := false,
    ref := none, randId := none, idList := List.range 255, pid := 0, text := ⟨true, List.replicate 100 0x20AC⟩,
    fmt := none, dcs := none, textGsm := none }

/-- ... and before the second long message -/
def sampleUsed : State :=
  { sampleNew with ref := some 0, idList := (List.range 255).drop 2, text := ⟨true, List.replicate 200 97⟩,
                   fmt := some 0, dcs := some 0, textGsm := some (List.replicate 100 [27, 0x65]).flatten }

example : init (some (py! "+34616585119")) ⟨true, List.replicate 100 0x20AC⟩ = .ok sampleNew ∧
    (∃ ps s', toPdu (run sampleNew (sampleOps.take 0)) = .ok ps s' ∧ ps.length = 2) ∧
    (∃ ps s', toPdu (run sampleNew (sampleOps.take 2)) = .ok ps s' ∧ ps.length = 2) ∧
    (run sampleNew (sampleOps.take 2)).randId = none ∧ Ready (run sampleNew (sampleOps.take 2)) ∧
    Uses (run sampleNew (sampleOps.take 2)) .gsm := by
  have e : run sampleNew (sampleOps.take 2) = sampleUsed := by decide +kernel
  rw [e]
  refine ⟨by decide +kernel, ok_of_count (by decide +kernel), ok_of_count (by decide +kernel), rfl, ⟨?_, ?_, ?_, ?_, ?_⟩, ?_⟩
  · exact ⟨_, rfl, (validNumber_iff _).1 (by decide +kernel)⟩
  · trivial
  · rintro k ⟨⟩
  · exact ⟨le_refl 0, by exact (by decide : (0 : Int) < 256)⟩
  · trivial
  · exact ⟨.inl rfl, (gsmText_iff _).1 (by decide +kernel)⟩

end Verif.Props

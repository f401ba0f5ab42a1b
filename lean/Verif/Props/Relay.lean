import Verif.Proofs.Deliver2
import Verif.Props.Submit
/-!
# C12-C16: from `to_pdu` through a service centre to `SmsDeliver`
-/
set_option autoImplicit false

namespace Verif.Props
open Verif Verif.Spec Verif.Spec.Sms Verif.Spec.Time Verif.Spec.Submit Verif.Submit
open Verif.Deliver (smsDeliver)

/-- what a service centre may add -/
def sampleRelay : Relay :=
  ⟨[7, 0x91, 0x43, 0x46, 0x46, 0x65, 0x54, 0xF6], [0x0B, 0x91, 0x43, 0x16, 0x56, 0x58, 0x11, 0xF9],
    [0x11, 0x30, 0x13, 0x21, 0x43, 0x65, 0x80], true, false⟩

theorem sampleRelay_ok : sampleRelay.Ok where
  octets := by decide
  smsc := ⟨some ⟨0x91, [3, 4, 6, 4, 6, 4, 5, 6, 4, 5, 6]⟩, by decide⟩
  oa := ⟨0x0B, 0x91, [0x43, 0x16, 0x56, 0x58, 0x11, 0xF9], rfl, by decide⟩
  scts := ⟨⟨11, 3, 31, 12, 34, 56, 8⟩, by decide, by decide⟩

/-- The parts `ts` of a message arrive: each PDU can be relayed, and however it is relayed it decodes to its part of the
text; if there are several, also to the common reference, the number of parts and its position. -/
def Arrive (ps : List Pdu) (ts : List (List Nat)) (ref : Nat) : Prop :=
  ts.length = ps.length ∧ ∀ i (h : i < ts.length) (h' : i < ps.length) (r : Relay), r.Ok →
    (∃ q, Relays r ps[i].pdu q) ∧ ∀ q, Relays r ps[i].pdu q → ∃ d, smsDeliver q = .ok d ∧
      (Deliver.data d).text = some ts[i] ∧
      (Deliver.data d).concat = (if ps.length = 1 then none else some (ref, ps.length, i + 1))

theorem uses_conforms {s : State} {al : Alphabet} (hr : Ready s) (hu : Uses s al) {ps : List Pdu} {s' : State}
    (h : toPdu s = .ok ps s') : ∃ (ts : List (List Nat)) (mr cr : Nat), ts.flatten = s.text.s ∧ cr < 256 ∧
      ts.length < 256 ∧ (al = .bin → ts.length = 1) ∧ AllConform s al mr cr ts ps := by
  obtain ⟨ts, s1, hdiv, _, h3, h4⟩ := toPdu_uses hr hu
  by_cases hl : ts.length ≤ 255
  · obtain ⟨ps', h5, h6⟩ := h3 hl
    rw [h] at h5
    cases h5
    refine ⟨ts, mrOf s, crOf (afterRef s), hdiv.1, crOf_lt _, by omega, ?_, h6⟩
    rintro rfl
    obtain ⟨_, units, hun, hd⟩ := hdiv
    rcases hd with ⟨_, hd⟩ | ⟨hd, _⟩
    · rw [hd]; rfl
    · have hu3 := hu.2.2.1
      have : units = s.text.s := hun
      rw [this] at hd
      exact absurd hd (Nat.not_lt.2 hu3)
  · rw [h4 (by omega)] at h; cases h

theorem arrive {s : State} {al : Alphabet} (hr : Ready s) (hu : Uses s al) {ps : List Pdu} {s' : State}
    (h : toPdu s = .ok ps s') : ∃ ts ref, ts.flatten = s.text.s ∧ Arrive ps ts ref := by
  obtain ⟨ts, mr, cr, h1, h2, h3, h4, h6, h7⟩ := uses_conforms hr hu h
  refine ⟨ts, cr, h1, h6.symm, fun i hi hi' r hok => ?_⟩
  obtain ⟨hq, hd⟩ := Deliver.relay_conforms hr.klass (h7 i hi hi') h2 h3 hi h4 hok
  refine ⟨hq, fun q hq' => ?_⟩
  obtain ⟨_, _, _, _, _, _, _, _, _, _, d, a1, a2, a3, _⟩ := hd q hq'
  refine ⟨d, a1, a2, ?_⟩
  unfold Deliver.data
  rw [a3, Deliver.udhOf, h6]
  by_cases hn : ts.length = 1
  · simp only [hn, if_true]
  · simp only [hn, if_false]

/-- C12: a text in the GSM alphabet arrives: the decoded parts, joined in order, are the text. -/
theorem C12_gsm (s : State) (hr : Ready s) (hu : Uses s .gsm) (ps : List Pdu) (s' : State) (h : toPdu s = .ok ps s') :
    ∃ ts ref, ts.flatten = s.text.s ∧ Arrive ps ts ref := arrive hr hu h

example : Ready (sample ⟨true, py! "Hola, qué tal [€]"⟩ none) ∧ Uses (sample ⟨true, py! "Hola, qué tal [€]"⟩ none) .gsm ∧
    ∃ ps s', toPdu (sample ⟨true, py! "Hola, qué tal [€]"⟩ none) = .ok ps s' := ⟨sample_ready _ _, sample_gsm, _, _, rfl⟩

/-- C13: the same for UCS2. -/
theorem C13_ucs2 (s : State) (hr : Ready s) (hu : Uses s .ucs2) (ps : List Pdu) (s' : State)
    (h : toPdu s = .ok ps s') : ∃ ts ref, ts.flatten = s.text.s ∧ Arrive ps ts ref := arrive hr hu h

example : Ready (sample ⟨true, py! "あ叶葉"⟩ none) ∧ Uses (sample ⟨true, py! "あ叶葉"⟩ none) .ucs2 ∧
    ∃ ps s', toPdu (sample ⟨true, py! "あ叶葉"⟩ none) = .ok ps s' := ⟨sample_ready _ _, sample_ucs2, _, _, rfl⟩

/-- C13: characters above U+FFFF raise ValueError. -/
theorem C13_too_big (s : State) (hr : Ready s) (hf : s.fmt = some 8 ∨ (s.fmt = none ∧ ¬ GsmText s.text))
    (hu : s.text.uni = true) (hc : ∃ c ∈ s.text.s, 65536 ≤ c) : ∃ s', toPdu s = .err .valueError s' := by
  refine toPdu_ucs2_big hr ?_ hu hc
  unfold effFmt
  rcases hf with h | ⟨h, ht⟩
  · rw [h]
  · rw [h]; simp only; rw [if_neg (fun h => ht ((gsmText_iff _).1 h))]

example := C13_too_big (sample ⟨true, [97, 0x1F600]⟩ (some 8)) (sample_ready _ _) (.inl rfl) rfl ⟨0x1F600, by simp [sample], by decide⟩

/-- C12, C13: joining in order: whatever the service centre adds to the parts, decoding them one after the other gives the text. -/
theorem C12_join {ps : List Pdu} {ts : List (List Nat)} {ref : Nat} (h : Arrive ps ts ref) (rs : List Relay)
    (qs : List (List Nat)) (hr : ∀ r ∈ rs, r.Ok) (hl : rs.length = ps.length) (hl' : qs.length = ps.length)
    (hq : ∀ i (h1 : i < rs.length) (h2 : i < ps.length) (h3 : i < qs.length), Relays rs[i] ps[i].pdu qs[i]) :
    ∃ ds, qs.mapM (smsDeliver ·) = .ok ds ∧ ds.map (·.text) = ts.map some := by
  obtain ⟨h1, h2⟩ := h
  have key : ∀ (qs : List (List Nat)) (ts : List (List Nat)), qs.length = ts.length →
      (∀ i (h1 : i < qs.length) (h2 : i < ts.length), ∃ d, smsDeliver qs[i] = .ok d ∧ d.text = some ts[i]) →
      ∃ ds, qs.mapM (smsDeliver ·) = .ok ds ∧ ds.map (·.text) = ts.map some := by
    intro qs
    induction qs with
    | nil =>
      intro ts hl _
      have : ts = [] := List.length_eq_zero_iff.1 (by simpa using hl.symm)
      rw [this]
      exact ⟨[], rfl, rfl⟩
    | cons q qs ih =>
      intro ts hl hi
      cases ts with
      | nil => simp at hl
      | cons t ts =>
        obtain ⟨d, hd, hd'⟩ := hi 0 (by simp) (by simp)
        obtain ⟨ds, hds, hds'⟩ := ih ts (by simpa using hl) (fun i a b => by
          have := hi (i + 1) (by simpa using a) (by simpa using b)
          simpa using this)
        refine ⟨d :: ds, ?_, ?_⟩
        · rw [List.mapM_cons]
          simp only [List.getElem_cons_zero] at hd
          rw [hd, hds]; rfl
        · simp only [List.getElem_cons_zero] at hd'
          rw [List.map_cons, List.map_cons, hd', hds']
  refine key qs ts (by omega) fun i a b => ?_
  obtain ⟨_, h3⟩ := h2 i b (by omega) (rs[i]'(by omega)) (hr _ (List.getElem_mem ..))
  obtain ⟨d, d1, d2, _⟩ := h3 qs[i] (hq i (by omega) (by omega) a)
  exact ⟨d, d1, d2⟩

example : ∃ ps s', toPdu (sample ⟨true, List.replicate 400 0x20AC⟩ none) = .ok ps s' ∧
    ∃ ts ref, ts.flatten = List.replicate 400 0x20AC ∧ Arrive ps ts ref := by
  obtain ⟨ps, s', h⟩ := C10_succeeds (sample ⟨true, List.replicate 400 0x20AC⟩ none) .gsm (sample_ready _ _)
    sample_gsm_long (List.replicate 400 [27, 0x65]).flatten
    ((encode_iff (t := ⟨true, List.replicate 400 0x20AC⟩)).1 (by decide +kernel)).1 (by decide +kernel)
  exact ⟨ps, s', h, C12_gsm _ (sample_ready _ _) sample_gsm_long ps s' h⟩

/-! ## C14 -/

/-- C14 in full -/
def C14_full : Prop := ∀ s s' ps, Ready s → s.fmt = some 4 → s.text.uni = false → (∀ c ∈ s.text.s, c < 256) →
  toPdu s = .ok ps s' → ∃ ts ref, ts.flatten = s.text.s ∧ Arrive ps ts ref

/-- C14 for data that fits in one message.  Missing: longer data, for which it is false (`C14_refuted`): the concatenation
header is announced but not sent. -/
theorem C14_partial (s : State) (hr : Ready s) (hf : s.fmt = some 4) (hu : s.text.uni = false)
    (ho : ∀ c ∈ s.text.s, c < 256) (hl : s.text.s.length ≤ 140) :
    ∃ ps s', toPdu s = .ok ps s' ∧ ∃ ts ref, ts.flatten = s.text.s ∧ Arrive ps ts ref := by
  have huses : Uses s .bin := ⟨hf, ho, hl, .inl hu⟩
  obtain ⟨ps, s', h⟩ := C10_succeeds s .bin hr huses s.text.s rfl (by
    have : (254 * (partSize .bin - 1) : Nat) = 254 * 133 := rfl
    omega)
  exact ⟨ps, s', h, arrive hr huses h⟩

example := C14_partial (sample ⟨false, [0, 200, 255]⟩ (some 4)) (sample_ready _ _) rfl rfl (by simp [sample]) (by simp [sample])

/-- the text decoded from a PDU, relayed -/
def relayedText (p : Pdu) (r : Relay) : Option (Option (List Nat)) :=
  match toArray p.pdu with
  | .ok bytes =>
    match readSmsc bytes with
    | some (_, rest) =>
      match readSubmit rest with
      | some sub =>
        match smsDeliver (hexUpper (r.deliver sub)) with
        | .ok d => if p.pdu = hexUpper bytes ∧ ∀ x ∈ bytes, x < 256 then some d.text else none
        | .error _ => none
      | none => none
    | none => none
  | .error _ => none

theorem relayedText_some {p : Pdu} {r : Relay} {t : Option (List Nat)} (h : relayedText p r = some t) :
    ∃ q d, Relays r p.pdu q ∧ smsDeliver q = .ok d ∧ d.text = t := by
  unfold relayedText at h
  split at h
  · rename_i bytes hb
    split at h
    · rename_i sm rest hsm
      split at h
      · rename_i sub hsub
        split at h
        · rename_i d hd
          split at h
          · rename_i hx
            cases h
            exact ⟨_, d, ⟨bytes, sm, rest, sub, hx.1, hx.2, hsm, hsub, rfl⟩, hd, rfl⟩
          · cases h
        · cases h
      · cases h
    · cases h
  · cases h

/-- C14 is false of the code: of 141 letters 'a' only 36 arrive, with the first part. -/
theorem C14_refuted : ¬ C14_full := by
  intro hf
  have hv : ∃ p1 p2, (toPdu (sample ⟨false, List.replicate 141 97⟩ (some 4))).val = .ok [p1, p2] ∧
      relayedText p1 sampleRelay = some (some (List.replicate 36 97)) ∧ relayedText p2 sampleRelay = some (some []) :=
    ⟨⟨py! "07914346466554F671000B914316565811F90015A789" ++ (List.replicate 134 [54, 49]).flatten, 148, 2, 1⟩,
      ⟨py! "07914346466554F671000B914316565811F90015A70A" ++ (List.replicate 7 [54, 49]).flatten, 21, 2, 2⟩,
      by decide +kernel⟩
  obtain ⟨p1, p2, h1, h2, h3⟩ := hv
  obtain ⟨q1, d1, a1, a2, a3⟩ := relayedText_some h2
  obtain ⟨q2, d2, b1, b2, b3⟩ := relayedText_some h3
  obtain ⟨ts, ref, h5, h6, h7⟩ := hf _ _ _ (sample_ready _ _) rfl rfl (by
    intro c hc; rw [List.eq_of_mem_replicate hc]; decide) (Res.val_ok h1)
  match ts, h6, h5, h7 with
  | [t1, t2], _, h5, h7 =>
    obtain ⟨_, c1⟩ := h7 0 (by simp) (by simp) _ sampleRelay_ok
    obtain ⟨_, c2⟩ := h7 1 (by simp) (by simp) _ sampleRelay_ok
    obtain ⟨_, e1, e2, _⟩ := c1 q1 a1
    obtain ⟨_, f1, f2, _⟩ := c2 q2 b1
    rw [a2] at e1
    cases e1
    rw [b2] at f1
    cases f1
    have g1 : some (List.replicate 36 97) = some t1 := a3.symm.trans e2
    have g2 : some [] = some t2 := b3.symm.trans f2
    rw [← Option.some.inj g1, ← Option.some.inj g2] at h5
    have := congrArg List.length h5
    simp [sample] at this

/-! ## C15, C16 -/

theorem csca_lt {c : Option (List Nat)} {sm : Option Address} (h : CscaDenotes c sm) :
    ∀ b, sm = some b → ∀ d ∈ b.digits, d < 10 := by
  rintro b rfl
  unfold CscaDenotes at h
  split at h
  · cases h
  · cases h
  · obtain ⟨a, ha, hd⟩ := h
    cases ha
    exact (denotes_lt hd).1

theorem envelope_raw {s : State} {al : Alphabet} {mr n i : Nat} {p : Pdu} {udl : Nat} {ud : List Nat}
    (h : Envelope s al mr n i p udl ud) : ∃ (sm : Option Address) (a : Address) (fo : Nat) (rest : List Nat) (x : List Nat),
      p.pdu = hexUpper (smscBytes sm ++ fo :: mr :: (addrBytes a ++ rest)) ∧
      (∀ x ∈ smscBytes sm ++ fo :: mr :: (addrBytes a ++ rest), x < 256) ∧ CscaDenotes s.csca sm ∧
      s.number = some x ∧ Denotes x a := by
  obtain ⟨bytes, sm, rest, sub, h1, h2, h3, h4, _, _, _, h5, _, _, _, _, _, h6, _, ⟨x, h7, h8⟩, _⟩ := h
  have hb := readSmsc_bytes h2 h3 (csca_lt h4)
  have hrest : ∀ x ∈ rest, x < 256 := fun x hx => h2 x (by rw [hb]; exact List.mem_append_right _ hx)
  match rest, h5 with
  | fo :: mr' :: r, h5 =>
    simp only [readSubmit] at h5
    split at h5
    · rename_i da pid dcs r' hra
      have hr := (readAddress_bytes (fun x hx => hrest x (by simp [hx])) hra).1
      split at h5
      · cases h5
      · split at h5
        · cases h5
          simp only at h6 h8
          refine ⟨sm, da, fo, pid :: dcs :: r', x, ?_, ?_, h4, h7, h8⟩
          · rw [h1, hb, ← h6, ← hr]
          · rw [← hr, ← h6, ← hb]; exact h2
        · cases h5
    · cases h5

theorem sender_display {x : List Nat} {a : Address} (h : Denotes x a) :
    Deliver.decodeSender a.toa (bcd a.digits) = .ok (x.filter (· ≠ 10)) ∧
    Deliver.recipientP a.toa (bcd a.digits) = x.filter (· ≠ 10) := by
  obtain ⟨h1, h2⟩ := denotes_lt h
  obtain ⟨plus, nl, ds, hx, hd, ht, hdig⟩ := h
  have hmap : a.digits.map (· + 48) = ds := by
    rw [hdig, List.map_map]
    conv_rhs => rw [← List.map_id ds]
    apply List.map_congr_left
    intro d hd'
    have := hd d hd'
    simp only [Function.comp_apply, id]
    omega
  have hf : x.filter (· ≠ 10) = (if plus then [43] else []) ++ ds := by
    rw [hx, List.filter_append, List.filter_append]
    have e1 : ds.filter (· ≠ 10) = ds := List.filter_eq_self.2 (fun d hd' => by have := hd d hd'; simp; omega)
    rw [e1]
    cases plus <;> cases nl <;> simp
  rw [hf]
  unfold Deliver.decodeSender Deliver.recipientP
  simp only [swapNumber_bcd _ h1, hmap, ht]
  cases plus <;> exact ⟨rfl, rfl⟩

/-- C15: the destination field of the PDUs, used as an originating address, decodes to the number that was set (without
the newline that is accepted at the end). -/
theorem C15_number (s : State) (al : Alphabet) (hr : Ready s) (hu : Uses s al) (ps : List Pdu) (s' : State)
    (h : toPdu s = .ok ps s') (p : Pdu) (hp : p ∈ ps) : ∃ (sm da rest x : List Nat) (fo mr : Nat),
      p.pdu = hexUpper (sm ++ fo :: mr :: (da ++ rest)) ∧ (∃ a, readSmsc sm = some (a, [])) ∧
      (∃ a, readAddress da = some (a, [])) ∧ s.number = some x ∧
      ∀ r : Relay, r.Ok → r.oa = da → (∃ q, Relays r p.pdu q) ∧ ∀ q, Relays r p.pdu q →
        ∃ d, smsDeliver q = .ok d ∧ d.number = some (x.filter (· ≠ 10)) := by
  obtain ⟨ts, mr, cr, h1, h2, h3, h4, h6, h7⟩ := uses_conforms hr hu h
  obtain ⟨i, hi, rfl⟩ := List.getElem_of_mem hp
  have hc := h7 i (by omega) hi
  obtain ⟨udl, ud, he, _⟩ := hc
  obtain ⟨sm, a, fo, rest, x, e1, e2, e3, e4, e5⟩ := envelope_raw he
  have hda := (denotes_lt e5).1
  refine ⟨smscBytes sm, addrBytes a, rest, x, fo, mr, e1, ⟨sm, ?_⟩, ⟨a, ?_⟩, e4, ?_⟩
  · have := readSmsc_ok (csca_lt e3) []
    rwa [List.append_nil] at this
  · have := readAddress_ok hda []
    rwa [List.append_nil] at this
  · intro r hok hoa
    obtain ⟨hq, hd⟩ := Deliver.relay_conforms hr.klass (h7 i (by omega) hi) h2 h3 (by omega) h4 hok
    refine ⟨hq, fun q hq' => ?_⟩
    obtain ⟨k, toa, o, sender, _, b1, b2, b3, _, _, d, a1, _, _, a4, _⟩ := hd q hq'
    refine ⟨d, a1, ?_⟩
    rw [hoa, addrBytes] at b1
    simp only [List.cons.injEq] at b1
    rw [← b1.2.1, ← b1.2.2, (sender_display e5).1] at b3
    rw [a4, ← Except.ok.inj b3]

example : Ready (sample ⟨true, py! "あ叶葉"⟩ none) ∧ Uses (sample ⟨true, py! "あ叶葉"⟩ none) .ucs2 ∧
    ∃ p s', toPdu (sample ⟨true, py! "あ叶葉"⟩ none) = .ok [p] s' := ⟨sample_ready _ _, sample_ucs2, _, _, rfl⟩

/-- C16: the service centre field of the PDUs decodes to the address that was set (nothing when it was not, or was
empty), and is followed by the message (its type and reference, then the destination). -/
theorem C16_csca (s : State) (al : Alphabet) (hr : Ready s) (hu : Uses s al) (ps : List Pdu) (s' : State)
    (h : toPdu s = .ok ps s') (p : Pdu) (hp : p ∈ ps) : ∃ (sm da rest : List Nat) (fo mr : Nat),
      p.pdu = hexUpper (sm ++ fo :: mr :: (da ++ rest)) ∧ (∃ a, readSmsc sm = some (a, [])) ∧
      (∃ a, readAddress da = some (a, [])) ∧ fo % 4 = 1 ∧
      ∀ r : Relay, r.Ok → r.smsc = sm → (∃ q, Relays r p.pdu q) ∧ ∀ q, Relays r p.pdu q →
        ∃ d, smsDeliver q = .ok d ∧ d.csca = (match s.csca with
          | none => none
          | some [] => none
          | some x => some (x.filter (· ≠ 10))) := by
  obtain ⟨ts, mr, cr, h1, h2, h3, h4, h6, h7⟩ := uses_conforms hr hu h
  obtain ⟨i, hi, rfl⟩ := List.getElem_of_mem hp
  have hc := h7 i (by omega) hi
  obtain ⟨udl, ud, he, _⟩ := hc
  obtain ⟨sm, a, fo, rest, x, e1, e2, e3, e4, e5⟩ := envelope_raw he
  have hda := (denotes_lt e5).1
  refine ⟨smscBytes sm, addrBytes a, rest, fo, mr, e1, ⟨sm, ?_⟩, ⟨a, ?_⟩, ?_, ?_⟩
  · have := readSmsc_ok (csca_lt e3) []
    rwa [List.append_nil] at this
  · have := readAddress_ok hda []
    rwa [List.append_nil] at this
  · obtain ⟨bytes, sm', rest', sub, g1, g2, g3, _, _, _, _, g5, g6, _⟩ := he
    have hb := Deliver.hexUpper_inj g2 e2 (g1.symm.trans e1)
    rw [hb, readSmsc_ok (csca_lt e3)] at g3
    simp only [Option.some.injEq, Prod.mk.injEq] at g3
    rw [← g3.2] at g5
    simp only [readSubmit] at g5
    split at g5
    · split at g5
      · cases g5
      · split at g5
        · cases g5; exact g6
        · cases g5
    · cases g5
  · intro r hok hoa
    obtain ⟨hq, hd⟩ := Deliver.relay_conforms hr.klass (h7 i (by omega) hi) h2 h3 (by omega) h4 hok
    refine ⟨hq, fun q hq' => ?_⟩
    obtain ⟨k, toa, o, sender, _, b1, b2, b3, _, _, d, a1, _, _, _, a5, _⟩ := hd q hq'
    refine ⟨d, a1, ?_⟩
    rw [a5, hoa]
    unfold CscaDenotes at e3
    split at e3
    · rename_i hcs
      rw [e3, hcs]; rfl
    · rename_i hcs
      rw [e3, hcs]; rfl
    · rename_i y hne hcs
      obtain ⟨b, hb, hd'⟩ := e3
      rw [hb, hcs]
      cases y with
      | nil => exact absurd rfl hne
      | cons c y => exact congrArg some (sender_display hd').2

example : ∃ a, Denotes (py! "+34616585119") a ∧ Relay.Ok { sampleRelay with oa := addrBytes a } :=
  ⟨⟨0x91, [3, 4, 6, 1, 6, 5, 8, 5, 1, 1, 9]⟩, ⟨true, false, py! "34616585119", rfl, by decide, rfl, rfl⟩,
    sampleRelay_ok⟩

end Verif.Props

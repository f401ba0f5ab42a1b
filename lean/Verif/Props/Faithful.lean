import Verif.Proofs.Deliver6
import Verif.Props.Deliver
/-!
# C64-C65: a conformant SMS-DELIVER decodes to its fields; senders
-/
set_option autoImplicit false

namespace Verif.Props
open Verif Verif.Spec Verif.Spec.Sms Verif.Spec.Time
open Verif.Deliver (smsDeliver setPdu State)

/-! ## C65 -/

/-- the full claim: false, see `C65_refuted` and `C65_refuted_star` -/
def C65_full : Prop :=
  ∀ (p : DeliverPdu) (s : List Nat) (strict : Bool) (d : State), p.Ok → ShownAddress p.oa s →
    smsDeliver (hexUpper p.octets) strict = .ok d → d.number = some s

theorem number_set {p : DeliverPdu} (h : p.Ok) {strict : Bool} {d : State} {n toa : Nat} {o : List Nat} {s : Str}
    (ho : p.oa = n :: toa :: o) (hs : Deliver.decodeSender toa o = .ok s)
    (hd : smsDeliver (hexUpper p.octets) strict = .ok d) : d.number = some s := by
  obtain ⟨n', toa', o', sender, stamp, z, h0, _, h0', h1, h2, h3, h4, _, h5⟩ := Deliver.pduP_deliver h
  rw [ho] at h0
  cases h0
  rw [hs] at h0'
  cases h0'
  rw [Deliver.smsDeliver_eq, Deliver.setP_hex h.octets, h5] at hd
  obtain ⟨g, hg, hd⟩ := Deliver.ebind_ok hd
  obtain ⟨dt, hdt, hg⟩ := Deliver.ebind_ok hg
  obtain ⟨f, hf, hg⟩ := Deliver.ebind_ok hg
  cases hg
  cases hd
  rcases Deliver.udP_frame (Deliver.fmtOfDcs_cases _) hf with ⟨t, _, rfl⟩ | ⟨t, u, _, rfl⟩ <;> rfl

/-- C65 for numbers with decimal digits, of any type and length; the type is international exactly if there is a '+'.
Missing: `*`, `#` and the letters of telephone keypads, see `C65_keypad`. -/
theorem C65_numeric_partial (p : DeliverPdu) (a : Address) (strict : Bool) (d : State) (h : p.Ok)
    (ha : readAddress p.oa = some (a, [])) (ht : a.toa / 16 % 8 ≠ 5) (hdig : ∀ x ∈ a.digits, x < 10)
    (hd : smsDeliver (hexUpper p.octets) strict = .ok d) : d.number = some (display a) := by
  have hoa : ∀ x ∈ p.oa, x < 256 := fun x hx => h.octets x (by simp [DeliverPdu.octets, hx])
  have hb := (Submit.readAddress_bytes hoa ha).1
  rw [List.append_nil] at hb
  exact number_set h hb (Deliver.decodeSender_numeric hdig ht) hd

example : sampleDeliver.Ok ∧ readAddress sampleDeliver.oa = some (⟨0x91, [1, 2, 3, 4]⟩, []) ∧
    ∃ d, smsDeliver (hexUpper sampleDeliver.octets) = .ok d := ⟨sampleDeliver_ok, by decide, _, rfl⟩

/-- C65: what is shown for semi-octets up to 14: their hexadecimal digits. -/
theorem C65_keypad (p : DeliverPdu) (a : Address) (strict : Bool) (d : State) (h : p.Ok)
    (ha : readAddress p.oa = some (a, [])) (ht : a.toa / 16 % 8 ≠ 5) (hdig : ∀ x ∈ a.digits, x < 15)
    (hd : smsDeliver (hexUpper p.octets) strict = .ok d) :
    ∃ cs, a.digits.mapM (fun x => (py! "0123456789abcde")[x]?) = some cs ∧
      d.number = some ((if a.toa / 16 % 8 = 1 then [43] else []) ++ cs) := by
  have hoa : ∀ x ∈ p.oa, x < 256 := fun x hx => h.octets x (by simp [DeliverPdu.octets, hx])
  have hb := (Submit.readAddress_bytes hoa ha).1
  rw [List.append_nil] at hb
  exact ⟨_, Deliver.hexDigits_mapM _ hdig, number_set h hb (Deliver.decodeSender_hex hdig ht) hd⟩

example : ∃ p : DeliverPdu, p.Ok ∧ readAddress p.oa = some (⟨0x91, [1, 11, 3, 14]⟩, []) ∧
    ∃ d, smsDeliver (hexUpper p.octets) = .ok d :=
  ⟨{ sampleDeliver with oa := [4, 0x91, 0xB1, 0xE3] },
    ⟨by decide, sampleDeliver_ok.smsc, by decide, ⟨4, 0x91, [0xB1, 0xE3], rfl, by decide⟩, sampleDeliver_ok.scts⟩, by decide, _, rfl⟩

/-- C65 for alphanumeric senders.  Missing: when seven bits of the last octet are unused, see `C65_trailing`. -/
theorem C65_alphanumeric_partial (p : DeliverPdu) (s g : List Nat) (strict : Bool) (d : State) (h : p.Ok)
    (ha : AlphanumericAddress p.oa s g) (h7 : g.length % 8 ≠ 7) (hd : smsDeliver (hexUpper p.octets) strict = .ok d) :
    d.number = some s := by
  obtain ⟨n, toa, o, ho, _, hs⟩ := Deliver.decodeSender_alpha ha (alpha_length h ha)
  rw [if_neg h7, List.append_nil] at hs
  exact number_set h ho hs hd
where
  alpha_length {p : DeliverPdu} (h : p.Ok) {s g : List Nat} (ha : AlphanumericAddress p.oa s g) : g.length ≤ 160 := by
    obtain ⟨toa, o, ho, _⟩ := ha
    have := h.octets ((7 * g.length + 3) / 4) (by simp [DeliverPdu.octets, ho])
    omega

/-- C65: senders of 7 (15, ...) septets are shown with an additional '@'. -/
theorem C65_trailing (p : DeliverPdu) (s g : List Nat) (strict : Bool) (d : State) (h : p.Ok)
    (ha : AlphanumericAddress p.oa s g) (h7 : g.length % 8 = 7) (hd : smsDeliver (hexUpper p.octets) strict = .ok d) :
    d.number = some (s ++ [64]) := by
  obtain ⟨n, toa, o, ho, _, hs⟩ := Deliver.decodeSender_alpha ha (C65_alphanumeric_partial.alpha_length h ha)
  rw [if_pos h7] at hs
  exact number_set h ho hs hd

/-- the sender "Network" -/
def sevenLetters : DeliverPdu :=
  { sampleDeliver with oa := [13, 0xD0, 0xCE, 0x32, 0xFD, 0xFE, 0x96, 0xAF, 0x01] }

theorem sevenLetters_ok : sevenLetters.Ok :=
  ⟨by decide, sampleDeliver_ok.smsc, by decide, ⟨_, _, _, rfl, by decide⟩, by decide⟩

theorem sevenLetters_address : AlphanumericAddress sevenLetters.oa (py! "Network") [78, 101, 116, 119, 111, 114, 107] := by
  refine ⟨0xD0, [0xCE, 0x32, 0xFD, 0xFE, 0x96, 0xAF, 0x01], by decide, by decide, ?_, by decide, by decide, by decide⟩
  exact ⟨[[78], [101], [116], [119], [111], [114], [107]],
    .cons (.inl ⟨78, by decide, by decide, rfl⟩) (.cons (.inl ⟨101, by decide, by decide, rfl⟩)
    (.cons (.inl ⟨116, by decide, by decide, rfl⟩) (.cons (.inl ⟨119, by decide, by decide, rfl⟩)
    (.cons (.inl ⟨111, by decide, by decide, rfl⟩) (.cons (.inl ⟨114, by decide, by decide, rfl⟩)
    (.cons (.inl ⟨107, by decide, by decide, rfl⟩) .nil)))))), rfl⟩

/-- a message from "Network" comes from "Network@" -/
theorem C65_refuted : ¬ C65_full := by
  intro h
  obtain ⟨d, hd⟩ : ∃ d, smsDeliver (hexUpper sevenLetters.octets) true = .ok d := ⟨_, rfl⟩
  have h1 := h _ _ true d sevenLetters_ok (.inr ⟨_, sevenLetters_address⟩) hd
  have h2 := C65_trailing _ _ _ true d sevenLetters_ok sevenLetters_address (by decide) hd
  rw [h1] at h2
  exact absurd h2 (by decide)

/-- a message from "*100#" comes from "a100b" -/
theorem C65_refuted_star : ¬ C65_full := by
  intro h
  have hok : ({ sampleDeliver with oa := [5, 0x81, 0x1A, 0x00, 0xFB] } : DeliverPdu).Ok :=
    ⟨by decide, sampleDeliver_ok.smsc, by decide, ⟨_, _, _, rfl, by decide⟩, by decide⟩
  have h1 := h _ (py! "*100#") true _ hok
    (.inl ⟨⟨0x81, [10, 1, 0, 0, 11]⟩, _, by decide, by decide, rfl, by decide⟩) rfl
  revert h1
  decide +kernel

/-- "Alert" as a sender; a number with a '+' -/
example : ∃ (p : DeliverPdu) (d : State), p.Ok ∧ AlphanumericAddress p.oa (py! "Alert") [65, 108, 101, 114, 116] ∧
    smsDeliver (hexUpper p.octets) = .ok d ∧ d.number = some (py! "Alert") :=
  ⟨{ sampleDeliver with oa := [9, 0xD0, 0x41, 0x76, 0x59, 0x4E, 0x07] }, _,
    ⟨by decide, sampleDeliver_ok.smsc, by decide, ⟨_, _, _, rfl, by decide⟩, by decide⟩,
    ⟨0xD0, [0x41, 0x76, 0x59, 0x4E, 0x07], by decide, by decide,
      ⟨[[65], [108], [101], [114], [116]], .cons (.inl ⟨65, by decide, by decide, rfl⟩)
        (.cons (.inl ⟨108, by decide, by decide, rfl⟩) (.cons (.inl ⟨101, by decide, by decide, rfl⟩)
        (.cons (.inl ⟨114, by decide, by decide, rfl⟩) (.cons (.inl ⟨116, by decide, by decide, rfl⟩) .nil)))), rfl⟩,
      by decide, by decide, by decide⟩, rfl, by decide +kernel⟩

example : readAddress sampleDeliver.oa = some (⟨0x91, [1, 2, 3, 4]⟩, []) ∧ display ⟨0x91, [1, 2, 3, 4]⟩ = py! "+1234" := by
  decide

/-! ## C64 -/

/-- A conformant SMS-DELIVER with its contents: service centre `sm`, sender `s`, time stamp `t`, header elements `els`
and text `txt`, in the alphabet that the coding octet says; at most 140 octets of user data -/
structure Conformant (p : DeliverPdu) (sm : Option Address) (s : List Nat) (t : Stamp) (els : List Element)
    (txt : List Nat) : Prop where
  octets : ∀ x ∈ p.octets, x < 256
  mti : p.fo % 4 = 0
  smsc : readSmsc p.smsc = some (sm, [])
  smscDigits : ∀ a, sm = some a → ∀ x ∈ a.digits, x < 10
  sender : ShownAddress p.oa s
  stamp : readStamp p.scts = some t
  valid : t.civil.Valid
  elements : ∀ e ∈ els, e.Ok
  elementOctets : ∀ x ∈ elementOctets els, x < 256
  size : p.ud.length ≤ 140
  userData : ∃ hdr, HeaderOf p.fo els hdr ∧ Carries (dcsAlphabet p.dcs) hdr txt p.udl p.ud

/-- the attributes say what the message contains -/
structure Shows (d : State) (p : DeliverPdu) (sm : Option Address) (s : List Nat) (t : Stamp) (els : List Element)
    (txt : List Nat) : Prop where
  csca : (Deliver.data d).csca = sm.map display
  number : (Deliver.data d).number = some s
  pid : (Deliver.data d).pid = some p.pid
  dcs : (Deliver.data d).dcs = some p.dcs
  fmt : (Deliver.data d).fmt = some (dcsAlphabet p.dcs).code
  date : ∃ c : Civil, (Deliver.data d).date = some (naive c) ∧ c.Valid ∧
    c.seconds = t.civil.seconds - 900 * t.quarters
  text : (Deliver.data d).text = some txt
  type : (Deliver.data d).type = none
  report : (Deliver.data d).sr = none
  concat : (Deliver.data d).concat = (concatOf els).map fun x => (x.1, x.2.1, x.2.2.1)
  ports : (d.udh.bind fun u => u.ports.map fun x => (x.destPort, x.origPort)) =
    (portsOf els).map fun x => (x.1, x.2.1)
  payload : ∀ id, (d.udh.bind fun u => u.headers.lookup id) = payloadOf els id

/-- the full claim: false, see `C64_refuted` -/
def C64_full : Prop :=
  ∀ (p : DeliverPdu) (sm : Option Address) (s : List Nat) (t : Stamp) (els : List Element) (txt : List Nat)
    (strict : Bool), Conformant p sm s t els txt →
    ∃ d, smsDeliver (hexUpper p.octets) strict = .ok d ∧ Shows d p sm s t els txt

/-- senders that are shown right (see C65) -/
def PlainSender (oa s : List Nat) : Prop :=
  (∃ a, readAddress oa = some (a, []) ∧ a.toa / 16 % 8 ≠ 5 ∧ (∀ x ∈ a.digits, x < 10) ∧ s = display a) ∨
    ∃ g, AlphanumericAddress oa s g ∧ g.length % 8 ≠ 7

/-- everything but the sender is shown as it is meant -/
theorem shows_sender {p : DeliverPdu} {sm : Option Address} {s s' : List Nat} {t : Stamp} {els : List Element} {txt : List Nat}
    (strict : Bool) (h : Conformant p sm s t els txt) (hm : ¬ Misread p.dcs)
    (hsnd : ∃ n toa o, p.oa = n :: toa :: o ∧ o.length = (n + 1) / 2 ∧ Deliver.decodeSender toa o = .ok s') :
    ∃ d, smsDeliver (hexUpper p.octets) strict = .ok d ∧ Shows d p sm s' t els txt := by
  have h8 := h.octets
  obtain ⟨n, toa, o, ho, hlen, hsnd⟩ := hsnd
  obtain ⟨hst7, hciv⟩ := Deliver.stamp_seven h.stamp h.valid
  have hok : p.Ok := ⟨h8, ⟨_, h.smsc⟩, h.mti, ⟨n, toa, o, ho, hlen⟩, hst7⟩
  have hfo : p.fo < 256 := h8 _ (by simp [DeliverPdu.octets])
  have hdcs : p.dcs < 256 := h8 _ (by simp [DeliverPdu.octets])
  have hfmt := (misread_table p.dcs (List.mem_range.2 hdcs)).2 hm
  obtain ⟨hdr, hh, hc⟩ := h.userData
  obtain ⟨n', toa', o', sender, stamp, z, h0, _, h0', h1, h2, h3, h4, hub, h5⟩ := Deliver.pduP_deliver hok
  rw [ho] at h0
  cases h0
  rw [hsnd] at h0'
  cases h0'
  have hud := Deliver.udP_carries hfo h.elements hh hub h.size h.elementOctets hc
  obtain ⟨dt, hdt⟩ : ∃ dt, Cal.strptime (swapPairs (encodeStr stamp)) = .ok dt := Deliver.stamp_parses h.stamp h.valid h1 h2 h4
  have hd : ∃ d, smsDeliver (hexUpper p.octets) strict = .ok d ∧
      d.csca = Deliver.cscaOf p.smsc ∧ d.number = some s' ∧ d.pid = some p.pid ∧ d.dcs = some p.dcs ∧
      d.fmt = some (Deliver.fmtOfDcs p.dcs) ∧ d.text = some txt ∧ d.type = none ∧ d.sr = none ∧
      d.udh = Deliver.headerP p.fo els none := by
    rw [Deliver.smsDeliver_eq, Deliver.setP_hex h8, h5, hdt, hfmt, hud]
    exact ⟨_, rfl, rfl, rfl, rfl, rfl, rfl, rfl, rfl, rfl, rfl⟩
  obtain ⟨d, hd, e1, e2, e3, e4, e5, e6, e7, e8, e9⟩ := hd
  have hu : ∀ id, (d.udh.bind fun u => u.headers.lookup id) = payloadOf els id ∧
      (Deliver.data d).concat = (concatOf els).map (fun x => (x.1, x.2.1, x.2.2.1)) ∧
      (d.udh.bind fun u => u.ports.map fun x => (x.destPort, x.origPort)) = (portsOf els).map fun x => (x.1, x.2.1) := by
    intro id
    obtain ⟨f1, f2, f3, f4⟩ := Deliver.foldl_ieStep els h.elements
    unfold Deliver.data
    rw [e9, Deliver.headerP]
    split
    · refine ⟨f1 id, ?_, ?_⟩
      · simp only [f3]
        cases concatOf els <;> rfl
      · simp only [Option.bind_some, f4]
        cases portsOf els <;> rfl
    · rename_i hf
      rcases hh with ⟨hh, _⟩ | ⟨_, rfl, _⟩
      · exact absurd ((Deliver.and64 hfo).2 hh) hf
      · exact ⟨rfl, rfl, rfl⟩
  refine ⟨d, hd, e1.trans (Deliver.csca_display ?_ h.smsc h.smscDigits), e2, e3, e4, e5.trans (by rw [hfmt]), ?_, e6, e7, e8,
    (hu 0).2.1, (hu 0).2.2, fun id => (hu id).1⟩
  · exact fun x hx => h8 x (by simp [DeliverPdu.octets, hx])
  · exact C28_utc p hok t h.stamp h.valid strict d hd

/-- what a sender that is meant as `s` is shown as: the semi-octets in hexadecimal; the text, and an '@' if it takes one
septet less than a multiple of eight -/
def SenderRead (oa s s' : List Nat) : Prop :=
  (∃ a cs, readAddress oa = some (a, []) ∧ a.toa / 16 % 8 ≠ 5 ∧
      a.digits.mapM (fun x => (py! "0123456789abcde")[x]?) = some cs ∧ s' = (if a.toa / 16 % 8 = 1 then [43] else []) ++ cs) ∨
    ∃ g, AlphanumericAddress oa s g ∧ s' = s ++ if g.length % 8 = 7 then [64] else []

theorem semi_digits : ∀ {l cs : List Nat}, l.mapM semiChar = some cs → ∀ x ∈ l, x < 15
  | [], _, _ => by simp
  | y :: l, cs, h => by
    rw [List.mapM_cons] at h
    cases hy : semiChar y with
    | none => rw [hy] at h; cases h
    | some c =>
      rw [hy] at h
      cases hl : l.mapM semiChar with
      | none => rw [hl] at h; cases h
      | some r =>
        intro x hx
        rcases List.mem_cons.1 hx with rfl | hx
        · exact (List.getElem?_eq_some_iff.1 hy).1
        · exact semi_digits hl x hx

/-- the two ways to write semi-octets agree on decimal digits only -/
theorem semi_hex : ∀ {l cs : List Nat}, l.mapM semiChar = some cs → l.mapM (fun x => (py! "0123456789abcde")[x]?) = some cs →
    ∀ x ∈ l, x < 10
  | [], _, _, _ => by simp
  | y :: l, cs, h, h' => by
    rw [List.mapM_cons] at h h'
    cases hy : semiChar y with
    | none => rw [hy] at h; cases h
    | some c =>
      rw [hy] at h
      cases hl : l.mapM semiChar with
      | none => rw [hl] at h; cases h
      | some r =>
        rw [hl] at h
        cases hy' : (py! "0123456789abcde" : List Nat)[y]? with
        | none => rw [hy'] at h'; cases h'
        | some c' =>
          rw [hy'] at h'
          cases hl' : l.mapM (fun x => (py! "0123456789abcde" : List Nat)[x]?) with
          | none => rw [hl'] at h'; cases h'
          | some r' =>
            rw [hl'] at h'
            injection h with h
            injection h' with h'
            rw [← h'] at h
            injection h with h1 h2
            subst h1 h2
            intro x hx
            rcases List.mem_cons.1 hx with rfl | hx
            · have hlt := (List.getElem?_eq_some_iff.1 hy).1
              have hall : ∀ x ∈ List.range 15, semiChar x = (py! "0123456789abcde" : List Nat)[x]? → x < 10 := by decide
              exact hall x (List.mem_range.2 hlt) (hy.trans hy'.symm)
            · exact semi_hex hl hl' x hx

theorem sender_read {p : DeliverPdu} {s : List Nat} (h8 : ∀ x ∈ p.octets, x < 256) (hs : ShownAddress p.oa s) :
    ∃ s', SenderRead p.oa s s' ∧ (s' = s ↔ PlainSender p.oa s) ∧
      ∃ n toa o, p.oa = n :: toa :: o ∧ o.length = (n + 1) / 2 ∧ Deliver.decodeSender toa o = .ok s' := by
  have hoa : ∀ x ∈ p.oa, x < 256 := fun x hx => h8 x (by simp [DeliverPdu.octets, hx])
  have hlen : ∀ {g : List Nat}, AlphanumericAddress p.oa s g → g.length ≤ 160 := by
    intro g hg
    obtain ⟨toa, o, ho, _⟩ := hg
    have := h8 ((7 * g.length + 3) / 4) (by simp [DeliverPdu.octets, ho])
    omega
  obtain ⟨s', hr, n, toa, o, ho, hl, hd⟩ : ∃ s', SenderRead p.oa s s' ∧
      ∃ n toa o, p.oa = n :: toa :: o ∧ o.length = (n + 1) / 2 ∧ Deliver.decodeSender toa o = .ok s' := by
    rcases hs with ⟨a, cs, ha, ht, hcs, rfl⟩ | ⟨g, hg⟩
    · have hdig := semi_digits hcs
      have hb := (Submit.readAddress_bytes hoa ha).1
      rw [List.append_nil] at hb
      exact ⟨_, .inl ⟨a, _, ha, ht, Deliver.hexDigits_mapM _ hdig, rfl⟩, _, _, _, hb, bcd_length _, Deliver.decodeSender_hex hdig ht⟩
    · obtain ⟨n, toa, o, h1, h2, h3⟩ := Deliver.decodeSender_alpha hg (hlen hg)
      exact ⟨_, .inr ⟨g, hg, rfl⟩, n, toa, o, h1, h2, h3⟩
  refine ⟨s', hr, ⟨?_, ?_⟩, n, toa, o, ho, hl, hd⟩
  · rintro rfl
    rcases hs with ⟨a, cs, ha, ht, hcs, hse⟩ | ⟨g, hg⟩
    · rcases hr with ⟨a', cs', ha', _, hcs', hse'⟩ | ⟨g, hg, hse'⟩
      · rw [ha] at ha'
        injection ha' with ha'
        injection ha' with ha' _
        subst ha'
        rw [hse] at hse'
        have := List.append_cancel_left hse'
        subst this
        have hdig := semi_hex hcs hcs'
        have hb := (Submit.readAddress_bytes hoa ha).1
        rw [List.append_nil, ho] at hb
        injection hb with _ hb
        injection hb with e1 e2
        rw [e1, e2, Deliver.decodeSender_numeric hdig ht] at hd
        injection hd with hd
        exact .inl ⟨a, ha, ht, hdig, hd.symm⟩
      · refine .inr ⟨g, hg, fun h7 => ?_⟩
        rw [if_pos h7] at hse'
        have := congrArg List.length hse'
        simp at this
    · rcases hr with ⟨a', cs', ha', ht', _, _⟩ | ⟨g, hg, hse'⟩
      · exfalso
        obtain ⟨toa', o', ho', ht, _⟩ := hg
        have hb := (Submit.readAddress_bytes hoa ha').1
        rw [List.append_nil, ho'] at hb
        injection hb with _ hb
        injection hb with e1 _
        exact ht' (e1 ▸ ht)
      · refine .inr ⟨g, hg, fun h7 => ?_⟩
        rw [if_pos h7] at hse'
        have := congrArg List.length hse'
        simp at this
  · rintro (⟨a, ha, ht, hdig, rfl⟩ | ⟨g, hg, h7⟩)
    · have hb := (Submit.readAddress_bytes hoa ha).1
      rw [List.append_nil, ho] at hb
      injection hb with _ hb
      injection hb with e1 e2
      rw [e1, e2, Deliver.decodeSender_numeric hdig ht] at hd
      injection hd with hd
      exact hd.symm
    · obtain ⟨n', toa', o', h1, _, h3⟩ := Deliver.decodeSender_alpha hg (hlen hg)
      rw [ho] at h1
      injection h1 with _ h1
      injection h1 with e1 e2
      subst e1 e2
      rw [if_neg h7, List.append_nil, hd] at h3
      injection h3

/-- C64: every conformant SMS-DELIVER decodes to its contents.  Missing: the coding octets listed in `Misread` (C33) and
the senders that are shown wrong (C65). -/
theorem C64_partial (p : DeliverPdu) (sm : Option Address) (s : List Nat) (t : Stamp) (els : List Element) (txt : List Nat)
    (strict : Bool) (h : Conformant p sm s t els txt) (hm : ¬ Misread p.dcs) (hs : PlainSender p.oa s) :
    ∃ d, smsDeliver (hexUpper p.octets) strict = .ok d ∧ Shows d p sm s t els txt := by
  obtain ⟨s', _, h1, h2⟩ := sender_read h.octets h.sender
  rw [← h1.2 hs]
  exact shows_sender strict { h with sender := h.sender } hm h2

/-- C64: with any sender, everything but the sender is shown right, and the sender is the one of `SenderRead`. -/
theorem C64_sender_partial (p : DeliverPdu) (sm : Option Address) (s : List Nat) (t : Stamp) (els : List Element) (txt : List Nat)
    (strict : Bool) (h : Conformant p sm s t els txt) (hm : ¬ Misread p.dcs) :
    ∃ d s', smsDeliver (hexUpper p.octets) strict = .ok d ∧ SenderRead p.oa s s' ∧ Shows d p sm s' t els txt := by
  obtain ⟨s', hr, _, h2⟩ := sender_read h.octets h.sender
  obtain ⟨d, h3, h4⟩ := shows_sender strict h hm h2
  exact ⟨d, s', h3, hr, h4⟩

theorem conformant_ok {p : DeliverPdu} {sm : Option Address} {s : List Nat} {t : Stamp} {els : List Element} {txt : List Nat}
    (h : Conformant p sm s t els txt) : p.Ok := by
  obtain ⟨s', _, _, n, toa, o, ho, hl, _⟩ := sender_read h.octets h.sender
  exact ⟨h.octets, ⟨_, h.smsc⟩, h.mti, ⟨n, toa, o, ho, hl⟩, (Deliver.stamp_seven h.stamp h.valid).1⟩

/-- C64: a conformant SMS-DELIVER decodes to its contents exactly if its coding octet is none of `Misread` and its sender
has decimal digits or is a text that does not take one septet less than a multiple of eight. -/
theorem C64_iff (p : DeliverPdu) (sm : Option Address) (s : List Nat) (t : Stamp) (els : List Element) (txt : List Nat)
    (strict : Bool) (h : Conformant p sm s t els txt) :
    (∃ d, smsDeliver (hexUpper p.octets) strict = .ok d ∧ Shows d p sm s t els txt) ↔ ¬ Misread p.dcs ∧ PlainSender p.oa s := by
  refine ⟨?_, fun ⟨h1, h2⟩ => C64_partial p sm s t els txt strict h h1 h2⟩
  rintro ⟨d, hd, hs⟩
  have hok := conformant_ok h
  refine ⟨(C33_partial p strict d hok hd).1 hs.fmt, ?_⟩
  obtain ⟨s', _, h1, n, toa, o, ho, _, hd'⟩ := sender_read h.octets h.sender
  have h2 : d.number = some s := hs.number
  rw [number_set hok ho hd' hd] at h2
  injection h2 with h2
  exact h1.1 h2

/-- C65: the sender is shown right exactly if it has decimal digits, or is a text that does not take one septet less than a
multiple of eight; `SenderRead` is what is shown in all cases. -/
theorem C65_iff (p : DeliverPdu) (s : List Nat) (strict : Bool) (d : State) (h : p.Ok) (hs : ShownAddress p.oa s)
    (hd : smsDeliver (hexUpper p.octets) strict = .ok d) :
    (d.number = some s ↔ PlainSender p.oa s) ∧ ∃ s', SenderRead p.oa s s' ∧ d.number = some s' := by
  obtain ⟨s', hr, h1, n, toa, o, ho, _, hd'⟩ := sender_read h.octets hs
  rw [number_set h ho hd' hd]
  exact ⟨by rw [Option.some.injEq]; exact h1, s', hr, rfl⟩

/-- the message from "Network" is conformant -/
theorem sevenLetters_conformant : Conformant sevenLetters (some ⟨0x91, [3, 4, 6, 4, 6, 4, 5, 6, 4, 5, 6]⟩) (py! "Network")
    ⟨11, 3, 31, 12, 34, 56, 8⟩ [⟨8, [1, 2, 2, 1]⟩] (py! "26") where
  octets := by decide
  mti := by decide
  smsc := by decide
  smscDigits := by rintro a ⟨⟩; decide
  sender := .inr ⟨_, sevenLetters_address⟩
  stamp := by decide
  valid := by decide
  elements := by simp [Element.Ok]
  elementOctets := by decide
  size := by decide
  userData := ⟨[6, 8, 4, 1, 2, 2, 1], .inl ⟨by decide, by decide⟩, [50, 54],
    ⟨[[50], [54]], .cons (.inl ⟨50, by decide, by decide, rfl⟩) (.cons (.inl ⟨54, by decide, by decide, rfl⟩) .nil), rfl⟩,
    ⟨by decide, by decide, by decide⟩, by decide⟩

/-- the same from a number -/
example : ∃ s t els txt, Conformant sampleDeliver (some ⟨0x91, [3, 4, 6, 4, 6, 4, 5, 6, 4, 5, 6]⟩) s t els txt ∧
    ¬ Misread sampleDeliver.dcs ∧ PlainSender sampleDeliver.oa s ∧ els.length = 1 ∧ txt = py! "26" := by
  have hn : readAddress sampleDeliver.oa = some (⟨0x91, [1, 2, 3, 4]⟩, []) := by decide
  refine ⟨py! "+1234", _, _, _, { sevenLetters_conformant with sender := .inl ⟨_, _, hn, by decide, rfl, rfl⟩, octets := ?_ },
    by decide, .inl ⟨_, hn, by decide, by decide, by decide⟩, rfl, rfl⟩
  decide

theorem C64_refuted : ¬ C64_full := by
  intro h
  obtain ⟨d, hd, hs⟩ := h _ _ _ _ _ _ true sevenLetters_conformant
  have h2 := C65_trailing _ _ _ true d sevenLetters_ok sevenLetters_address (by decide) hd
  have h1 := hs.number
  change d.number = _ at h1
  rw [h1] at h2
  exact absurd h2 (by decide)

end Verif.Props

import Verif.Props.Faithful
import Verif.Props.Submit
import Verif.Proofs.Relay
import Verif.Spec.Reply
/-!
# C91: a reply goes to the sender
-/
set_option autoImplicit false

namespace Verif.Props
open Verif Verif.Submit Verif.Spec Verif.Spec.Sms Verif.Spec.Submit Verif.Spec.Time
open Verif.Deliver (smsDeliver)

/-- what is shown for an address denotes it, but for its type -/
theorem display_denotes {a : Address} (hd : ∀ x ∈ a.digits, x < 10) : Denotes (display a) (plainType a) := by
  refine ⟨decide (a.toa / 16 % 8 = 1), false, a.digits.map (· + 48), ?_, ?_, ?_, ?_⟩
  · simp [display]
  · intro d h
    obtain ⟨x, hx, rfl⟩ := List.mem_map.1 h
    have := hd x hx
    omega
  · simp [plainType]
  · simp [plainType, Function.comp_def]

/-- and only it -/
theorem denotes_unique {x : List Nat} {a b : Address} (h1 : Denotes x a) (h2 : Denotes x b) : a = b := by
  obtain ⟨p, n, ds, rfl, hd, ht, hg⟩ := h1
  obtain ⟨p', n', ds', he, hd', ht', hg'⟩ := h2
  have d43 : ∀ d ∈ ds, d ≠ 43 ∧ d ≠ 10 := fun d h => by have := hd d h; omega
  have d43' : ∀ d ∈ ds', d ≠ 43 ∧ d ≠ 10 := fun d h => by have := hd' d h; omega
  have hp : p = p' := by
    have := congrArg (fun l => decide (43 ∈ l)) he
    have n1 : 43 ∉ ds := fun h => (d43 _ h).1 rfl
    have n2 : 43 ∉ ds' := fun h => (d43' _ h).1 rfl
    cases p <;> cases p' <;> cases n <;> cases n' <;> simp [n1, n2] at this ⊢
  subst hp
  have hds : ds = ds' := by
    rw [List.append_assoc, List.append_assoc] at he
    have he := List.append_cancel_left he
    have e1 : ∀ (l : List Nat) (b : Bool), (∀ d ∈ l, d ≠ 43 ∧ d ≠ 10) →
        (l ++ if b then [10] else []).filter (fun x => decide (x ≠ 10)) = l := by
      intro l b hl
      rw [List.filter_append, List.filter_eq_self.2 (fun x hx => by simpa using (hl x hx).2)]
      cases b <;> simp
    rw [← e1 ds n d43, ← e1 ds' n' d43', he]
  subst hds
  cases a; cases b
  simp only at ht hg ht' hg'
  rw [ht, hg, ht', hg']

/-- the full claim: false, see `C91_refuted` -/
def C91_full : Prop :=
  ∀ (p : DeliverPdu) (a : Address) (strict : Bool) (d : Deliver.State) (s s' : State) (ps : List Pdu), p.Ok →
    readAddress p.oa = some (a, []) → a.toa / 16 % 8 ≠ 5 → (∀ x ∈ a.digits, x < 10) →
    smsDeliver (hexUpper p.octets) strict = .ok d → s.number = d.number → Ready s → toPdu s = .ok ps s' →
    (s.fmt = some 4 → ∀ x ∈ s.text.s, x < 256) → ∀ q ∈ ps, ∃ sm, SentTo q sm a

/-- C91: the number of a received message can be assigned exactly if it has 3 to 20 digits (an empty one is accepted too,
but cannot be sent, see C89); otherwise the assignment raises ValueError and changes nothing. -/
theorem C91_accepted (p : DeliverPdu) (a : Address) (strict : Bool) (d : Deliver.State) (h : p.Ok)
    (ha : readAddress p.oa = some (a, [])) (ht : a.toa / 16 % 8 ≠ 5) (hdig : ∀ x ∈ a.digits, x < 10)
    (hd : smsDeliver (hexUpper p.octets) strict = .ok d) (s : State) :
    (3 ≤ a.digits.length ∧ a.digits.length ≤ 20 → setNumber d.number s = .ok () { s with number := d.number }) ∧
      (¬ (3 ≤ a.digits.length ∧ a.digits.length ≤ 20) → d.number ≠ some [] → setNumber d.number s = .err .valueError s) := by
  have hn := C65_numeric_partial p a strict d h ha ht hdig hd
  have hden := display_denotes hdig
  have hv : validNumber (display a) = true ↔ 3 ≤ a.digits.length ∧ a.digits.length ≤ 20 := by
    rw [validNumber_iff]
    constructor
    · intro hv
      obtain ⟨b, h1, h2, h3⟩ := valid_denotes hv
      have := denotes_unique h1 hden
      subst this
      exact ⟨h2, h3⟩
    · rintro ⟨h1, h2⟩
      obtain ⟨p, n, ds, e, hd, _, hg⟩ := hden
      have : a.digits.length = ds.length := by
        have := congrArg List.length hg
        simpa [plainType] using this
      exact ⟨p, n, ds, e, by omega, by omega, hd⟩
  rw [hn]
  constructor
  · intro hl
    have := hv.2 hl
    simp only [setNumber, this, Bool.not_true, Bool.and_false]
    rfl
  · intro hl hne
    have h1 : validNumber (display a) = false := by
      cases hx : validNumber (display a) with
      | false => rfl
      | true => exact absurd (hv.1 hx) hl
    have h2 : (display a).isEmpty = false := by
      cases hx : display a with
      | nil => rw [hx] at hne; exact absurd rfl hne
      | cons => rfl
    simp only [setNumber, h1, h2, Bool.not_false, Bool.and_self, if_true]
    rfl

/-- C91: whatever is sent to the number of a received message goes to the digits of the sender; the type of the number is
international or unknown. -/
theorem C91_sent (p : DeliverPdu) (a : Address) (strict : Bool) (d : Deliver.State) (h : p.Ok)
    (ha : readAddress p.oa = some (a, [])) (ht : a.toa / 16 % 8 ≠ 5) (hdig : ∀ x ∈ a.digits, x < 10)
    (hd : smsDeliver (hexUpper p.octets) strict = .ok d) (s s' : State) (ps : List Pdu) (hn : s.number = d.number)
    (hr : Ready s) (hp : toPdu s = .ok ps s') (hb : s.fmt = some 4 → ∀ x ∈ s.text.s, x < 256) :
    ∀ q ∈ ps, ∃ sm, CscaDenotes s.csca sm ∧ SentTo q sm (plainType a) := by
  rw [C65_numeric_partial p a strict d h ha ht hdig hd] at hn
  obtain ⟨al, mr, hc⟩ := C10_envelope s s' hr ps hp hb
  intro q hq
  obtain ⟨i, hi, rfl⟩ := List.getElem_of_mem hq
  obtain ⟨udl, ud, bytes, sm, rest, sub, h1, h2, h3, h4, _, _, _, h5, _, _, _, _, _, _, _, ⟨x, h6, h7⟩, _⟩ := hc i hi
  rw [hn] at h6
  cases h6
  exact ⟨sm, h4, bytes, rest, sub, h1, h2, h3, h5, denotes_unique h7 (display_denotes hdig)⟩

/-- C91 for senders of the types that are written, 0x91 and 0x81.  Missing: the other types, see `C91_sent`. -/
theorem C91_partial (p : DeliverPdu) (a : Address) (strict : Bool) (d : Deliver.State) (s s' : State) (ps : List Pdu)
    (h : p.Ok) (ha : readAddress p.oa = some (a, [])) (ht : a.toa = 0x91 ∨ a.toa = 0x81)
    (hdig : ∀ x ∈ a.digits, x < 10) (hd : smsDeliver (hexUpper p.octets) strict = .ok d) (hn : s.number = d.number)
    (hr : Ready s) (hp : toPdu s = .ok ps s') (hb : s.fmt = some 4 → ∀ x ∈ s.text.s, x < 256) :
    ∀ q ∈ ps, ∃ sm, SentTo q sm a := by
  intro q hq
  obtain ⟨sm, _, hs⟩ := C91_sent p a strict d h ha (by omega) hdig hd s s' ps hn hr hp hb q hq
  have : plainType a = a := by
    cases a
    rcases ht with h | h <;> simp only at h <;> subst h <;> simp [plainType]
  rw [this] at hs
  exact ⟨sm, hs⟩

/-- C91: when also the service centre of a received message is used, the reply goes through the service centre that the
message came through. -/
theorem C91_centre (p : DeliverPdu) (sm : Option Address) (n : List Nat) (t : Stamp) (els : List Element) (txt : List Nat)
    (strict : Bool) (hc : Conformant p sm n t els txt) (hm : ¬ Misread p.dcs) (a : Address)
    (ha : readAddress p.oa = some (a, [])) (ht : a.toa / 16 % 8 ≠ 5) (hdig : ∀ x ∈ a.digits, x < 10) (hn : n = display a)
    (he : ∀ b, sm = some b → b.digits ≠ []) :
    ∃ d, smsDeliver (hexUpper p.octets) strict = .ok d ∧ ∀ (s s' : State) (ps : List Pdu), s.number = d.number →
      s.csca = d.csca → Ready s → toPdu s = .ok ps s' → (s.fmt = some 4 → ∀ x ∈ s.text.s, x < 256) →
      ∀ q ∈ ps, SentTo q (sm.map plainType) (plainType a) := by
  obtain ⟨d, hd, hs⟩ := C64_partial p sm n t els txt strict hc hm (.inl ⟨a, ha, ht, hdig, hn⟩)
  refine ⟨d, hd, fun s s' ps h1 h2 hr hp hb => ?_⟩
  have h3 : d.number = some (display a) := by rw [← hn]; exact hs.number
  have h4 : d.csca = sm.map display := hs.csca
  obtain ⟨al, mr, hc'⟩ := C10_envelope s s' hr ps hp hb
  intro q hq
  obtain ⟨i, hi, rfl⟩ := List.getElem_of_mem hq
  obtain ⟨udl, ud, bytes, sm', rest, sub, g1, g2, g3, g4, _, _, _, g5, _, _, _, _, _, _, _, ⟨x, g6, g7⟩, _⟩ := hc' i hi
  rw [h1, h3] at g6
  cases g6
  have hsm : sm' = sm.map plainType := by
    rw [h2, h4] at g4
    cases hsm : sm with
    | none => rw [hsm] at g4; exact g4
    | some b =>
      rw [hsm] at g4
      have hne := he b hsm
      have hb := display_denotes (hc.smscDigits b hsm)
      simp only [Option.map_some] at g4 ⊢
      cases hx : display b with
      | nil =>
        obtain ⟨_, h⟩ := List.append_eq_nil_iff.1 hx
        exact absurd (List.map_eq_nil_iff.1 h) hne
      | cons c r =>
        rw [hx] at g4 hb
        obtain ⟨b', rfl, hb'⟩ := g4
        rw [denotes_unique hb' hb]
  rw [← hsm]
  exact ⟨bytes, rest, sub, g1, g2, g3, g5, denotes_unique g7 (display_denotes hdig)⟩

/-- C91: a sender with a name cannot be answered: the assignment raises ValueError, unless the name itself looks like a
number. -/
theorem C91_name (p : DeliverPdu) (n g : List Nat) (strict : Bool) (d : Deliver.State) (h : p.Ok)
    (ha : AlphanumericAddress p.oa n g) (hv : ¬ ValidNumber n) (hne : n ≠ [])
    (hd : smsDeliver (hexUpper p.octets) strict = .ok d) (s : State) : setNumber d.number s = .err .valueError s := by
  have hx : ∃ x, d.number = some x ∧ x ≠ [] ∧ ¬ ValidNumber x := by
    by_cases h7 : g.length % 8 = 7
    · refine ⟨_, C65_trailing p n g strict d h ha h7 hd, by simp, ?_⟩
      rintro ⟨p, m, ds, e, _, _, hds⟩
      have : (64 : Nat) ∈ (if p then [43] else []) ++ ds ++ (if m then [10] else []) := by rw [← e]; simp
      rcases List.mem_append.1 this with h | h
      · rcases List.mem_append.1 h with h | h
        · cases p <;> simp at h
        · have := hds _ h; omega
      · cases m <;> simp at h
    · exact ⟨_, C65_alphanumeric_partial p n g strict d h ha h7 hd, hne, hv⟩
  obtain ⟨x, hx1, hx2, hx3⟩ := hx
  have h1 : validNumber x = false := by
    cases hx : validNumber x with
    | false => rfl
    | true => exact absurd ((validNumber_iff x).1 hx) hx3
  have h2 : x.isEmpty = false := by
    cases x with
    | nil => exact absurd rfl hx2
    | cons => rfl
  rw [hx1]
  simp only [setNumber, h1, h2, Bool.not_false, Bool.and_self, if_true]
  rfl

/-- a message from the national number 616585 -/
def nationalSender : DeliverPdu := { sampleDeliver with oa := [6, 0xA1, 0x16, 0x56, 0x58] }

theorem nationalSender_ok : nationalSender.Ok :=
  ⟨by decide, sampleDeliver_ok.smsc, by decide, ⟨6, 0xA1, _, rfl, by decide⟩, sampleDeliver_ok.scts⟩

/-- the reply -/
def nationalReply : State := { sample ⟨true, py! "Hola"⟩ none with number := some (py! "616585") }

theorem nationalReply_ready : Ready nationalReply :=
  ⟨⟨_, rfl, (validNumber_iff _).1 (by decide +kernel)⟩, (sample_ready ⟨true, []⟩ none).csca, (sample_ready ⟨true, []⟩ none).klass,
    (sample_ready ⟨true, []⟩ none).pid, (sample_ready ⟨true, []⟩ none).validity⟩

/-- a national number is answered as a number of unknown type -/
theorem C91_refuted : ¬ C91_full := by
  intro h
  have ha : readAddress nationalSender.oa = some (⟨0xA1, [6, 1, 6, 5, 8, 5]⟩, []) := by decide +kernel
  obtain ⟨d, hd, hn⟩ : ∃ d, smsDeliver (hexUpper nationalSender.octets) false = .ok d ∧ d.number = some (py! "616585") :=
    ⟨_, rfl, by decide +kernel⟩
  obtain ⟨ps, s', hp, hl⟩ : ∃ ps s', toPdu nationalReply = .ok ps s' ∧ ps ≠ [] := ⟨_, _, rfl, List.cons_ne_nil _ _⟩
  obtain ⟨q, r, rfl⟩ := List.exists_cons_of_ne_nil hl
  have hb : nationalReply.fmt = some 4 → ∀ x ∈ nationalReply.text.s, x < 256 := by intro h; cases h
  obtain ⟨sm, b, rest, sub, e1, e2, e3, e4, e5⟩ := h nationalSender _ false d nationalReply s' (q :: r) nationalSender_ok ha
    (by decide) (by decide) hd hn.symm nationalReply_ready hp hb q (by simp)
  obtain ⟨sm', _, b', rest', sub', f1, f2, f3, f4, f5⟩ := C91_sent nationalSender _ false d nationalSender_ok ha
    (by decide) (by decide) hd nationalReply s' (q :: r) hn.symm nationalReply_ready hp hb q (by simp)
  have := Deliver.hexUpper_inj e2 f2 (e1.symm.trans f1)
  subst this
  rw [e3] at f3
  cases f3
  rw [e4] at f4
  cases f4
  rw [e5] at f5
  exact absurd (congrArg Address.toa f5) (by decide)

/-- the message of the sample is answered -/
example : ∃ p a d s s' ps, DeliverPdu.Ok p ∧ readAddress p.oa = some (a, []) ∧ (a.toa = 0x91 ∨ a.toa = 0x81) ∧
    (∀ x ∈ a.digits, x < 10) ∧ smsDeliver (hexUpper p.octets) = .ok d ∧ s.number = d.number ∧ s.csca = d.csca ∧ Ready s ∧
    toPdu s = .ok ps s' ∧ (s.fmt = some 4 → ∀ x ∈ s.text.s, x < 256) ∧ ps ≠ [] := by
  refine ⟨sampleDeliver, ⟨0x91, [1, 2, 3, 4]⟩, _,
    { sample ⟨true, py! "Hola"⟩ none with number := some (py! "+1234") }, _, _, sampleDeliver_ok, by decide, by decide,
    by decide, rfl, by decide +kernel, by decide +kernel, ⟨⟨_, rfl, (validNumber_iff _).1 (by decide +kernel)⟩,
      (sample_ready ⟨true, []⟩ none).csca, (sample_ready ⟨true, []⟩ none).klass, (sample_ready ⟨true, []⟩ none).pid,
      (sample_ready ⟨true, []⟩ none).validity⟩, rfl, ?_, List.cons_ne_nil _ _⟩
  intro h
  cases h

/-- a name -/
example : ∃ (p : DeliverPdu) (d : Deliver.State), p.Ok ∧
    AlphanumericAddress p.oa (py! "Alert") [65, 108, 101, 114, 116] ∧ ¬ ValidNumber (py! "Alert") ∧
    smsDeliver (hexUpper p.octets) = .ok d :=
  ⟨{ sampleDeliver with oa := [9, 0xD0, 0x41, 0x76, 0x59, 0x4E, 0x07] }, _,
    ⟨by decide, sampleDeliver_ok.smsc, by decide, ⟨9, 0xD0, _, rfl, by decide⟩, sampleDeliver_ok.scts⟩,
    ⟨0xD0, _, rfl, by decide, (encode_iff (t := ⟨true, py! "Alert"⟩)).1 (by decide +kernel) |>.1, by decide, by decide, by decide⟩,
    fun h => absurd ((validNumber_iff _).2 h) (by decide +kernel), rfl⟩

end Verif.Props

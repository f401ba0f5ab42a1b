import Verif.Props.Faithful
/-!
# What is shown of messages whose coding octet is misread (C33)
-/
set_option autoImplicit false

namespace Verif.Props
open Verif Verif.Spec Verif.Spec.Sms Verif.Spec.Time
open Verif.Deliver (smsDeliver setPdu State)

/-- user data is its header and what follows, whatever the alphabet -/
theorem carries_split {al : Alphabet} {hdr t ud : List Nat} {udl : Nat} (hu : ∀ x ∈ hdr, x < 256) (h : Carries al hdr t udl ud) :
    ∃ body, ud = hdr ++ body := by
  cases al with
  | gsm =>
    obtain ⟨g, _, hp, _⟩ := h
    exact Deliver.header_take hu hp
  | bin => exact ⟨_, h.1⟩
  | ucs2 => exact ⟨_, h.2.1⟩

/-- the decoder finds the header, and then reads the text as the octet says -/
theorem udP_split {fo fmt udl : Nat} {els : List Element} {hdr body : List Nat} (hfo8 : fo < 256) (hok : ∀ e ∈ els, e.Ok)
    (hh : HeaderOf fo els hdr) (ho : ∀ x ∈ elementOctets els, x < 256) :
    Deliver.udP fo fmt (udl :: (hdr ++ body)) =
      (Deliver.textP fmt udl (if hdr = [] then 0 else Deliver.headLen fmt (elementOctets els).length)
        (elementOctets els).length (encodeStr ((hdr ++ body).take udl)) (elementOctets els ++ body)).bind fun f =>
        .ok fun s => f { s with udh := Deliver.headerP fo els s.udh } := by
  unfold Deliver.udP
  simp only [pop0, Except.bind]
  rcases hh with ⟨hfo, rfl⟩ | ⟨hfo, rfl, rfl⟩
  · have hfo' := (Deliver.and64 hfo8).2 hfo
    have hpay : ∀ e ∈ els, ∀ x ∈ e.payload, x < 256 := fun e he x hx =>
      ho x (List.mem_flatMap.2 ⟨e, he, by simp [hx]⟩)
    obtain ⟨fuel, _, h1⟩ := Deliver.fromBytes_els els [] hok hpay
    rw [List.append_nil] at h1
    rw [if_pos hfo']
    simp only [List.cons_append, List.take_left, h1]
    rw [Udh.fromBytesLoop]
    simp only [Deliver.headerP, if_pos hfo', if_neg (List.cons_ne_nil _ _)]
  · have hfo' : ¬ fo &&& 0x40 ≠ 0 := by rw [Deliver.and64 hfo8]; omega
    rw [if_neg hfo']
    simp only [Deliver.headerP, if_neg hfo', if_true, elementOctets, List.flatMap_nil, List.length_nil, List.nil_append]
    cases Deliver.textP fmt udl 0 0 (encodeStr (body.take udl)) body <;> rfl

/-- a conformant message is decoded as far as its text is, whatever its coding octet -/
theorem deliver_text {p : DeliverPdu} {sm : Option Address} {s : List Nat} {t : Stamp} {els : List Element} {txt : List Nat}
    (strict : Bool) (h : Conformant p sm s t els txt) :
    ∃ hdr body, HeaderOf p.fo els hdr ∧ p.ud = hdr ++ body ∧ Carries (dcsAlphabet p.dcs) hdr txt p.udl p.ud ∧
      (∀ f : State → State, (∀ s, (f s).fmt = s.fmt) →
        Deliver.textP (Deliver.fmtOfDcs p.dcs) p.udl
          (if hdr = [] then 0 else Deliver.headLen (Deliver.fmtOfDcs p.dcs) (elementOctets els).length) (elementOctets els).length
          (encodeStr (p.ud.take p.udl)) (elementOctets els ++ body) = .ok f →
        ∃ d s', smsDeliver (hexUpper p.octets) strict = .ok d ∧ d.fmt = some (Deliver.fmtOfDcs p.dcs) ∧ d.text = (f s').text) ∧
      (∀ e, Deliver.textP (Deliver.fmtOfDcs p.dcs) p.udl
          (if hdr = [] then 0 else Deliver.headLen (Deliver.fmtOfDcs p.dcs) (elementOctets els).length) (elementOctets els).length
          (encodeStr (p.ud.take p.udl)) (elementOctets els ++ body) = .error e →
        smsDeliver (hexUpper p.octets) strict = .error e) := by
  have h8 := h.octets
  obtain ⟨s', _, _, n, toa, o, ho, hlen, hsnd⟩ := sender_read h8 h.sender
  obtain ⟨hst7, hciv⟩ := Deliver.stamp_seven h.stamp h.valid
  have hok : p.Ok := ⟨h8, ⟨_, h.smsc⟩, h.mti, ⟨n, toa, o, ho, hlen⟩, hst7⟩
  have hfo : p.fo < 256 := h8 _ (by simp [DeliverPdu.octets])
  obtain ⟨hdr, hh, hc⟩ := h.userData
  obtain ⟨n', toa', o', sender, stamp, z, h0, _, h0', h1, h2, h3, h4, hub, h5⟩ := Deliver.pduP_deliver hok
  obtain ⟨dt, hdt⟩ : ∃ dt, Cal.strptime (swapPairs (encodeStr stamp)) = .ok dt := Deliver.stamp_parses h.stamp h.valid h1 h2 h4
  have hu : ∀ x ∈ hdr, x < 256 := by
    rcases hh with ⟨_, rfl⟩ | ⟨_, _, rfl⟩
    · intro x hx
      rcases List.mem_cons.1 hx with rfl | hx
      · have hsz := h.size
        have : (elementOctets els).length + 1 ≤ p.ud.length := by
          revert hc
          cases dcsAlphabet p.dcs with
          | gsm =>
            rintro ⟨g, _, hp, _⟩
            have := hp.1
            simp only [List.length_cons] at this
            omega
          | bin => rintro ⟨hc, _⟩; rw [hc]; simp
          | ucs2 => rintro ⟨_, hc, _⟩; rw [hc]; simp
        omega
      · exact h.elementOctets x hx
    · simp
  obtain ⟨body, hb⟩ := carries_split hu hc
  have hu5 := udP_split (fmt := Deliver.fmtOfDcs p.dcs) (udl := p.udl) (body := body) hfo h.elements hh h.elementOctets
  rw [← hb] at hu5
  rw [hdt, hu5] at h5
  refine ⟨hdr, body, hh, hb, hc, ?_, ?_⟩
  · intro f hf ht
    rw [ht] at h5
    rw [Deliver.smsDeliver_eq, Deliver.setP_hex h8, h5]
    exact ⟨_, _, rfl, hf _, rfl⟩
  · intro e he
    rw [he] at h5
    rw [Deliver.smsDeliver_eq, Deliver.setP_hex h8, h5]
    rfl

theorem misread_fmt : ∀ dcs ∈ List.range 256, Misread dcs →
    (dcs / 4 % 2 = 1 → Deliver.fmtOfDcs dcs = 4) ∧ (dcs / 4 % 4 = 2 → Deliver.fmtOfDcs dcs = 8 ∧ dcsAlphabet dcs = .gsm) ∧
      (dcs / 4 % 4 = 0 → Deliver.fmtOfDcs dcs = 0 ∧ dcsAlphabet dcs = .ucs2) := by decide +kernel

theorem ucs2Chars_odd : ∀ l : List Nat, l.length % 2 = 1 → Deliver.ucs2Chars l = .error .indexError
  | [], h => by simp at h
  | [_], _ => rfl
  | a :: b :: r, h => by
    have := ucs2Chars_odd r (by simp only [List.length_cons] at h; omega)
    unfold Deliver.ucs2Chars
    rw [this]
    rfl

/-- C33: what the messages show whose coding octet is misread.  `body` are the octets after the header.  If bit 2 of the
octet is set, the text is these octets, unread.  If only bit 3 is set (a message in the GSM alphabet, such as a voice mail
indication), they are read as UCS2, which is an IndexError if their number is odd.  If neither is (a message in UCS2), the
user data is read as septets, of which the last eighth of the octets is left out. -/
theorem C33_shown (p : DeliverPdu) (sm : Option Address) (s : List Nat) (t : Stamp) (els : List Element) (txt : List Nat)
    (strict : Bool) (h : Conformant p sm s t els txt) (hm : Misread p.dcs) :
    ∃ hdr body, HeaderOf p.fo els hdr ∧ p.ud = hdr ++ body ∧
      (p.dcs / 4 % 2 = 1 → ∃ d, smsDeliver (hexUpper p.octets) strict = .ok d ∧ d.fmt = some 4 ∧ d.text = some body) ∧
      (p.dcs / 4 % 4 = 2 →
        (∀ cs, body = ucs2Octets cs → ∃ d, smsDeliver (hexUpper p.octets) strict = .ok d ∧ d.fmt = some 8 ∧ d.text = some cs) ∧
        (body.length % 2 = 1 → smsDeliver (hexUpper p.octets) strict = .error .indexError)) ∧
      (p.dcs / 4 % 4 = 0 → ∃ d x, smsDeliver (hexUpper p.octets) strict = .ok d ∧ d.fmt = some 0 ∧ d.text = some x ∧
        ∀ cs, Gsm.Spells cs ((digits 128 p.ud.length (leVal 256 p.ud)).drop ((8 * hdr.length + 6) / 7)) → x = cs) := by
  have h8 := h.octets
  have hdcs : p.dcs < 256 := h8 _ (by simp [DeliverPdu.octets])
  have hub : ∀ x ∈ p.ud, x < 256 := fun x hx => h8 x (by simp [DeliverPdu.octets, hx])
  obtain ⟨m1, m2, m3⟩ := misread_fmt p.dcs (List.mem_range.2 hdcs) hm
  obtain ⟨hdr, body, hh, hb, hc, hok, herr⟩ := deliver_text strict h
  refine ⟨hdr, body, hh, hb, ?_, ?_, ?_⟩
  · intro h1
    rw [m1 h1] at hok
    obtain ⟨d, s', h1, h2, h3⟩ := hok (fun s => { s with text := some body }) (fun _ => rfl) (by
      unfold Deliver.textP
      rw [if_neg (by decide), if_pos rfl, List.drop_left])
    exact ⟨d, h1, h2, h3⟩
  · intro h1
    rw [(m2 h1).1] at hok herr
    refine ⟨?_, ?_⟩
    · intro cs hcs
      obtain ⟨d, s', h1, h2, h3⟩ := hok (fun s => { s with text := some cs }) (fun _ => rfl) (by
        unfold Deliver.textP
        rw [if_neg (by decide), if_neg (by decide), if_pos rfl, List.drop_left, hcs, Deliver.ucs2Chars_octets]
        rfl)
      exact ⟨d, h1, h2, h3⟩
    · intro hodd
      apply herr
      unfold Deliver.textP
      rw [if_neg (by decide), if_neg (by decide), if_pos rfl, List.drop_left, ucs2Chars_odd _ hodd]
      rfl
  · intro h1
    rw [(m3 h1).1] at hok
    rw [(m3 h1).2] at hc
    obtain ⟨_, _, hudl⟩ := hc
    have hg : ((unpackMsg2 p.ud).take p.udl).drop (if hdr = [] then 0 else Deliver.headLen 0 (elementOctets els).length) =
        (digits 128 p.ud.length (leVal 256 p.ud)).drop ((8 * hdr.length + 6) / 7) := by
      rw [unpackMsg2_eq hub, hudl, digits_take _ _ _ _ (by have := h.size; omega)]
      congr 1
      rcases hh with ⟨_, rfl⟩ | ⟨_, _, rfl⟩
      · rw [if_neg (List.cons_ne_nil _ _), Deliver.headLen, if_pos rfl, Deliver.roundUp7_eq, List.length_cons]
        omega
      · rfl
    have hlt : ∀ x ∈ (digits 128 p.ud.length (leVal 256 p.ud)).drop ((8 * hdr.length + 6) / 7), x < 128 := by
      intro x hx
      exact digits_lt (by decide) _ _ x (List.mem_of_mem_drop hx)
    obtain ⟨x, hx, -⟩ := Gsm.decode_septets .strict _ _ (Nat.le_refl _) hlt
    obtain ⟨d, s', h1, h2, h3⟩ := hok (fun s => { s with text := some x }) (fun _ => rfl) (by
      unfold Deliver.textP
      rw [if_pos rfl, List.take_of_length_le (by omega), unpackMsg_eq hub]
      simp only [Except.bind]
      rw [hg, hx])
    refine ⟨d, x, h1, h2, h3, ?_⟩
    intro cs hcs
    have := Gsm.decode_spells .strict hcs
    rw [hx] at this
    injection this

/-- a voice mail indication, one of a reserved alphabet -/
example : ∃ s t els txt, Conformant { sampleDeliver with dcs := 0xC8 } (some ⟨0x91, [3, 4, 6, 4, 6, 4, 5, 6, 4, 5, 6]⟩) s t els txt ∧
    Misread 0xC8 ∧ txt = py! "26" ∧
    (smsDeliver (hexUpper ({ sampleDeliver with dcs := 0xC8 } : DeliverPdu).octets)).map (fun d => d.text) = .ok (some [0x321B]) ∧
    (smsDeliver (hexUpper ({ sampleDeliver with dcs := 0x0C } : DeliverPdu).octets)).map (fun d => d.text) = .ok (some [0x32, 0x1B]) := by
  have hn : readAddress sampleDeliver.oa = some (⟨0x91, [1, 2, 3, 4]⟩, []) := by decide
  refine ⟨py! "+1234", _, _, _, { sevenLetters_conformant with sender := .inl ⟨_, _, hn, by decide, rfl, rfl⟩, octets := ?_ },
    by decide, rfl, ?_⟩
  · decide
  · decide +kernel

end Verif.Props

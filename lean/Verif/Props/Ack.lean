import Verif.Spec.Ack
import Verif.Props.MmsTrip
/-!
# C105: acknowledgements
-/
set_option autoImplicit false

namespace Verif.Props
open Verif Verif.Mms Verif.Spec.Wsp Verif.Spec.Mms Verif.Spec.MmsEnc Verif.Spec.Ack

/-- the statements of the tutorial: `mms = MMSMessage()`, then Transaction-Id, Message-Type and Status are set -/
def tutorialAck (id status : Str) : Msg := { Msg.new with
  headers := ((Msg.new.headers.set (py! "Transaction-Id") (.v (.str id))).set (py! "Message-Type")
    (.v (.str (py! "m-notifyresp-ind")))).set (py! "Status") (.v (.str status)) }

/-- a message with Transaction-Id and type m-acknowledge-ind -/
def plainAck (id : Str) : Msg := { Msg.new with
  headers := (Msg.new.headers.set (py! "Transaction-Id") (.v (.str id))).set (py! "Message-Type")
    (.v (.str (py! "m-acknowledge-ind"))) }

theorem perm_pair {α : Type} {l : List α} {a b : α} (h : l.Perm [a, b]) : l = [a, b] ∨ l = [b, a] := by
  match l, h.length_eq with
  | [x, y], _ =>
    have hx : x ∈ [a, b] := h.subset (by simp)
    simp only [List.mem_cons, List.not_mem_nil, or_false] at hx
    rcases hx with rfl | rfl
    · have := (List.perm_cons x).1 h
      rw [List.perm_singleton.1 this]
      exact .inl rfl
    · have h2 : [x, y].Perm [x, a] := h.trans (List.Perm.swap _ _ _)
      have := (List.perm_cons x).1 h2
      rw [List.perm_singleton.1 this]
      exact .inr rfl

theorem ack_body (env : Env) (ord : Dict HVal → Dict HVal) (d : Dict HVal) (ho : ∀ d, (ord d).Perm d) :
    encodeMessageBody env ord { Msg.new with headers := d } = .ok slideless := by
  have h : (match encodeMessageBody sampleEnv id Msg.new with | .ok s => decide (s = slideless) | .error _ => false) = true := by
    decide +kernel
  split at h
  · rename_i body hb
    rw [← of_decide_eq_true h, ← hb]
    have e : Msg.smil env { Msg.new with headers := d } = Msg.smil sampleEnv Msg.new := rfl
    unfold encodeMessageBody
    rw [e]
    cases Msg.smil sampleEnv Msg.new with
    | error x => rfl
    | ok smil =>
      have hh : encodePartHeaders (ord (smilPart smil).headers) = encodePartHeaders (smilPart smil).headers := by
        rcases perm_pair (ho (smilPart smil).headers) with h | h <;> rw [h] <;> rfl
      have hp : encodePart env ord (smilPart smil) = encodePart sampleEnv id (smilPart smil) := by
        unfold encodePart
        rw [hh]
        rfl
      show (do
        let a ← toOctets (ints (encodeUintVar ((1 : Nat) : Int)))
        let b ← encodeParts env ord [smilPart smil]
        Except.ok (a ++ b)) = (do
        let a ← toOctets (ints (encodeUintVar ((1 : Nat) : Int)))
        let b ← encodeParts sampleEnv id [smilPart smil]
        Except.ok (a ++ b))
      have hq : encodeParts env ord [smilPart smil] = encodeParts sampleEnv id [smilPart smil] := by
        unfold encodeParts
        rw [hp]
        rfl
      rw [hq]
  · cases h

theorem tid_octets {id : Str} (h : ∀ c ∈ id, c < 256) : headerOctets TI (.v (.str id)) = .ok (0x98 :: (id ++ [0])) :=
  headerOctets_field (n := 0x18) (ty := .textString) rfl (by decide) (by
    simp only [encodeMmsValue, encodeTextH_str, bind, Except.bind]) (text_body h)

theorem status_octets {st : Str} (h : st ∈ statusNames) :
    headerOctets (py! "Status") (.v (.str st)) = .ok [0x95, 0x80 + statusNames.idxOf st] := by
  have : ∀ st ∈ statusNames, headerOctets (py! "Status") (.v (.str st)) = .ok [0x95, 0x80 + statusNames.idxOf st] := by
    decide +kernel
  exact this st h

/-- an acknowledgement is exactly the message of the standard -/
def C105_full : Prop := ∀ (env : Env) (ord : Dict HVal → Dict HVal) (rnd : Nat) (id st : Str),
  (∀ d, (ord d).Perm d) → (∀ c ∈ id, c < 256) → st ∈ statusNames →
  ∃ m', encode env ord rnd (tutorialAck id st) = .ok (notifyResp id st) m'

/-- the message of the tutorial begins with exactly the M-NotifyResp.ind of the standard, whatever the transaction id and
status, but a content type and a body with one part, the presentation of no slides, follow -/
theorem C105_partial (env : Env) (ord : Dict HVal → Dict HVal) (rnd : Nat) (id st : Str) (ho : ∀ d, (ord d).Perm d)
    (hi : ∀ c ∈ id, c < 256) (hs : st ∈ statusNames) :
    ∃ m', encode env ord rnd (tutorialAck id st) = .ok (notifyResp id st ++ [0x84, 0xa3] ++ slideless) m' := by
  let d : Dict HVal := [(CT, .ct (py! "application/vnd.wap.multipart.mixed") []), (py! "Status", .v (.str st))]
  have hR : encodeRest (ord d) = .ok [0x95, 0x80 + statusNames.idxOf st] := by
    rcases perm_pair (ho d) with h | h <;> rw [h]
    · show (do
        let a ← headerOctets (py! "Status") (.v (.str st))
        let b ← Except.ok []
        Except.ok (a ++ b) : Py (List Nat)) = _
      rw [status_octets hs]
      rfl
    · show (do
        let a ← headerOctets (py! "Status") (.v (.str st))
        let b ← Except.ok []
        Except.ok (a ++ b) : Py (List Nat)) = _
      rw [status_octets hs]
      rfl
  let m0 : Msg := tutorialAck id st
  let m1 : Msg := { Msg.new with headers := [(TI, .v (.str id)), (MV, .v (.str (py! "1.0"))),
    (CT, .ct (py! "application/vnd.wap.multipart.mixed") []), (py! "Status", .v (.str st))] }
  let m2 : Msg := { Msg.new with headers := [(MV, .v (.str (py! "1.0"))),
    (CT, .ct (py! "application/vnd.wap.multipart.mixed") []), (py! "Status", .v (.str st))] }
  let m3 : Msg := { Msg.new with headers := d }
  have e0 : ({ m0 with headers := prepareHeaders rnd m0.headers } : Msg) = m0 := rfl
  have e1 : encodeAndDelete (py! "Message-Type") m0 = .ok [0x8c, 0x83] m1 := rfl
  have e2 : encodeAndDelete (py! "Transaction-Id") m1 = .ok (0x98 :: (id ++ [0])) m2 := by
    show M.bind (M.lift (headerOctets TI (.v (.str id)))) _ m1 = _
    rw [tid_octets hi]
    rfl
  have e3 : encodeAndDelete (py! "MMS-Version") m2 = .ok [0x8d, 0x90] m3 := rfl
  have e4 : encodeCtHeader d = .ok [0x84, 0xa3] := by
    show encodeCtHeader [(CT, .ct (py! "application/vnd.wap.multipart.mixed") []), _] = _
    rfl
  have hh : encodeMessageHeader ord rnd m0 = .ok (notifyResp id st ++ [0x84, 0xa3]) m3 := by
    unfold encodeMessageHeader
    rw [M.bind_ok (show M.modify _ m0 = .ok () m0 from rfl), M.bind_ok e1, M.bind_ok e2, M.bind_ok e3,
      M.bind_ok (show M.get m3 = .ok m3 m3 from rfl), M.bind_ok (show M.lift (encodeRest (ord m3.headers)) m3 = .ok _ m3 by
        rw [show m3.headers = d from rfl, hR]; rfl), M.bind_ok (show M.lift (encodeCtHeader m3.headers) m3 = .ok _ m3 by
        rw [show m3.headers = d from rfl, e4]; rfl)]
    simp [notifyResp, M.pure_apply]
  refine ⟨m3, ?_⟩
  show encode env ord rnd m0 = _
  unfold encode
  rw [M.bind_ok hh, M.bind_ok (show M.get m3 = .ok m3 m3 from rfl), M.bind_ok (show M.lift (encodeMessageBody env ord m3) m3 = .ok slideless m3 by
    rw [ack_body env ord d ho]; rfl)]
  rfl

/-- an m-acknowledge-ind begins with exactly the M-Acknowledge.ind of the standard, and again a content type and a
presentation of no slides follow -/
theorem C105_acknowledge (env : Env) (ord : Dict HVal → Dict HVal) (rnd : Nat) (id : Str) (ho : ∀ d, (ord d).Perm d)
    (hi : ∀ c ∈ id, c < 256) :
    ∃ m', encode env ord rnd (plainAck id) = .ok (acknowledge id ++ [0x84, 0xa3] ++ slideless) m' := by
  let d : Dict HVal := [(CT, .ct (py! "application/vnd.wap.multipart.mixed") [])]
  have hR : encodeRest (ord d) = .ok [] := by
    rw [List.perm_singleton.1 (ho d)]
    rfl
  let m0 : Msg := plainAck id
  let m1 : Msg := { Msg.new with headers := [(TI, .v (.str id)), (MV, .v (.str (py! "1.0"))),
    (CT, .ct (py! "application/vnd.wap.multipart.mixed") [])] }
  let m2 : Msg := { Msg.new with headers := [(MV, .v (.str (py! "1.0"))),
    (CT, .ct (py! "application/vnd.wap.multipart.mixed") [])] }
  let m3 : Msg := { Msg.new with headers := d }
  have e1 : encodeAndDelete (py! "Message-Type") m0 = .ok [0x8c, 0x85] m1 := rfl
  have e2 : encodeAndDelete (py! "Transaction-Id") m1 = .ok (0x98 :: (id ++ [0])) m2 := by
    show M.bind (M.lift (headerOctets TI (.v (.str id)))) _ m1 = _
    rw [tid_octets hi]
    rfl
  have e3 : encodeAndDelete (py! "MMS-Version") m2 = .ok [0x8d, 0x90] m3 := rfl
  have e4 : encodeCtHeader d = .ok [0x84, 0xa3] := rfl
  have hh : encodeMessageHeader ord rnd m0 = .ok (acknowledge id ++ [0x84, 0xa3]) m3 := by
    unfold encodeMessageHeader
    rw [M.bind_ok (show M.modify _ m0 = .ok () m0 from rfl), M.bind_ok e1, M.bind_ok e2, M.bind_ok e3,
      M.bind_ok (show M.get m3 = .ok m3 m3 from rfl), M.bind_ok (show M.lift (encodeRest (ord m3.headers)) m3 = .ok _ m3 by
        rw [show m3.headers = d from rfl, hR]; rfl), M.bind_ok (show M.lift (encodeCtHeader m3.headers) m3 = .ok _ m3 by
        rw [show m3.headers = d from rfl, e4]; rfl)]
    simp [acknowledge, M.pure_apply]
  refine ⟨m3, ?_⟩
  show encode env ord rnd m0 = _
  unfold encode
  rw [M.bind_ok hh, M.bind_ok (show M.get m3 = .ok m3 m3 from rfl), M.bind_ok (show M.lift (encodeMessageBody env ord m3) m3 = .ok slideless m3 by
    rw [ack_body env ord d ho]; rfl)]
  rfl

example : (∀ c ∈ (py! "T2132112322"), c < 256) ∧ py! "Retrieved" ∈ statusNames ∧
    notifyResp (py! "T1") (py! "Retrieved") = [0x8c, 0x83, 0x98, 84, 49, 0, 0x8d, 0x90, 0x95, 0x81] := by decide

theorem C105_refuted : ¬ C105_full := by
  intro h
  obtain ⟨m1, h1⟩ := h sampleEnv id 1 (py! "T2132112322") (py! "Retrieved") (fun d => List.Perm.refl d) (by decide) (by decide)
  obtain ⟨m2, h2⟩ := C105_partial sampleEnv id 1 (py! "T2132112322") (py! "Retrieved") (fun d => List.Perm.refl d) (by decide) (by decide)
  rw [h1] at h2
  have := congrArg List.length (Res.ok.inj h2).1
  simp only [List.length_append, List.length_cons, List.length_nil] at this
  omega

end Verif.Props

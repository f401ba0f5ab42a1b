import Verif.Spec.Sms
import Verif.Spec.Time
import Verif.Model.Submit
/-!
# Specification: what the PDUs of an `SmsSubmit` must say

Relates the settings of the object (public attributes only) to what the independent SMS-SUBMIT reader of `Spec.Sms`
finds in a PDU.
-/
set_option autoImplicit false

namespace Verif.Spec.Submit
open Verif.Spec Verif.Spec.Sms Verif.Spec.Time
open Verif.Submit (State Pdu Validity)

/-- the validity setting can be expressed (relative: 5 minutes to 63 weeks; absolute: an existing date from 1900 on, zone
less than 20 hours from UTC) -/
def ValidityOk : Validity → Prop
  | .none => True
  | .relative t => 5 * 60000000 ≤ t.us ∧ t.us ≤ 63 * 7 * 86400000000
  | .absolute d => 1900 ≤ d.year ∧ (⟨d.year, d.month, d.day, d.hour, d.minute, d.second⟩ : Civil).Valid ∧
      ∀ o, d.off = some o → o.natAbs < 1200

/-- a service centre setting: unset, empty or an accepted number -/
def CscaOk : Option (List Nat) → Prop
  | none => True
  | some x => x = [] ∨ ValidNumber x

/-- the settings are complete and in range -/
structure Ready (s : State) : Prop where
  number : ∃ x, s.number = some x ∧ ValidNumber x
  csca : CscaOk s.csca
  klass : ∀ k, s.klass = some k → k ≤ 3
  pid : 0 ≤ s.pid ∧ s.pid < 256
  validity : ValidityOk s.validity

/-- the SMSC address that was set -/
def CscaDenotes (c : Option (List Nat)) (sm : Option Address) : Prop :=
  match c with
  | none => sm = none
  | some [] => sm = none
  | some x => ∃ a, sm = some a ∧ Denotes x a

/-- the validity fields express the setting: relative rounded down, absolute exactly with the zone in quarters of an hour
(rounded toward zero) -/
def ValidityField (v : Validity) (vpf : Nat) (vp : List Nat) : Prop :=
  match v with
  | .none => vpf = 0 ∧ vp = []
  | .relative t => vpf = 2 ∧ ∃ n, n < 256 ∧ vp = [n] ∧ relMicros n ≤ t.us ∧ ∀ m < 256, relMicros m ≤ t.us → m ≤ n
  | .absolute d => vpf = 3 ∧ readStamp vp =
      some ⟨d.year % 100, d.month, d.day, d.hour, d.minute, d.second, Int.tdiv (d.off.getD 0) 15⟩

/-- TP-DCS for an alphabet and an optional message class (TS 23.038 section 4) -/
def dcsOctet (al : Alphabet) (klass : Option Nat) : Nat :=
  (match al with | .gsm => 0 | .bin => 4 | .ucs2 => 8) + (match klass with | none => 0 | some k => 16 + k)

/-- PDU `p`, part `i` (from 0) of `n`, read as an SMS-SUBMIT, conforms to the settings `s` and alphabet `al` in everything
but the user data, which has length octet `udl` and octets `ud`; `mr` is the message reference -/
def Envelope (s : State) (al : Alphabet) (mr n i : Nat) (p : Pdu) (udl : Nat) (ud : List Nat) : Prop :=
  ∃ (bytes : List Nat) (sm : Option Address) (rest : List Nat) (sub : Sms.Submit),
    p.pdu = hexUpper bytes ∧ (∀ x ∈ bytes, x < 256) ∧ readSmsc bytes = some (sm, rest) ∧ CscaDenotes s.csca sm ∧
    p.length = rest.length ∧ p.cnt = n ∧ p.seq = i + 1 ∧ readSubmit rest = some sub ∧
    sub.mti = 1 ∧ sub.rd = false ∧ sub.rp = false ∧ sub.srr = s.requestStatus ∧ (sub.udhi = true ↔ n ≠ 1) ∧
    sub.mr = mr ∧ (∀ r, s.ref = some r → (mr : Int) = r % 256) ∧
    (∃ x, s.number = some x ∧ Denotes x sub.da) ∧ (sub.pid : Int) = s.pid ∧ sub.dcs = dcsOctet al s.klass ∧
    ValidityField s.validity sub.vpf sub.vp ∧ sub.udl = udl ∧ sub.ud = ud

/-- the header of part `i` (from 0) of `n` -/
def partHeader (cr n i : Nat) : List Nat := if n = 1 then [] else concatUdh cr n (i + 1)

/-- ... and moreover carries the text `t` in at most 140 octets of user data; `cr` is the concatenation reference -/
def Conforms (s : State) (al : Alphabet) (mr cr n i : Nat) (t : List Nat) (p : Pdu) : Prop :=
  ∃ udl ud, Envelope s al mr n i p udl ud ∧ ud.length ≤ 140 ∧
    Carries al (partHeader cr n i) t udl ud

/-- the PDUs are one conforming PDU for each of the texts, in order, with common references -/
def AllConform (s : State) (al : Alphabet) (mr cr : Nat) (ts : List (List Nat)) (ps : List Pdu) : Prop :=
  ps.length = ts.length ∧ ∀ i (h : i < ts.length) (h' : i < ps.length), Conforms s al mr cr ts.length i ts[i] ps[i]

/-- the text can be written in the GSM alphabet; byte strings must be ASCII -/
def GsmText (t : Verif.PyStr) : Prop := (∀ c ∈ t.s, Gsm.Supported c) ∧ (t.uni = true ∨ ∀ c ∈ t.s, c < 128)

/-- the settings send the text in this alphabet: chosen with `fmt`, or by default GSM if the text allows it and UCS2
otherwise.  UCS2 covers 16-bit characters (a `str` counts as Latin-1, and must be ASCII if long); 8-bit data is limited here to one message (see `C14`). -/
def Uses (s : State) (al : Alphabet) : Prop :=
  match al with
  | .gsm => (s.fmt = some 0 ∨ s.fmt = none) ∧ GsmText s.text
  | .ucs2 => (s.fmt = some 8 ∨ (s.fmt = none ∧ ¬ GsmText s.text)) ∧ (∀ c ∈ s.text.s, c < 65536) ∧
      (s.text.uni = true ∨ (∀ c ∈ s.text.s, c < 128) ∨ s.text.s.length ≤ 70)
  | .bin => s.fmt = some 4 ∧ (∀ c ∈ s.text.s, c < 256) ∧ s.text.s.length ≤ 140 ∧
      (s.text.uni = false ∨ s.text.s.length < 128)

/-- `units` are the symbols of the text `t` in alphabet `al`: septets, octets or 16-bit characters -/
def Units (al : Alphabet) (t units : List Nat) : Prop :=
  match al with
  | .gsm => Gsm.Spells t units
  | _ => units = t

/-- symbols in a single message -/
def single : Alphabet → Nat
  | .gsm => 160
  | .bin => 140
  | .ucs2 => 70

/-- symbols in a part of a long message -/
def partSize : Alphabet → Nat
  | .gsm => 153
  | .bin => 134
  | .ucs2 => 67

/-- `ts` is a proper division of the text `t` in parts: nothing lost; one part if it fits; otherwise parts that are not
empty, fit, are each well formed on their own and are full except for at most one symbol (when an escape would be cut
off), the last one excepted. -/
def Division (al : Alphabet) (t : List Nat) (ts : List (List Nat)) : Prop :=
  ts.flatten = t ∧ ∃ units, Units al t units ∧
    ((units.length ≤ single al ∧ ts = [t]) ∨
     (single al < units.length ∧ 2 ≤ ts.length ∧
      (∀ u ∈ ts, u ≠ [] ∧ ∃ us, Units al u us ∧ us ≠ [] ∧ us.length ≤ partSize al) ∧
      units.length ≤ ts.length * partSize al ∧ (ts.length - 1) * (partSize al - 1) < units.length ∧
      (27 ∉ units → ts.length = (units.length + partSize al - 1) / partSize al)))

/-- PDU `p`, read as SMS-SUBMIT, has user data length octet `udl` and user data `ud` -/
def UserData (p : Pdu) (udl : Nat) (ud : List Nat) : Prop :=
  ∃ (bytes : List Nat) (sm : Option Address) (rest : List Nat) (sub : Sms.Submit),
    p.pdu = hexUpper bytes ∧ (∀ x ∈ bytes, x < 256) ∧ readSmsc bytes = some (sm, rest) ∧ readSubmit rest = some sub ∧
    sub.udl = udl ∧ sub.ud = ud

end Verif.Spec.Submit

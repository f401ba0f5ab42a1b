import Verif.Spec.Relay
/-!
# Specification: received TPDUs (3GPP TS 23.040 sections 9.2.2.1, 9.2.2.3, 9.2.3.24; TS 23.038 section 4)
-/
set_option autoImplicit false

namespace Verif.Spec.Sms
open Verif.Spec Verif.Spec.Time

/-- octets of an SMS-DELIVER with its service centre field -/
structure DeliverPdu where
  smsc : List Nat
  fo : Nat
  oa : List Nat
  pid : Nat
  dcs : Nat
  scts : List Nat
  udl : Nat
  ud : List Nat

def DeliverPdu.octets (p : DeliverPdu) : List Nat :=
  p.smsc ++ [p.fo] ++ p.oa ++ [p.pid, p.dcs] ++ p.scts ++ [p.udl] ++ p.ud

/-- the field boundaries are right; nothing is said about the contents of time stamp and user data -/
structure DeliverPdu.Ok (p : DeliverPdu) : Prop where
  octets : ∀ x ∈ p.octets, x < 256
  smsc : ∃ a, readSmsc p.smsc = some (a, [])
  mti : p.fo % 4 = 0
  oa : ∃ n toa d, p.oa = n :: toa :: d ∧ d.length = (n + 1) / 2
  scts : p.scts.length = 7

/-- octets of an SMS-STATUS-REPORT: reference, recipient, and the rest (two time stamps of seven octets and the status
octet), which may be cut off anywhere -/
structure ReportPdu where
  smsc : List Nat
  fo : Nat
  mr : Nat
  ra : List Nat
  rest : List Nat

def ReportPdu.octets (p : ReportPdu) : List Nat := p.smsc ++ [p.fo, p.mr] ++ p.ra ++ p.rest

/-- the recipient address is `a` -/
structure ReportPdu.Ok (p : ReportPdu) (a : Address) : Prop where
  octets : ∀ x ∈ p.octets, x < 256
  smsc : ∃ a, readSmsc p.smsc = some (a, [])
  mti : p.fo % 4 = 2
  ra : readAddress p.ra = some (a, [])
  digits : ∀ d ∈ a.digits, d < 10

/-- octets of the service centre time stamp, of the discharge time, and the status octet -/
def ReportPdu.scts (p : ReportPdu) : List Nat := p.rest.take 7

def ReportPdu.dt (p : ReportPdu) : List Nat := (p.rest.drop 7).take 7

def ReportPdu.status (p : ReportPdu) : Option Nat := p.rest[14]?

/-- two decimal digits -/
def dd (n : Nat) : List Nat := [48 + n / 10 % 10, 48 + n % 10]

/-- `yy/mm/dd hh:mm:ss` -/
def stampText (c : Civil) : List Nat :=
  dd c.year ++ [47] ++ dd c.month ++ [47] ++ dd c.day ++ [32] ++ dd c.hour ++ [58] ++ dd c.minute ++ [58] ++ dd c.second

/-- the alphabet of a data coding scheme octet (TS 23.038 section 4): general and automatic deletion groups by bits 3-2,
class group by bit 2, "store message" group with UCS2; everything else, including reserved values, is the default
alphabet -/
def dcsAlphabet (dcs : Nat) : Alphabet :=
  if dcs / 64 ≤ 1 then
    (if dcs / 4 % 4 = 1 then .bin else if dcs / 4 % 4 = 2 then .ucs2 else .gsm)
  else if dcs / 16 = 14 then .ucs2
  else if dcs / 16 = 15 then (if dcs / 4 % 2 = 1 then .bin else .gsm)
  else .gsm

/-- octets occupied by user data of declared length `udl` -/
def udOctets (al : Alphabet) (udl : Nat) : Nat :=
  match al with
  | .gsm => (7 * udl + 7) / 8
  | _ => udl

/-! ## User data headers -/

/-- an information element -/
structure Element where
  id : Nat
  payload : List Nat

/-- octets of a sequence of elements (section 9.2.3.24) -/
def elementOctets (els : List Element) : List Nat := els.flatMap fun e => e.id :: e.payload.length :: e.payload

/-- elements with a fixed size have it -/
def Element.Ok (e : Element) : Prop :=
  (e.id = 0 → e.payload.length = 3) ∧ (e.id = 8 → e.payload.length = 4) ∧ (e.id = 4 → e.payload.length = 2) ∧
    (e.id = 5 → e.payload.length = 4)

/-- payload of the last element with an id -/
def payloadOf (els : List Element) (id : Nat) : Option (List Nat) :=
  (els.reverse.find? fun e => e.id = id).map (·.payload)

/-- reference, number of parts, position, and whether the reference has 8 bits: from the last concatenation element -/
def concatOf (els : List Element) : Option (Nat × Nat × Nat × Bool) :=
  match els.reverse.find? fun e => e.id = 0 ∨ e.id = 8 with
  | some ⟨0, [r, n, i]⟩ => some (r, n, i, true)
  | some ⟨8, [h, l, n, i]⟩ => some (256 * h + l, n, i, false)
  | _ => none

/-- destination port, originator port, and whether they have 8 bits: from the last port element -/
def portsOf (els : List Element) : Option (Nat × Nat × Bool) :=
  match els.reverse.find? fun e => e.id = 4 ∨ e.id = 5 with
  | some ⟨4, [d, o]⟩ => some (d, o, true)
  | some ⟨5, [dh, dl, oh, ol]⟩ => some (256 * dh + dl, 256 * oh + ol, false)
  | _ => none

end Verif.Spec.Sms

import Verif.Spec.Sms
import Verif.Spec.Time
/-!
# Specification: relaying a submitted message (3GPP TS 23.040 sections 3 and 9.2.2.1)

What a service centre does with an SMS-SUBMIT: it builds an SMS-DELIVER with its own address, the address of the
originator and a time stamp, and copies the rest.
-/
set_option autoImplicit false

namespace Verif.Spec.Sms
open Verif.Spec Verif.Spec.Time

/-- what the service centre adds: octets of its own address field, of the originating address field and of the time
stamp; the flags "no more messages" and "status report indication" -/
structure Relay where
  smsc : List Nat
  oa : List Nat
  scts : List Nat
  nomore : Bool
  sri : Bool

/-- the fields are well formed: a service centre field, an address field of any type, an existing time -/
structure Relay.Ok (r : Relay) : Prop where
  octets : ∀ x ∈ r.smsc ++ r.oa ++ r.scts, x < 256
  smsc : ∃ a, readSmsc r.smsc = some (a, [])
  oa : ∃ n toa d, r.oa = n :: toa :: d ∧ d.length = (n + 1) / 2
  scts : ∃ t, readStamp r.scts = some t ∧ t.civil.Valid

/-- the SMS-DELIVER for a submitted message -/
def Relay.deliver (r : Relay) (t : Submit) : List Nat :=
  r.smsc ++ [(if r.nomore then 4 else 0) + (if r.sri then 32 else 0) + (if t.udhi then 64 else 0) +
    (if t.rp then 128 else 0)] ++ r.oa ++ [t.pid, t.dcs] ++ r.scts ++ [t.udl] ++ t.ud

/-- the submitted hex string `p` becomes the delivered hex string `q` -/
def Relays (r : Relay) (p q : List Nat) : Prop :=
  ∃ (bytes : List Nat) (sm : Option Address) (rest : List Nat) (sub : Submit),
    p = hexUpper bytes ∧ (∀ x ∈ bytes, x < 256) ∧ readSmsc bytes = some (sm, rest) ∧ readSubmit rest = some sub ∧
    q = hexUpper (r.deliver sub)

end Verif.Spec.Sms

import Verif.Spec.Standard
/-!
# Specification: what a recipient who keeps to WAP-209 and WAP-230 may read in some octets
-/
set_option autoImplicit false

namespace Verif.Spec.Reader
open Verif.Mms (Val HVal)
open Verif.Spec.Wsp Verif.Spec.Mms Verif.Spec.Standard

/-- the octets `o` are the message with the headers `hs`, the content type `c` and the parts `ps` -/
def Reads (o : List Nat) (hs : List Hdr) (c : CType) (ps : List Part) : Prop :=
  (∀ h ∈ hs, h.Conf) ∧ c.Conf ∧ (∀ p ∈ ps, p.Conf) ∧ o = hs.flatMap Hdr.enc ++ 0x84 :: c.enc ++ multipart ps

/-- the fields whose values are texts that may come with a character set -/
def charsetFields : List (List Nat) := [py! "Bcc", py! "Cc", py! "From", py! "Response-Text", py! "Subject", py! "To"]

/-- a text in one of these fields does not begin with a control character -/
def Clear (n : List Nat) (v : HVal) : Prop :=
  n ∈ charsetFields → ∀ s c, v = .v (.str s) → s.head? = some c → 32 ≤ c

end Verif.Spec.Reader

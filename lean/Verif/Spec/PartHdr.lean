import Verif.Spec.MmsParts
/-!
# Specification: the labels of the parts of a message

WAP-230 8.4.2: how a conformant sender writes Content-ID (table 39: 0x40), Content-Location (0x0E) and Content-Disposition
(0x2E) of a part.
-/
set_option autoImplicit false

namespace Verif.Spec.PartHdr
open Verif.Spec.Wsp Verif.Spec.Mms

/-- Content-ID = Quoted-string; the identifier stands in angle brackets -/
def contentId (id : List Nat) : List Nat := 0xC0 :: 34 :: 60 :: (id ++ [62, 0])

/-- Content-Location = Uri-value -/
def contentLocation (t : List Nat) : List Nat := 0x8E :: text t

/-- Content-Disposition = Value-length Attachment Filename -/
def attachment (f : List Nat) : List Nat := 0xAE :: sized (0x81 :: 0x86 :: text f)

/-- a part with the given label octets -/
def labelled (c : CType) (labels data : List Nat) : List Nat :=
  uintvar (c.enc ++ labels).length ++ uintvar data.length ++ (c.enc ++ labels) ++ data

end Verif.Spec.PartHdr

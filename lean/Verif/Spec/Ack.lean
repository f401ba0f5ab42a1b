import Verif.Spec.Mms
/-!
# Specification: acknowledgements (OMA MMS encapsulation, sections 6.2 and 6.4)
-/
set_option autoImplicit false

namespace Verif.Spec.Ack
open Verif.Spec.Mms

/-- M-NotifyResp.ind, version 1.0: message type, transaction id, version, status; it has no content type and no body -/
def notifyResp (id status : List Nat) : List Nat :=
  [0x8c, 0x83] ++ 0x98 :: id ++ [0] ++ [0x8d, 0x90] ++ [0x95, 0x80 + statusNames.idxOf status]

/-- M-Acknowledge.ind, version 1.0 -/
def acknowledge (id : List Nat) : List Nat := [0x8c, 0x85] ++ 0x98 :: id ++ [0] ++ [0x8d, 0x90]

/-- the presentation of no slides -/
def presentation : List Nat := py! "<smil>\n\t<head>\n\t\t<layout>\n\t\t\t<root-layout height=\"220\" width=\"176\"/>\n" ++
  py! "\t\t\t<region height=\"144\" id=\"Image\" left=\"0\" top=\"0\" width=\"176\"/>\n" ++
  py! "\t\t\t<region height=\"76\" id=\"Text\" left=\"176\" top=\"144\" width=\"176\"/>\n" ++
  py! "\t\t</layout>\n\t</head>\n\t<body/>\n</smil>\n"

/-- a body of one part, the presentation of no slides: the number of parts, the lengths of the headers and of the data (241),
the content type, Content-ID, the data -/
def slideless : List Nat :=
  [1] ++ [35] ++ [0x81, 0x71] ++ py! "application/smil" ++ [0] ++ py! "Content-ID" ++ [0] ++ py! "<0000>" ++ [0] ++ presentation

end Verif.Spec.Ack

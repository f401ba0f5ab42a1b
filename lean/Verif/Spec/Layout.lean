import Verif.Model.WspTables
/-!
# Specification: the layout of an encoded MMS (OMA MMS encapsulation, sections 7.1 and 7.3)
-/
set_option autoImplicit false

namespace Verif.Spec.Layout

/-- table 12: assigned numbers of the header fields -/
def fieldNumbers : List (Nat × List Nat) := [
  (0x01, py! "Bcc"), (0x02, py! "Cc"), (0x03, py! "Content-Location"), (0x04, py! "Content-Type"), (0x05, py! "Date"),
  (0x06, py! "Delivery-Report"), (0x07, py! "Delivery-Time"), (0x08, py! "Expiry"), (0x09, py! "From"),
  (0x0a, py! "Message-Class"), (0x0b, py! "Message-ID"), (0x0c, py! "Message-Type"), (0x0d, py! "MMS-Version"),
  (0x0e, py! "Message-Size"), (0x0f, py! "Priority"), (0x10, py! "Read-Reply"), (0x11, py! "Report-Allowed"),
  (0x12, py! "Response-Status"), (0x13, py! "Response-Text"), (0x14, py! "Sender-Visibility"), (0x15, py! "Status"),
  (0x16, py! "Subject"), (0x17, py! "To"), (0x18, py! "Transaction-Id")]

/-- the octets of a header with this name: the assigned number with the top bit set, or, for a field without a number,
the name as text; then the value -/
def Starts (name octets : List Nat) : Prop :=
  (∃ n v, (n, name) ∈ fieldNumbers ∧ octets = (n + 128) :: v) ∨
  ((∀ n, (n, name) ∉ fieldNumbers) ∧ ∃ v, octets = name ++ 0 :: v)

/-- the names that have a fixed place -/
def fixed : List (List Nat) := [py! "Message-Type", py! "Transaction-Id", py! "MMS-Version", py! "Content-Type",
  py! "X-Mms-Message-Type", py! "X-Mms-Transaction-Id", py! "X-Mms-Version"]

/-- a message: message type, transaction id and version in this order; the other headers; the content type; the body -/
structure Layout (octets : List Nat) where
  type : Nat
  id : List Nat
  version : List Nat
  others : List (List Nat × List Nat)
  ctype : List Nat
  body : List Nat
  eq : octets = [0x8c, type] ++ (0x98 :: id ++ [0]) ++ (0x8d :: version) ++ (others.map (·.2)).flatten ++
    (0x84 :: ctype) ++ body
  isType : 0x80 ≤ type ∧ type ≤ 0x86
  starts : ∀ x ∈ others, Starts x.1 x.2

end Verif.Spec.Layout

import Verif.Spec.Mms
/-!
# Specification: the header values an MMS sender can put in a message and read back

Only the Python value types (`Val`, `HVal`, `Dict`) are taken from the model.
-/
set_option autoImplicit false

namespace Verif.Spec.MmsEnc
open Verif.Mms (Val HVal Dict)
open Verif.Spec.Wsp Verif.Spec.Mms

/-- WAP-209 table 8: the field names -/
def fieldNames : List (List Nat) := [
  py! "Bcc", py! "Cc", py! "Content-Location", py! "Content-Type", py! "Date", py! "Delivery-Report",
  py! "Delivery-Time", py! "Expiry", py! "From", py! "Message-Class", py! "Message-ID", py! "Message-Type",
  py! "MMS-Version", py! "Message-Size", py! "Priority", py! "Read-Reply", py! "Report-Allowed",
  py! "Response-Status", py! "Response-Text", py! "Sender-Visibility", py! "Status", py! "Subject", py! "To",
  py! "Transaction-Id"]

/-- a byte string without NUL that does not start with the Quote octet -/
def Unquoted (s : List Nat) : Prop := 0 ∉ s ∧ (∀ c ∈ s, c < 256) ∧ s.head? ≠ some 127

/-- an unquoted byte string that starts with a character from 32 on -/
def Sendable (s : List Nat) : Prop :=
  0 ∉ s ∧ (∀ c ∈ s, c < 256) ∧ ∃ c, s.head? = some c ∧ 32 ≤ c ∧ c ≠ 127

/-- the octets of a number, most significant first, that read the same backwards -/
def Palindrome (o : List Nat) : Prop := (∀ x ∈ o, x < 256) ∧ o.head? ≠ some 0 ∧ o.reverse = o ∧ beVal o < 2 ^ 63

/-- header names and values that survive encoding and decoding -/
inductive Faithful : List Nat → HVal → Prop
  | text (f : StrField) (s : List Nat) (h : Sendable s) : Faithful f.name (.v (.str s))
  | sender (s : List Nat) (h : Sendable s) : Faithful (py! "From") (.v (.str s))
  | messageId (s : List Nat) (h : Unquoted s) : Faithful (py! "Message-ID") (.v (.str s))
  | transactionId (s : List Nat) (h : Unquoted s) : Faithful (py! "Transaction-Id") (.v (.str s))
  | type (s : List Nat) (h : s ∈ typeNames) : Faithful (py! "Message-Type") (.v (.str s))
  | version (a b : Nat) (h : 1 ≤ a ∧ a ≤ 7 ∧ b ≤ 14) : Faithful (py! "MMS-Version") (.v (.str (dotted a b)))
  | status (s : List Nat) (h : s ∈ statusNames) : Faithful (py! "Status") (.v (.str s))
  | size (o : List Nat) (h : Palindrome o) : Faithful (py! "Message-Size") (.v (.int (beVal o)))
  | app (n s : List Nat) (hn : IsToken n) (hf : n ∉ fieldNames) (h : Unquoted s) : Faithful n (.v (.str s))

/-- a media type the library can send: a byte string that starts with a printable 7-bit character -/
def Sends (media : List Nat) : Prop := IsAsciiText media ∧ ∀ c ∈ media, c < 256

/-- text without NUL that needs no Quote octet in front -/
def PlainText (s : List Nat) : Prop := 0 ∉ s ∧ (∀ c ∈ s, c < 256) ∧ ∀ c, s.head? = some c → c < 127

/-- the names of the parameters with a number in WAP-230 table 38 up to encoding version 1.2 -/
def paramNames : List (List Nat) := [py! "Q", py! "Charset", py! "Level", py! "Type", py! "Name", py! "Filename",
  py! "Differences", py! "Padding", py! "Start", py! "Start-info"]

/-- the content type parameters that the library writes as WAP-230 has them -/
def SentParam : Param → Prop
  | .level a b => 1 ≤ a ∧ a ≤ 7 ∧ b ≤ 14
  | .name s => PlainText s
  | .filename s => PlainText s
  | .start s => PlainText s
  | .startInfo s => PlainText s
  | .padding n => n < 128
  | .relatedTypeNum n => n < 128
  | .relatedType s => IsAsciiText s ∧ ∀ c ∈ s, c < 256
  | .otherInt t (.short n) => IsToken t ∧ t ∉ paramNames ∧ n < 128
  | .otherToken t s => IsToken t ∧ t ∉ paramNames ∧ IsToken s
  | _ => False

/-- the header names with a number in WAP-230 table 39 up to encoding version 1.2 -/
def wspNames : List (List Nat) := [
  py! "Accept", py! "Accept-Charset", py! "Accept-Encoding", py! "Accept-Language", py! "Accept-Ranges", py! "Age",
  py! "Allow", py! "Authorization", py! "Cache-Control", py! "Connection", py! "Content-Base",
  py! "Content-Encoding", py! "Content-Language", py! "Content-Length", py! "Content-Location", py! "Content-MD5",
  py! "Content-Range", py! "Content-Type", py! "Date", py! "Etag", py! "Expires", py! "From", py! "Host",
  py! "If-Modified-Since", py! "If-Match", py! "If-None-Match", py! "If-Range", py! "If-Unmodified-Since",
  py! "Location", py! "Last-Modified", py! "Max-Forwards", py! "Pragma", py! "Proxy-Authenticate",
  py! "Proxy-Authorization", py! "Public", py! "Range", py! "Referer", py! "Retry-After", py! "Server",
  py! "Transfer-Encoding", py! "Upgrade", py! "User-Agent", py! "Vary", py! "Via", py! "Warning",
  py! "WWW-Authenticate", py! "Content-Disposition", py! "X-Wap-Application-Id", py! "X-Wap-Content-URI",
  py! "X-Wap-Initiator-URI", py! "Accept-Application", py! "Bearer-Indication", py! "Push-Flag", py! "Profile",
  py! "Profile-Diff", py! "Profile-Warning"]

/-- the names of table 39 whose number is not the number of an MMS field in WAP-209 (1 to 24), except Accept (number 0,
another kind of value) and Pragma (which the library cannot write) -/
def lateNames : List (List Nat) := (wspNames.drop 25).filter (· ≠ py! "Pragma")

/-- the headers of a part that survive encoding and decoding: texts under a name without number in table 39, or with a number
that is no MMS field, and media types under Accept -/
inductive Kept : List Nat → HVal → Prop
  | app (n s : List Nat) (hn : IsToken n) (hw : n ∉ wspNames) (h : Unquoted s) : Kept n (.v (.str s))
  | numbered (n s : List Nat) (hn : n ∈ lateNames) (h : Unquoted s) : Kept n (.v (.str s))
  | accept (s : List Nat) (h : Sends s) : Kept (py! "Accept") (.v (.str s))

/-- number of octets a header of a part takes at most -/
def entrySize : List Nat × HVal → Nat
  | (n, .v (.str s)) => n.length + s.length + 2
  | (_, .ct media _) => media.length + 1
  | _ => 0

end Verif.Spec.MmsEnc

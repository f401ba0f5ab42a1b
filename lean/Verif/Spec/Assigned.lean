import Verif.Model.Py
/-!
# Specification: assigned numbers of WAP-230 (tables 38 and 39)
-/
set_option autoImplicit false

namespace Verif.Spec.Assigned

/-- table 38: number, name and value form of the parameters, and the minor version of the encoding that has them -/
def parameters : List (Nat × List Nat × List Nat × Nat) := [
  (0x00, py! "Q", py! "Q-value", 1),
  (0x01, py! "Charset", py! "Well-known-charset", 1),
  (0x02, py! "Level", py! "Version-value", 1),
  (0x03, py! "Type", py! "Integer-value", 1),
  (0x05, py! "Name", py! "Text-string", 1),
  (0x06, py! "Filename", py! "Text-string", 1),
  (0x07, py! "Differences", py! "Field-name", 1),
  (0x08, py! "Padding", py! "Short-integer", 1),
  (0x09, py! "Type", py! "Constrained-encoding", 2),
  (0x0a, py! "Start", py! "Text-string", 2),
  (0x0b, py! "Start-info", py! "Text-string", 2),
  (0x0c, py! "Comment", py! "Text-string", 3),
  (0x0d, py! "Domain", py! "Text-string", 3),
  (0x0e, py! "Max-Age", py! "Delta-seconds-value", 3),
  (0x0f, py! "Path", py! "Text-string", 3),
  (0x10, py! "Secure", py! "No-value", 3),
  (0x11, py! "SEC", py! "Short-integer", 4),
  (0x12, py! "MAC", py! "Text-value", 4),
  (0x13, py! "Creation-date", py! "Date-value", 4),
  (0x14, py! "Modification-date", py! "Date-value", 4),
  (0x15, py! "Read-date", py! "Date-value", 4),
  (0x16, py! "Size", py! "Integer-value", 4),
  (0x17, py! "Name", py! "Text-value", 4),
  (0x18, py! "Filename", py! "Text-value", 4),
  (0x19, py! "Start", py! "Text-value", 4),
  (0x1a, py! "Start-info", py! "Text-value", 4),
  (0x1b, py! "Comment", py! "Text-value", 4),
  (0x1c, py! "Domain", py! "Text-value", 4),
  (0x1d, py! "Path", py! "Text-value", 4)]

/-- table 39: the header field names by number -/
def fields : List (List Nat) := [
  py! "Accept",
  py! "Accept-Charset",
  py! "Accept-Encoding",
  py! "Accept-Language",
  py! "Accept-Ranges",
  py! "Age",
  py! "Allow",
  py! "Authorization",
  py! "Cache-Control",
  py! "Connection",
  py! "Content-Base",
  py! "Content-Encoding",
  py! "Content-Language",
  py! "Content-Length",
  py! "Content-Location",
  py! "Content-MD5",
  py! "Content-Range",
  py! "Content-Type",
  py! "Date",
  py! "Etag",
  py! "Expires",
  py! "From",
  py! "Host",
  py! "If-Modified-Since",
  py! "If-Match",
  py! "If-None-Match",
  py! "If-Range",
  py! "If-Unmodified-Since",
  py! "Location",
  py! "Last-Modified",
  py! "Max-Forwards",
  py! "Pragma",
  py! "Proxy-Authenticate",
  py! "Proxy-Authorization",
  py! "Public",
  py! "Range",
  py! "Referer",
  py! "Retry-After",
  py! "Server",
  py! "Transfer-Encoding",
  py! "Upgrade",
  py! "User-Agent",
  py! "Vary",
  py! "Via",
  py! "Warning",
  py! "WWW-Authenticate",
  py! "Content-Disposition",
  py! "X-Wap-Application-Id",
  py! "X-Wap-Content-URI",
  py! "X-Wap-Initiator-URI",
  py! "Accept-Application",
  py! "Bearer-Indication",
  py! "Push-Flag",
  py! "Profile",
  py! "Profile-Diff",
  py! "Profile-Warning",
  py! "Expect",
  py! "TE",
  py! "Trailer",
  py! "Accept-Charset",
  py! "Accept-Encoding",
  py! "Cache-Control",
  py! "Content-Range",
  py! "X-Wap-Tod",
  py! "Content-ID",
  py! "Set-Cookie",
  py! "Cookie",
  py! "Encoding-Version",
  py! "Profile-Warning",
  py! "Content-Disposition",
  py! "X-WAP-Security",
  py! "Cache-Control"]

end Verif.Spec.Assigned

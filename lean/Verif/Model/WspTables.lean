import Verif.Model.Py
import Verif.Model.Utils
/-!
# Tables and values of `messaging/mms/wsp_pdu.py`
-/
set_option autoImplicit false

namespace Verif.Mms

/-- the value types named in `well_known_parameters` (wsp_pdu.py:66-96) -/
inductive PType
  | qValue | wellKnownCharset | versionValue | integerValue | textString | fieldName | shortInteger | constrainedEncoding | deltaSecondsValue | noValue | textValue | dateValue
  deriving DecidableEq, Repr

/-- wsp_pdu.py:66-96 `well_known_parameters` -/
def wellKnownParameters : List (Nat × Str × PType) := [
  (0x00, py! "Q", .qValue),
  (0x01, py! "Charset", .wellKnownCharset),
  (0x02, py! "Level", .versionValue),
  (0x03, py! "Type", .integerValue),
  (0x05, py! "Name", .textString),
  (0x06, py! "Filename", .textString),
  (0x07, py! "Differences", .fieldName),
  (0x08, py! "Padding", .shortInteger),
  (0x09, py! "Type", .constrainedEncoding),
  (0x0a, py! "Start", .textString),
  (0x0b, py! "Start-info", .textString),
  (0x0c, py! "Comment", .textString),
  (0x0d, py! "Domain", .textString),
  (0x0e, py! "Max-Age", .deltaSecondsValue),
  (0x0f, py! "Path", .textString),
  (0x10, py! "Secure", .noValue),
  (0x11, py! "SEC", .shortInteger),
  (0x12, py! "MAC", .textValue),
  (0x13, py! "Creation-date", .dateValue),
  (0x14, py! "Modification-date", .dateValue),
  (0x15, py! "Read-date", .dateValue),
  (0x16, py! "Size", .integerValue),
  (0x17, py! "Name", .textValue),
  (0x18, py! "Filename", .textValue),
  (0x19, py! "Start", .textValue),
  (0x1a, py! "Start-info", .textValue),
  (0x1b, py! "Comment", .textValue),
  (0x1c, py! "Domain", .textValue),
  (0x1d, py! "Path", .textValue)]

/-- wsp_pdu.py:100-160 `well_known_content_types` -/
def wellKnownContentTypes : List Str := [
  py! "*/*",
  py! "text/*",
  py! "text/html",
  py! "text/plain",
  py! "text/x-hdml",
  py! "text/x-ttml",
  py! "text/x-vCalendar",
  py! "text/x-vCard",
  py! "text/vnd.wap.wml",
  py! "text/vnd.wap.wmlscript",
  py! "text/vnd.wap.wta-event",
  py! "multipart/*",
  py! "multipart/mixed",
  py! "multipart/form-data",
  py! "multipart/byterantes",
  py! "multipart/alternative",
  py! "application/*",
  py! "application/java-vm",
  py! "application/x-www-form-urlencoded",
  py! "application/x-hdmlc",
  py! "application/vnd.wap.wmlc",
  py! "application/vnd.wap.wmlscriptc",
  py! "application/vnd.wap.wta-eventc",
  py! "application/vnd.wap.uaprof",
  py! "application/vnd.wap.wtls-ca-certificate",
  py! "application/vnd.wap.wtls-user-certificate",
  py! "application/x-x509-ca-cert",
  py! "application/x-x509-user-cert",
  py! "image/*",
  py! "image/gif",
  py! "image/jpeg",
  py! "image/tiff",
  py! "image/png",
  py! "image/vnd.wap.wbmp",
  py! "application/vnd.wap.multipart.*",
  py! "application/vnd.wap.multipart.mixed",
  py! "application/vnd.wap.multipart.form-data",
  py! "application/vnd.wap.multipart.byteranges",
  py! "application/vnd.wap.multipart.alternative",
  py! "application/xml",
  py! "text/xml",
  py! "application/vnd.wap.wbxml",
  py! "application/x-x968-cross-cert",
  py! "application/x-x968-ca-cert",
  py! "application/x-x968-user-cert",
  py! "text/vnd.wap.si",
  py! "application/vnd.wap.sic",
  py! "text/vnd.wap.sl",
  py! "application/vnd.wap.slc",
  py! "text/vnd.wap.co",
  py! "application/vnd.wap.coc",
  py! "application/vnd.wap.multipart.related",
  py! "application/vnd.wap.sia",
  py! "text/vnd.wap.connectivity-xml",
  py! "application/vnd.wap.connectivity-wbxml",
  py! "application/pkcs7-mime",
  py! "application/vnd.wap.hashed-certificate",
  py! "application/vnd.wap.signed-certificate",
  py! "application/vnd.wap.cert-response",
  py! "application/xhtml+xml",
  py! "application/wml+xml",
  py! "text/css",
  py! "application/vnd.wap.mms-message",
  py! "application/vnd.wap.rollover-certificate",
  py! "application/vnd.wap.locc+wbxml",
  py! "application/vnd.wap.loc+xml",
  py! "application/vnd.syncml.dm+wbxml",
  py! "application/vnd.syncml.dm+xml",
  py! "application/vnd.syncml.notification",
  py! "application/vnd.wap.xhtml+xml",
  py! "application/vnd.wv.csp.cir",
  py! "application/vnd.oma.dd+xml",
  py! "application/vnd.oma.drm.message",
  py! "application/vnd.oma.drm.content",
  py! "application/vnd.oma.drm.rights+xml",
  py! "application/vnd.oma.drm.rights+wbxml"]

/-- wsp_pdu.py:167-182 `well_known_charsets` -/
def wellKnownCharsets : List (Nat × Str) := [
  (0x03, py! "us-ascii"),
  (0x04, py! "iso-8859-1"),
  (0x05, py! "iso-8859-2"),
  (0x06, py! "iso-8859-3"),
  (0x07, py! "iso-8859-4"),
  (0x08, py! "iso-8859-5"),
  (0x09, py! "iso-8859-6"),
  (0x0a, py! "iso-8859-7"),
  (0x0b, py! "iso-8859-8"),
  (0x0c, py! "iso-8859-9"),
  (0x11, py! "shift_JIS"),
  (0x6a, py! "utf-8"),
  (0x3e8, py! "iso-10646-ucs-2"),
  (0x7ea, py! "big5")]

/-- wsp_pdu.py:185-214 `header_field_names` -/
def headerFieldNames : List Str := [
  py! "Accept",
  py! "Accept-Charset",
  py! "Accept-Encoding",
  py! "Accept-Language",
  py! "Accept-Ranges",
  py! "Age",
  py! "Allow",
  py! "Authorization",
  py! "Cache-Control",
  py! "Connection",
  py! "Content-Base",
  py! "Content-Encoding",
  py! "Content-Language",
  py! "Content-Length",
  py! "Content-Location",
  py! "Content-MD5",
  py! "Content-Range",
  py! "Content-Type",
  py! "Date",
  py! "Etag",
  py! "Expires",
  py! "From",
  py! "Host",
  py! "If-Modified-Since",
  py! "If-Match",
  py! "If-None-Match",
  py! "If-Range",
  py! "If-Unmodified-Since",
  py! "Location",
  py! "Last-Modified",
  py! "Max-Forwards",
  py! "Pragma",
  py! "Proxy-Authenticate",
  py! "Proxy-Authorization",
  py! "Public",
  py! "Range",
  py! "Referer",
  py! "Retry-After",
  py! "Server",
  py! "Transfer-Encoding",
  py! "Upgrade",
  py! "User-Agent",
  py! "Vary",
  py! "Via",
  py! "Warning",
  py! "WWW-Authenticate",
  py! "Content-Disposition",
  py! "X-Wap-Application-Id",
  py! "X-Wap-Content-URI",
  py! "X-Wap-Initiator-URI",
  py! "Accept-Application",
  py! "Bearer-Indication",
  py! "Push-Flag",
  py! "Profile",
  py! "Profile-Diff",
  py! "Profile-Warning",
  py! "Expect",
  py! "TE",
  py! "Trailer",
  py! "Accept-Charset",
  py! "Accept-Encoding",
  py! "Cache-Control",
  py! "Content-Range",
  py! "X-Wap-Tod",
  py! "Content-ID",
  py! "Set-Cookie",
  py! "Cookie",
  py! "Encoding-Version",
  py! "Profile-Warning",
  py! "Content-Disposition",
  py! "X-WAP-Security",
  py! "Cache-Control"]
/-- A Python value that can appear as (part of) a header value: `str`, `unicode`, `int`/`long`, `bool`, `float`,
`datetime` (naive) or `None`.  Floats only arise in `decode_q_value` as `num / den` and are kept as that fraction
(simplification: no IEEE rounding).  An `.int n` is a Python `int` when -2^63 <= n < 2^63 and a `long` otherwise
(small values of type `long` are not modelled). -/
inductive Val
  | str (s : Str) | uni (s : Str) | int (n : Int) | bool (b : Bool) | flt (num : Int) (den : Nat)
  | dt (d : DateTime) | none
  deriving DecidableEq, Repr

/-- `isinstance(n, int)` for an integer value, 64-bit CPython 2 -/
def isPyInt (n : Int) : Bool := -(2 ^ 63) ≤ n && n < 2 ^ 63

/-- A Python `dict` with `str` keys; the order is the iteration order (arbitrary in Python 2). -/
abbrev Dict (α : Type) := List (Str × α)

namespace Dict
variable {α : Type}

/-- `d.get(k)` -/
def get (d : Dict α) (k : Str) : Option α :=
  match d with
  | [] => none
  | (k', v) :: r => if k' = k then some v else get r k

/-- `k in d` -/
def has (d : Dict α) (k : Str) : Bool := (get d k).isSome

/-- `d[k] = v` (a new key comes last; Python 2 leaves the order unspecified) -/
def set (d : Dict α) (k : Str) (v : α) : Dict α :=
  match d with
  | [] => [(k, v)]
  | (k', v') :: r => if k' = k then (k, v) :: r else (k', v') :: set r k v

/-- `del d[k]` for a key that is present -/
def del (d : Dict α) (k : Str) : Dict α :=
  match d with
  | [] => []
  | (k', v') :: r => if k' = k then r else (k', v') :: del r k

/-- `d[k]` -/
def index (d : Dict α) (k : Str) : Py α :=
  match get d k with
  | some v => .ok v
  | none => .error .keyError

end Dict

/-- A header value: a plain value, a 2-tuple of a name and a value (Delivery-Time, Pragma), or a content type
with its parameter dict. -/
inductive HVal
  | v (x : Val)
  | tup (name : Str) (x : Val)
  | ct (media : Str) (params : Dict Val)
  deriving DecidableEq, Repr

/-- `str(x)` of a float, a `datetime` or a tuple (wsp_pdu.py:1925).  Which text it is is not modelled (shortest decimal
form of a float, microseconds of a `datetime`, `repr` of the items of a tuple, order of a dict): this is an arbitrary
function of which only is known that the text is not empty and made of printable ASCII characters.  `opaque`: no theorem
can use its value. -/
opaque strOther (x : HVal) : { s : Str // s ≠ [] ∧ ∀ c ∈ s, 32 ≤ c ∧ c < 127 } := ⟨[48], by simp⟩

/-- `v[0]` of a header value (message.py:57, 470) -/
def HVal.first : HVal → Py Str
  | .ct media _ => .ok media
  | .tup name _ => .ok name
  | .v (.str s) | .v (.uni s) =>
    match s with
    | [] => .error .indexError
    | c :: _ => .ok [c]
  | .v _ => .error .typeError

/-- look up an assigned number -/
def lookupNum {α : Type} (t : List (Nat × α)) (n : Nat) : Option α :=
  match t with
  | [] => none
  | (k, x) :: r => if k = n then some x else lookupNum r n

/-- wsp_pdu.py:240-244 and 278-282: the minor number of a supported version -/
def versionMinor (version : Str) : Py Nat :=
  if version = py! "1.1" then .ok 1
  else if version = py! "1.2" then .ok 2
  else if version = py! "1.3" then .ok 3
  else if version = py! "1.4" then .ok 4
  else .error .valueError

/-- wsp_pdu.py:224-254 `get_header_field_names` -/
def getHeaderFieldNames (version : Str) : Py (List Str) := do
  let v ← versionMinor version
  if v = 3 then .ok (headerFieldNames.take 0x44)
  else if v = 2 then .ok (headerFieldNames.take 0x38)
  else if v = 1 then .ok (headerFieldNames.take 0x2f)
  else .ok headerFieldNames

/-- the loops `for assigned_number in range(lo, hi): del versioned_params[assigned_number]` of wsp_pdu.py:285-295
(every number in these ranges is assigned, so `del` does not fail) -/
def delRange (t : List (Nat × Str × PType)) (lo hi : Nat) : List (Nat × Str × PType) :=
  t.filter (fun e => !(lo ≤ e.1 && e.1 < hi))

/-- wsp_pdu.py:257-297 `get_well_known_parameters` -/
def getWellKnownParameters (version : Str) : Py (List (Nat × Str × PType)) := do
  let v ← versionMinor version
  let t := wellKnownParameters
  let t := if v ≤ 3 then delRange t 0x11 0x1e else t
  let t := if v ≤ 2 then delRange t 0x0c 0x11 else t
  let t := if v = 1 then delRange t 0x09 0x0c else t
  .ok t

/-- `str(n)` of a natural number -/
def natStr (n : Nat) : Str := if n < 10 then [48 + n] else natStr (n / 10) ++ [48 + n % 10]
termination_by n

/-- `str(n)` -/
def intStr (n : Int) : Str := if n < 0 then 45 :: natStr n.natAbs else natStr n.toNat

/-- wsp_pdu.py:523 and 1702: the separators of Token-text -/
def separators : List Nat := [11, 32, 40, 41, 44, 47, 58, 59, 60, 61, 62, 63, 64, 91, 92, 93, 123, 125]

end Verif.Mms

import Verif.Model.WspTables
import Verif.Spec.Wsp
import Verif.Spec.Time
/-!
# Specification: MMS headers (WAP-209) and multipart bodies (WAP-230 8.5) as a conformant sender encodes them

Each type below is a value together with the choice of encoding the grammar leaves open; `enc` gives the octets,
`name`/`value` what they mean.  Only the Python value types (`Val`, `HVal`, `Dict`) are taken from the model.
-/
set_option autoImplicit false

namespace Verif.Spec.Mms
open Verif.Mms (Val HVal Dict)
open Verif.Spec.Wsp

/-- octets of a value with at most 30 octets -/
def IsOctets (l : List Nat) : Prop := l.length ≤ 30 ∧ ∀ x ∈ l, x < 256

/-- text without NUL -/
def IsText (s : List Nat) : Prop := 0 ∉ s

/-- text without NUL that starts with a character from 32 on -/
def IsPrintText (s : List Nat) : Prop := 0 ∉ s ∧ ∃ c, s.head? = some c ∧ 32 ≤ c

/-- text without NUL that starts with a printable 7-bit character -/
def IsAsciiText (s : List Nat) : Prop := 0 ∉ s ∧ ∃ c, s.head? = some c ∧ 32 ≤ c ∧ c < 127

/-- WAP-230 8.4.2.3 Integer-value = Short-integer | Long-integer -/
inductive IntEnc
  | short (n : Nat) | long (octets : List Nat)
  deriving DecidableEq, Repr

namespace IntEnc
def enc : IntEnc → List Nat
  | short n => shortInt n
  | long o => longInt o
def val : IntEnc → Nat
  | short n => n
  | long o => beVal o
def WF : IntEnc → Prop
  | short n => n < 128
  | long o => IsOctets o
end IntEnc

/-- IANA MIBenum numbers of character sets -/
def charsets : List (Nat × List Nat) := [
  (3, py! "us-ascii"), (4, py! "iso-8859-1"), (5, py! "iso-8859-2"), (6, py! "iso-8859-3"), (7, py! "iso-8859-4"),
  (8, py! "iso-8859-5"), (9, py! "iso-8859-6"), (10, py! "iso-8859-7"), (11, py! "iso-8859-8"),
  (12, py! "iso-8859-9"), (17, py! "shift_JIS"), (106, py! "utf-8"), (1000, py! "iso-10646-ucs-2"),
  (2026, py! "big5")]

/-- WAP-230 table 40 / OMNA: registered content type numbers -/
def mediaTypes : List (List Nat) := [
  py! "*/*",
  py! "text/*",
  py! "text/html",
  py! "text/plain",
  py! "text/x-hdml",
  py! "text/x-ttml",
  py! "text/x-vCalendar",
  py! "text/x-vCard",
  py! "text/vnd.wap.wml",
  py! "text/vnd.wap.wmlscript",
  py! "text/vnd.wap.wta-event",
  py! "multipart/*",
  py! "multipart/mixed",
  py! "multipart/form-data",
  py! "multipart/byteranges",
  py! "multipart/alternative",
  py! "application/*",
  py! "application/java-vm",
  py! "application/x-www-form-urlencoded",
  py! "application/x-hdmlc",
  py! "application/vnd.wap.wmlc",
  py! "application/vnd.wap.wmlscriptc",
  py! "application/vnd.wap.wta-eventc",
  py! "application/vnd.wap.uaprof",
  py! "application/vnd.wap.wtls-ca-certificate",
  py! "application/vnd.wap.wtls-user-certificate",
  py! "application/x-x509-ca-cert",
  py! "application/x-x509-user-cert",
  py! "image/*",
  py! "image/gif",
  py! "image/jpeg",
  py! "image/tiff",
  py! "image/png",
  py! "image/vnd.wap.wbmp",
  py! "application/vnd.wap.multipart.*",
  py! "application/vnd.wap.multipart.mixed",
  py! "application/vnd.wap.multipart.form-data",
  py! "application/vnd.wap.multipart.byteranges",
  py! "application/vnd.wap.multipart.alternative",
  py! "application/xml",
  py! "text/xml",
  py! "application/vnd.wap.wbxml",
  py! "application/x-x968-cross-cert",
  py! "application/x-x968-ca-cert",
  py! "application/x-x968-user-cert",
  py! "text/vnd.wap.si",
  py! "application/vnd.wap.sic",
  py! "text/vnd.wap.sl",
  py! "application/vnd.wap.slc",
  py! "text/vnd.wap.co",
  py! "application/vnd.wap.coc",
  py! "application/vnd.wap.multipart.related",
  py! "application/vnd.wap.sia",
  py! "text/vnd.wap.connectivity-xml",
  py! "application/vnd.wap.connectivity-wbxml",
  py! "application/pkcs7-mime",
  py! "application/vnd.wap.hashed-certificate",
  py! "application/vnd.wap.signed-certificate",
  py! "application/vnd.wap.cert-response",
  py! "application/xhtml+xml",
  py! "application/wml+xml",
  py! "text/css",
  py! "application/vnd.wap.mms-message",
  py! "application/vnd.wap.rollover-certificate",
  py! "application/vnd.wap.locc+wbxml",
  py! "application/vnd.wap.loc+xml",
  py! "application/vnd.syncml.dm+wbxml",
  py! "application/vnd.syncml.dm+xml",
  py! "application/vnd.syncml.notification",
  py! "application/vnd.wap.xhtml+xml",
  py! "application/vnd.wv.csp.cir",
  py! "application/vnd.oma.dd+xml",
  py! "application/vnd.oma.drm.message",
  py! "application/vnd.oma.drm.content",
  py! "application/vnd.oma.drm.rights+xml",
  py! "application/vnd.oma.drm.rights+wbxml"]

/-- decimal digits -/
def dec (n : Nat) : List Nat := if n < 10 then [48 + n] else dec (n / 10) ++ [48 + n % 10]
termination_by n

/-- "major.minor" -/
def dotted (major minor : Nat) : List Nat := dec major ++ [46] ++ dec minor

/-- parameters of a content type in encoding version 1.2 (WAP-230 table 38) and untyped ones -/
inductive Param
  | q (n : Nat) | charset (number : IntEnc) (name : List Nat) | level (major minor : Nat) | type (i : IntEnc)
  | name (s : List Nat) | filename (s : List Nat) | padding (n : Nat)
  | relatedTypeNum (n : Nat) | relatedType (s : List Nat) | start (s : List Nat) | startInfo (s : List Nat)
  | otherInt (token : List Nat) (i : IntEnc) | otherToken (token s : List Nat)
  | charsetAny | differences (token : List Nat) | otherNone (token : List Nat) | otherQuoted (token s : List Nat)
  deriving DecidableEq, Repr

namespace Param
def enc : Param → List Nat
  | q n => 0x80 :: uintvar n
  | charset i _ => 0x81 :: i.enc
  | level a b => 0x82 :: shortInt (16 * a + b)
  | type i => 0x83 :: i.enc
  | name s => 0x85 :: text s
  | filename s => 0x86 :: text s
  | padding n => 0x88 :: shortInt n
  | relatedTypeNum n => 0x89 :: shortInt n
  | relatedType s => 0x89 :: (s ++ [0])
  | start s => 0x8a :: text s
  | startInfo s => 0x8b :: text s
  | otherInt t i => t ++ 0 :: i.enc
  | otherToken t s => t ++ 0 :: (s ++ [0])
  | charsetAny => [0x81, 128]
  | differences t => 0x87 :: (t ++ [0])
  | otherNone t => t ++ [0, 0]
  | otherQuoted t s => t ++ 0 :: 34 :: (s ++ [0])

def key : Param → List Nat
  | q _ => py! "Q"
  | charset _ _ => py! "Charset"
  | level _ _ => py! "Level"
  | type _ => py! "Type"
  | name _ => py! "Name"
  | filename _ => py! "Filename"
  | padding _ => py! "Padding"
  | relatedTypeNum _ => py! "Type"
  | relatedType _ => py! "Type"
  | start _ => py! "Start"
  | startInfo _ => py! "Start-info"
  | otherInt t _ => t
  | otherToken t _ => t
  | charsetAny => py! "Charset"
  | differences _ => py! "Differences"
  | otherNone t => t
  | otherQuoted t _ => t

/-- quality factors are `n - 1` hundredths up to 100, and `n - 100` thousandths above (WAP-230 8.4.2.3) -/
def value : Param → Val
  | q n => if n ≤ 100 then .flt ((n : Int) - 1) 100 else .flt ((n : Int) - 100) 1000
  | charset _ s => .str s
  | level a b => .str (dotted a b)
  | type i => .int i.val
  | name s => .str s
  | filename s => .str s
  | padding n => .int n
  | relatedTypeNum n => .int n
  | relatedType s => .str s
  | start s => .str s
  | startInfo s => .str s
  | otherInt _ i => .int i.val
  | otherToken _ s => .str s
  | charsetAny => .str (py! "*")
  | differences t => .str t
  | otherNone _ => .str []
  | otherQuoted _ s => .str s

/-- conformant to the grammar -/
def Conf : Param → Prop
  | q n => n ≤ 1099
  | charset i s => i.WF ∧ (i.val, s) ∈ charsets
  | level a b => 1 ≤ a ∧ a ≤ 7 ∧ b ≤ 14
  | type i => i.WF
  | name s => IsText s
  | filename s => IsText s
  | padding n => n < 128
  | relatedTypeNum n => n < 128
  | relatedType s => IsAsciiText s
  | start s => IsText s
  | startInfo s => IsText s
  | otherInt t i => IsToken t ∧ i.WF
  | otherToken t s => IsToken t ∧ IsToken s
  | charsetAny => True
  | differences t => IsToken t
  | otherNone t => IsToken t
  | otherQuoted t s => IsToken t ∧ IsText s

/-- conformant and among those the library reads: the last four forms are not (`Verif.Props.C46_refuted` and the
theorems following it) -/
def WF : Param → Prop
  | q n => n ≤ 1099
  | charset i s => i.WF ∧ (i.val, s) ∈ charsets
  | level a b => 1 ≤ a ∧ a ≤ 7 ∧ b ≤ 14
  | type i => i.WF
  | name s => IsText s
  | filename s => IsText s
  | padding n => n < 128
  | relatedTypeNum n => n < 128
  | relatedType s => IsAsciiText s
  | start s => IsText s
  | startInfo s => IsText s
  | otherInt t i => IsToken t ∧ i.WF
  | otherToken t s => IsToken t ∧ IsToken s
  | charsetAny => False
  | differences _ => False
  | otherNone _ => False
  | otherQuoted _ _ => False
end Param

/-- WAP-230 8.4.2.24 a media type: registered number or text -/
inductive Media
  | known (i : Nat) (name : List Nat) | text (s : List Nat)
  deriving DecidableEq, Repr

namespace Media
def enc : Media → List Nat
  | known i _ => shortInt i
  | text s => s ++ [0]
def value : Media → List Nat
  | known _ s => s
  | text s => s
/-- conformant: any registered number, or text -/
def Conf : Media → Prop
  | known i s => mediaTypes[i]? = some s
  | text s => IsAsciiText s
/-- number 14 (multipart/byteranges) is left out: see `Verif.Props.C63_refuted` -/
def WF : Media → Prop
  | known i s => i ≠ 14 ∧ mediaTypes[i]? = some s
  | text s => IsAsciiText s
end Media

/-- WAP-230 8.4.2.24 Content-type-value -/
inductive CType
  | constrained (m : Media) | general (m : Media) (params : List Param)
  deriving DecidableEq, Repr

namespace CType
def body : CType → List Nat
  | constrained m => m.enc
  | general m ps => m.enc ++ ps.flatMap Param.enc
def enc : CType → List Nat
  | constrained m => m.enc
  | general m ps => valueLength (m.enc ++ ps.flatMap Param.enc).length ++ (m.enc ++ ps.flatMap Param.enc)
def media : CType → List Nat
  | constrained m => m.value
  | general m _ => m.value
/-- the parameters; of two with the same name the later one counts -/
def params : CType → Dict Val
  | constrained _ => []
  | general _ ps => ps.foldl (fun d p => d.set p.key p.value) []
def Conf : CType → Prop
  | constrained m => m.Conf
  | general m ps => m.Conf ∧ (∀ p ∈ ps, p.Conf) ∧ (m.enc ++ ps.flatMap Param.enc).length < 2 ^ 63
def WF : CType → Prop
  | constrained m => m.WF
  | general m ps => m.WF ∧ (∀ p ∈ ps, p.WF) ∧ (m.enc ++ ps.flatMap Param.enc).length < 2 ^ 63
end CType

/-- the headers with an Encoded-string-value -/
inductive StrField
  | bcc | cc | responseText | subject | to
  deriving DecidableEq, Repr

def StrField.num : StrField → Nat
  | bcc => 0x01 | cc => 0x02 | responseText => 0x13 | subject => 0x16 | to => 0x17

def StrField.name : StrField → List Nat
  | bcc => py! "Bcc" | cc => py! "Cc" | responseText => py! "Response-Text" | subject => py! "Subject"
  | to => py! "To"

/-- the headers that are Yes (128) or No (129) -/
inductive BoolField
  | deliveryReport | readReply | reportAllowed
  deriving DecidableEq, Repr

def BoolField.num : BoolField → Nat
  | deliveryReport => 0x06 | readReply => 0x10 | reportAllowed => 0x11

def BoolField.name : BoolField → List Nat
  | deliveryReport => py! "Delivery-Report" | readReply => py! "Read-Reply" | reportAllowed => py! "Report-Allowed"

/-- seconds since 1970-01-01 00:00 UTC of a civil time -/
def unixTime (d : DateTime) : Int :=
  (Time.Civil.mk d.year d.month d.day d.hour d.minute d.second).seconds - 719162 * 86400

/-- `octets` are the seconds since 1970 of the valid UTC time `d`, up to year 9999 -/
def IsDate (d : DateTime) (octets : List Nat) : Prop :=
  IsOctets octets ∧ (Time.Civil.mk d.year d.month d.day d.hour d.minute d.second).Valid ∧ d.off = none ∧
    d.year ≤ 9999 ∧ unixTime d = beVal octets

/-- WAP-209 section 7: header fields except Content-Type -/
inductive Hdr
  | str (f : StrField) (s : List Nat) | strCs (f : StrField) (cs : IntEnc) (s : List Nat)
  | contentLocation (s : List Nat) | date (d : DateTime) (octets : List Nat) | bool (f : BoolField) (b : Bool)
  | deliveryAbs (octets : List Nat) | deliveryRel (octets : List Nat)
  | expiryAbs (d : DateTime) (octets : List Nat) | expiryRel (i : IntEnc)
  | fromInsert | fromAddr (s : List Nat) | fromCs (cs : IntEnc) (s : List Nat)
  | classId (i : Nat) | classToken (s : List Nat) | messageId (s : List Nat) | transactionId (s : List Nat)
  | messageType (i : Nat) | version (major minor : Nat) | size (octets : List Nat) | priority (i : Nat)
  | responseStatus (i : Nat) | visibility (show_ : Bool) | status (i : Nat)
  | app (name value : List Nat)
  | deliveryRelShort (n : Nat) | versionMajor (major : Nat)
  deriving DecidableEq, Repr

def classNames : List (List Nat) := [py! "Personal", py! "Advertisement", py! "Informational", py! "Auto"]
def typeNames : List (List Nat) := [py! "m-send-req", py! "m-send-conf", py! "m-notification-ind",
  py! "m-notifyresp-ind", py! "m-retrieve-conf", py! "m-acknowledge-ind", py! "m-delivery-ind"]
def priorityNames : List (List Nat) := [py! "Low", py! "Normal", py! "High"]
def responseNames : List (List Nat) := [py! "Ok", py! "Error-unspecified", py! "Error-service-denied",
  py! "Error-message-format-corrupt", py! "Error-sending-address-unresolved", py! "Error-message-not-found",
  py! "Error-network-problem", py! "Error-content-not-accepted", py! "Error-unsupported-message"]
def statusNames : List (List Nat) := [py! "Expired", py! "Retrieved", py! "Rejected", py! "Deferred",
  py! "Unrecognised"]

/-- a value preceded by its length -/
def sized (l : List Nat) : List Nat := valueLength l.length ++ l

namespace Hdr
def enc : Hdr → List Nat
  | str f s => (0x80 + f.num) :: text s
  | strCs f c s => (0x80 + f.num) :: sized (c.enc ++ text s)
  | contentLocation s => 0x83 :: text s
  | date _ o => 0x85 :: longInt o
  | bool f b => [0x80 + f.num, if b then 128 else 129]
  | deliveryAbs o => 0x87 :: sized (128 :: longInt o)
  | deliveryRel o => 0x87 :: sized (129 :: longInt o)
  | expiryAbs _ o => 0x88 :: sized (128 :: longInt o)
  | expiryRel i => 0x88 :: sized (129 :: i.enc)
  | fromInsert => 0x89 :: sized [129]
  | fromAddr s => 0x89 :: sized (128 :: text s)
  | fromCs c s => 0x89 :: sized (128 :: sized (c.enc ++ text s))
  | classId i => [0x8a, 128 + i]
  | classToken s => 0x8a :: (s ++ [0])
  | messageId s => 0x8b :: text s
  | transactionId s => 0x98 :: text s
  | messageType i => [0x8c, 128 + i]
  | version a b => 0x8d :: shortInt (16 * a + b)
  | size o => 0x8e :: longInt o
  | priority i => [0x8f, 128 + i]
  | responseStatus i => [0x92, 128 + i]
  | visibility s => [0x94, if s then 129 else 128]
  | status i => [0x95, 128 + i]
  | app n v => n ++ 0 :: text v
  | deliveryRelShort n => 0x87 :: sized (129 :: shortInt n)
  | versionMajor a => 0x8d :: shortInt (16 * a + 15)

def name : Hdr → List Nat
  | str f _ => f.name
  | strCs f _ _ => f.name
  | contentLocation _ => py! "Content-Location"
  | date _ _ => py! "Date"
  | bool f _ => f.name
  | deliveryAbs _ => py! "Delivery-Time"
  | deliveryRel _ => py! "Delivery-Time"
  | expiryAbs _ _ => py! "Expiry"
  | expiryRel _ => py! "Expiry"
  | fromInsert => py! "From"
  | fromAddr _ => py! "From"
  | fromCs _ _ => py! "From"
  | classId _ => py! "Message-Class"
  | classToken _ => py! "Message-Class"
  | messageId _ => py! "Message-ID"
  | transactionId _ => py! "Transaction-Id"
  | messageType _ => py! "Message-Type"
  | version _ _ => py! "MMS-Version"
  | size _ => py! "Message-Size"
  | priority _ => py! "Priority"
  | responseStatus _ => py! "Response-Status"
  | visibility _ => py! "Sender-Visibility"
  | status _ => py! "Status"
  | app n _ => n
  | deliveryRelShort _ => py! "Delivery-Time"
  | versionMajor _ => py! "MMS-Version"

/-- the value; an absolute Delivery-Time is given as seconds since 1970 -/
def value : Hdr → HVal
  | str _ s => .v (.str s)
  | strCs _ _ s => .v (.str s)
  | contentLocation s => .v (.str s)
  | date d _ => .v (.dt d)
  | bool _ b => .v (.bool b)
  | deliveryAbs o => .tup (py! "absolute") (.int (beVal o))
  | deliveryRel o => .tup (py! "relative") (.int (beVal o))
  | expiryAbs d _ => .v (.dt d)
  | expiryRel i => .v (.int i.val)
  | fromInsert => .v (.str (py! "<not inserted>"))
  | fromAddr s => .v (.str s)
  | fromCs _ s => .v (.str s)
  | classId i => .v (.str (classNames.getD i []))
  | classToken s => .v (.str s)
  | messageId s => .v (.str s)
  | transactionId s => .v (.str s)
  | messageType i => .v (.str (typeNames.getD i []))
  | version a b => .v (.str (dotted a b))
  | size o => .v (.int (beVal o))
  | priority i => .v (.str (priorityNames.getD i []))
  | responseStatus i => .v (.str (responseNames.getD i []))
  | visibility s => .v (.str (if s then py! "Show" else py! "Hide"))
  | status i => .v (.str (statusNames.getD i []))
  | app _ v => .v (.str v)
  | deliveryRelShort n => .tup (py! "relative") (.int n)
  | versionMajor a => .v (.str (dec a))

/-- conformant to the grammar -/
def Conf : Hdr → Prop
  | str _ s => IsText s
  | fromAddr s => IsText s
  | strCs _ c s => c.WF ∧ IsText s
  | contentLocation s => IsText s
  | date d o => IsDate d o
  | bool _ _ => True
  | deliveryAbs o => IsOctets o
  | deliveryRel o => IsOctets o
  | expiryAbs d o => IsDate d o
  | expiryRel i => i.WF
  | fromInsert => True
  | fromCs c s => c.WF ∧ IsText s
  | classId i => i < 4
  | classToken s => IsToken s
  | messageId s => IsText s
  | transactionId s => IsText s
  | messageType i => i < 7
  | version a b => 1 ≤ a ∧ a ≤ 7 ∧ b ≤ 14
  | size o => IsOctets o
  | priority i => i < 3
  | responseStatus i => i < 9
  | visibility _ => True
  | status i => i < 5
  | app n v => IsToken n ∧ IsText v ∧ n ≠ py! "Content-Type"
  | deliveryRelShort n => n < 128
  | versionMajor a => 1 ≤ a ∧ a ≤ 7

/-- conformant and among those the library reads: the texts of Encoded-string-values start with a character from 32
on, and the last two forms are left out (`Verif.Props.C45_refuted` and the theorems following it) -/
def WF : Hdr → Prop
  | str _ s => IsPrintText s
  | strCs _ c s => c.WF ∧ IsText s
  | contentLocation s => IsText s
  | date d o => IsDate d o
  | bool _ _ => True
  | deliveryAbs o => IsOctets o
  | deliveryRel o => IsOctets o
  | expiryAbs d o => IsDate d o
  | expiryRel i => i.WF
  | fromInsert => True
  | fromAddr s => IsPrintText s
  | fromCs c s => c.WF ∧ IsText s
  | classId i => i < 4
  | classToken s => IsToken s
  | messageId s => IsText s
  | transactionId s => IsText s
  | messageType i => i < 7
  | version a b => 1 ≤ a ∧ a ≤ 7 ∧ b ≤ 14
  | size o => IsOctets o
  | priority i => i < 3
  | responseStatus i => i < 9
  | visibility _ => True
  | status i => i < 5
  | app n v => IsToken n ∧ IsText v ∧ n ≠ py! "Content-Type"
  | deliveryRelShort _ => False
  | versionMajor _ => False
end Hdr

/-- the last value given to a name, if any -/
def lastValue (hs : List Hdr) (n : List Nat) : Option HVal :=
  hs.foldl (fun o h => if h.name = n then some h.value else o) none

/-- headers of a part: the well-known Content-Location and Content-ID, and application headers -/
inductive PHdr
  | location (s : List Nat) | contentId (s : List Nat) | app (name value : List Nat)
  deriving DecidableEq, Repr

namespace PHdr
def enc : PHdr → List Nat
  | location s => 0x8e :: text s
  | contentId s => 0xc0 :: 34 :: (s ++ [0])
  | app n v => n ++ 0 :: text v
def name : PHdr → List Nat
  | location _ => py! "Content-Location"
  | contentId _ => py! "Content-ID"
  | app n _ => n
def value : PHdr → List Nat
  | location s => s
  | contentId s => s
  | app _ v => v
def Conf : PHdr → Prop
  | location s => IsText s
  | contentId s => IsText s
  | app n v => IsToken n ∧ IsText v
/-- the forms the library reads -/
def WF : PHdr → Prop
  | location _ => False
  | contentId _ => False
  | app n v => IsToken n ∧ IsText v
end PHdr

/-- a part of a multipart body: content type, further headers, data -/
structure Part where
  ctype : CType
  headers : List PHdr
  data : List Nat
  deriving DecidableEq, Repr

namespace Part
/-- the header block: the content type, then the other headers -/
def head (p : Part) : List Nat := p.ctype.enc ++ p.headers.flatMap PHdr.enc
/-- WAP-230 8.5.2: HeadersLen, DataLen, content type and headers, data -/
def enc (p : Part) : List Nat := uintvar p.head.length ++ uintvar p.data.length ++ p.head ++ p.data
def Conf (p : Part) : Prop :=
  p.ctype.Conf ∧ (∀ h ∈ p.headers, h.Conf) ∧ p.head.length < 2 ^ 63 ∧ p.data.length < 2 ^ 63
def WF (p : Part) : Prop :=
  p.ctype.WF ∧ (∀ h ∈ p.headers, h.WF) ∧ p.head.length < 2 ^ 63 ∧ p.data.length < 2 ^ 63
end Part

/-- the last value a part gives to a name, if any -/
def lastPartValue (hs : List PHdr) (n : List Nat) : Option (List Nat) :=
  hs.foldl (fun o h => if h.name = n then some h.value else o) none

/-- WAP-230 8.5.1: nEntries, then the parts -/
def multipart (ps : List Part) : List Nat := uintvar ps.length ++ ps.flatMap Part.enc

end Verif.Spec.Mms

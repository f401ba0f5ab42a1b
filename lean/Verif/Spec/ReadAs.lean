import Verif.Spec.Mms
/-!
# Specification: what is read of conformant content types, including the forms the library misreads
-/
set_option autoImplicit false

namespace Verif.Spec.Mms
open Verif.Mms (Val HVal Dict)
open Verif.Spec.Wsp

/-- control characters, the space and the separators of a token, but not the double quote -/
def breaks (c : Nat) : Bool :=
  c < 32 || ([32, 40, 41, 44, 47, 58, 59, 60, 61, 62, 63, 64, 91, 92, 93, 123, 125] : List Nat).contains c

namespace Param
/-- the conformant parameters after which reading goes on with the next one: all but Differences, and quoted strings that
have a character in them at which reading breaks off -/
def InStep : Param → Prop
  | differences _ => False
  | otherQuoted t s => IsToken t ∧ IsText s ∧ ∀ c ∈ s, breaks c = false
  | p => p.Conf

/-- what is read: "any charset" as charset "0", no value as the number 0, quoted strings with their quote -/
def asRead : Param → Val
  | charsetAny => .str (py! "0")
  | otherNone _ => .int 0
  | otherQuoted _ s => .str (34 :: s)
  | p => p.value
end Param

namespace Media
/-- what is read: number 14 is misspelt -/
def asRead : Media → List Nat
  | known i s => if i = 14 then py! "multipart/byterantes" else s
  | text s => s
end Media

namespace CType
def InStep : CType → Prop
  | constrained m => m.Conf
  | general m ps => m.Conf ∧ (∀ p ∈ ps, p.InStep) ∧ (m.enc ++ ps.flatMap Param.enc).length < 2 ^ 63
def mediaRead : CType → List Nat
  | constrained m => m.asRead
  | general m _ => m.asRead
def paramsRead : CType → Dict Val
  | constrained _ => []
  | general _ ps => ps.foldl (fun d p => d.set p.key p.asRead) []
end CType

namespace PHdr
/-- the headers of a part after which reading goes on with the next one: application headers, and a Content-ID with a
character in it at which reading breaks off (as in "<id>") -/
def InStep : PHdr → Prop
  | location _ => False
  | contentId s => IsText s ∧ (∃ c ∈ s, breaks c = true) ∧ (s.dropWhile fun c => !breaks c).tail.head? ≠ some 127
  | app n v => IsToken n ∧ IsText v

/-- what is read: a Content-ID as a header whose name is the quote with the characters up to the one that breaks, and whose
value is what follows that; a Content-Location at the end not at all -/
def asApp : PHdr → Option PHdr
  | location _ => none
  | contentId s => some (.app (34 :: s.takeWhile fun c => !breaks c) (s.dropWhile fun c => !breaks c).tail)
  | app n v => some (.app n v)
end PHdr

/-- a part of which everything is read in step; a Content-Location that is a token may come last -/
def Part.InStep (p : Part) : Prop :=
  p.ctype.InStep ∧
    (∃ hs, (∀ h ∈ hs, PHdr.InStep h) ∧ (p.headers = hs ∨ ∃ t, IsToken t ∧ p.headers = hs ++ [.location t])) ∧
    p.head.length < 2 ^ 63 ∧ p.data.length < 2 ^ 63

/-- the headers of the part as they are read -/
def Part.appsRead (p : Part) : List PHdr := p.headers.filterMap PHdr.asApp

end Verif.Spec.Mms

import Verif.Spec.MmsEnc
import Verif.Spec.Numeral
import Verif.Spec.Refusal
/-!
# Specification: exactly which headers of a message come back

Only the Python value types are taken from the model.
-/
set_option autoImplicit false

namespace Verif.Spec.Survive
open Verif.Mms (Val HVal)
open Verif.Spec.Wsp Verif.Spec.Mms Verif.Spec.MmsEnc Verif.Spec.Numeral Verif.Spec.Refusal

/-- a header of the application's own whose name is read back: no separators, no NUL, nothing that looks like an assigned
number in the first two octets sent, and control characters only after a control character in front -/
structure AppName (n s : List Nat) : Prop where
  octets : ∀ c ∈ n, c < 256
  separators : ∀ c ∈ n, isSeparator c = false
  nul : 0 ∉ n
  first : ∀ c ∈ (n ++ 0 :: (s ++ [0])).take 2, c < 128
  control : (∃ c, n.head? = some c ∧ 32 ≤ c) → ∀ c ∈ n, 32 ≤ c

/-- a version text that is read back -/
def VersionText (s : List Nat) : Prop :=
  Plain s ∨ (s.count 46 ≤ 1 ∧ (∀ a b, ¬ Short s a b) ∧ 0 ∉ s ∧ ∀ c, s.head? = some c → c < 127)

/-- the header names and values that survive encoding and decoding: these and no others -/
inductive Survives : List Nat → HVal → Prop
  | text (f : StrField) (s : List Nat) (h : Sendable s) : Survives f.name (.v (.str s))
  | sender (s : List Nat) (h : Sendable s) : Survives (py! "From") (.v (.str s))
  | messageId (s : List Nat) (h : Unquoted s) : Survives (py! "Message-ID") (.v (.str s))
  | transactionId (s : List Nat) (h : Unquoted s) : Survives (py! "Transaction-Id") (.v (.str s))
  | type (s : List Nat) (h : s ∈ typeNames) : Survives (py! "Message-Type") (.v (.str s))
  | version (s : List Nat) (h : VersionText s) : Survives (py! "MMS-Version") (.v (.str s))
  | status (s : List Nat) (h : s ∈ statusNames) : Survives (py! "Status") (.v (.str s))
  | size (o : List Nat) (h : Palindrome o) : Survives (py! "Message-Size") (.v (.int (beVal o)))
  | app (n s : List Nat) (hf : n ∉ fieldNames) (hn : AppName n s) (h : Unquoted s) : Survives n (.v (.str s))

end Verif.Spec.Survive

import Verif.Spec.Submit
/-!
# Specification: ways to send a text

What any sender could do under TS 23.040: the text in one message, or cut between characters in the parts of a
concatenated message, all in one alphabet.  Says nothing about how the library cuts.
-/
set_option autoImplicit false

namespace Verif.Spec.Submit
open Verif.Spec Verif.Spec.Sms

/-- the text `u` takes at most `n` symbols of the alphabet -/
def Fits (al : Alphabet) (n : Nat) (u : List Nat) : Prop := ∃ us, Units al u us ∧ us.length ≤ n

/-- the texts `ts` are a way to send the text `t`: one message, or at least two parts that leave room for the
concatenation header -/
def Sending (al : Alphabet) (t : List Nat) (ts : List (List Nat)) : Prop :=
  ts.flatten = t ∧ ((∃ u, ts = [u] ∧ Fits al (single al) u) ∨ (2 ≤ ts.length ∧ ∀ u ∈ ts, Fits al (partSize al) u))

/-- of several parts, no full one (67 UCS2 characters) ends with the character ESC, U+001B -/
def NoFullEsc (ts : List (List Nat)) : Prop := 2 ≤ ts.length → ∀ u ∈ ts, u.length = 67 → u.getLast? ≠ some 27

end Verif.Spec.Submit

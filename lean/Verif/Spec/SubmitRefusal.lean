import Verif.Spec.Submit
/-!
# Specification: which short messages cannot be sent, and with which exception
-/
set_option autoImplicit false

namespace Verif.Spec.SubmitRefusal
open Verif (PyErr PyStr DateTime)
open Verif.Spec Verif.Spec.Sms Verif.Spec.Time Verif.Spec.Submit
open Verif.Submit (State Validity)

/-- a `datetime` object: an existing date, less than 24 hours from UTC -/
def IsDatetime (d : DateTime) : Prop :=
  (⟨d.year, d.month, d.day, d.hour, d.minute, d.second⟩ : Civil).Valid ∧ ∀ o, d.off = some o → o.natAbs < 1440

/-- what an `SmsSubmit` can hold: numbers that are unset, empty or accepted, a class from 0 to 3 (the checks of the
attributes), real dates, and bytes in byte strings -/
structure Object (s : State) : Prop where
  number : CscaOk s.number
  csca : CscaOk s.csca
  klass : ∀ k, s.klass = some k → k ≤ 3
  validity : ∀ d, s.validity = .absolute d → IsDatetime d
  text : s.text.uni = false → ∀ c ∈ s.text.s, c < 256

/-- a validity that cannot be sent: less than 5 minutes, more than 63 weeks, dates before 1900 -/
def ValidityRefused : Validity → Prop
  | .none => False
  | .relative t => t.us < 5 * 60000000 ∨ 63 * 7 * 86400000000 < t.us
  | .absolute d => d.year < 1900

/-- no number (None or empty); otherwise a protocol identifier that is no octet, a validity that cannot be sent or an
unknown coding -/
inductive SettingsRefused (s : State) : PyErr → Prop
  | noNumber (h : s.number = none) : SettingsRefused s .attributeError
  | emptyNumber (h : s.number = some []) : SettingsRefused s .indexError
  | value (x : List Nat) (hn : s.number = some x) (hx : x ≠ [])
      (h : ¬ (0 ≤ s.pid ∧ s.pid < 256) ∨ ValidityRefused s.validity ∨ ∃ f, s.fmt = some f ∧ f ≠ 0 ∧ f ≠ 4 ∧ f ≠ 8) :
      SettingsRefused s .valueError

/-- the symbols `u` can be cut in at most `n` pieces of at most `size`, none of which is full and ends with ESC -/
def Splits (size n : Nat) (u : List Nat) : Prop :=
  ∃ ps : List (List Nat), ps.flatten = u ∧ ps.length ≤ n ∧
    ∀ p ∈ ps, p.length ≤ size ∧ (p.length = size → p.getLast? ≠ some 27)

/-- texts that the coding 0 (GSM), 4 (8-bit) or 8 (UCS2) cannot carry: characters it does not have, byte strings that are
not ASCII where they are put behind unicode headers, unicode behind length octets, and texts that take more than 255 parts
(8-bit: 4351, where the number of parts is beyond unicode) -/
inductive TextRefused : Nat → PyStr → PyErr → Prop
  | gsm (t : PyStr) (h : ¬ GsmText t) : TextRefused 0 t .unicodeError
  | gsmLong (t : PyStr) (g : List Nat) (h : GsmText t) (hg : Gsm.Spells t.s g) (hl : ¬ Splits 153 255 g) :
      TextRefused 0 t .valueError
  | ucs2Char (t : PyStr) (hu : t.uni = true) (h : ∃ c ∈ t.s, 65536 ≤ c) : TextRefused 8 t .valueError
  | ucs2Long (t : PyStr) (hu : t.uni = true) (hl : ¬ Splits 67 255 t.s) : TextRefused 8 t .valueError
  | ucs2Bytes (t : PyStr) (hu : t.uni = false) (hl : 70 < t.s.length) (hs : Splits 67 255 t.s) (h : ∃ c ∈ t.s, 128 ≤ c) :
      TextRefused 8 t .unicodeError
  | ucs2BytesLong (t : PyStr) (hu : t.uni = false) (hl : ¬ Splits 67 255 t.s) (hs : Splits 67 4351 t.s)
      (h : ∃ c ∈ t.s.take 67, 128 ≤ c) : TextRefused 8 t .unicodeError
  | ucs2BytesTooLong (t : PyStr) (hu : t.uni = false) (hl : ¬ Splits 67 255 t.s)
      (h : ¬ Splits 67 4351 t.s ∨ ∀ c ∈ t.s.take 67, c < 128) : TextRefused 8 t .valueError
  | binText (t : PyStr) (hu : t.uni = true) (hl : 128 ≤ t.s.length) (hs : Splits 134 4351 t.s) :
      TextRefused 4 t .unicodeError
  | binBytes (t : PyStr) (hu : t.uni = false) (hl : 140 < t.s.length) (hs : Splits 134 4351 t.s)
      (h : ∃ c ∈ t.s, 128 ≤ c) : TextRefused 4 t .unicodeError
  | binLong (t : PyStr) (hl : ¬ Splits 134 4351 t.s) : TextRefused 4 t .valueError

/-- the coding that is used: the one that was chosen, or else GSM if the text allows it and UCS2 otherwise -/
def Coded (s : State) (f : Nat) : Prop :=
  s.fmt = some f ∨ (s.fmt = none ∧ ((GsmText s.text ∧ f = 0) ∨ (¬ GsmText s.text ∧ f = 8)))

end Verif.Spec.SubmitRefusal

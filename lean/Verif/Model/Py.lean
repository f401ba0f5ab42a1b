/-!
# Python 2 values used by the model

Strings and byte strings are lists of code points (`str`: every element < 256).  Python exceptions are values.
-/
set_option autoImplicit false

namespace Verif

/-- A Python `str`/`unicode`/`array('B')` value as the list of its ordinals (not in /repo: Python 2 data model). -/
abbrev Str := List Nat

/-- `py! "abc"` is the list of ordinals of the literal, computed at elaboration. -/
syntax (name := pyLit) "py!" str : term

open Lean in
macro_rules
  | `(py! $s:str) => do
    let cs := s.getString.toList.map (fun c => Syntax.mkNumLit (toString c.toNat))
    let arr : TSyntaxArray `term := (cs.map (fun (x : TSyntax `num) => (⟨x.raw⟩ : TSyntax `term))).toArray
    `(([$arr,*] : List Nat))

/-- Exceptions the library can raise (Python 2 builtins, and `DecodeError`/`EncodeError` of
`messaging/mms/wsp_pdu.py:304-313`).  `unicodeError` is a subclass of `ValueError` in Python, see `isValueError`.
`diverge` is not an exception: it marks fuel exhaustion of a modelled loop and is proved unreachable. -/
inductive PyErr
  | valueError | unicodeError | indexError | typeError | attributeError | overflowError
  | stopIteration | decodeError | encodeError | runtimeError | exception | assertionError
  | nameError | osError | ioError | keyError | diverge
  deriving DecidableEq, Repr

/-- `except ValueError` also catches UnicodeError (Python class hierarchy). -/
def PyErr.isValueError : PyErr → Bool
  | .valueError => true
  | .unicodeError => true
  | _ => false

/-- Result of a pure Python call. -/
abbrev Py (α : Type) := Except PyErr α

instance {α : Type} [DecidableEq α] : DecidableEq (Py α) := fun a b => by
  cases a with
  | error e => cases b with
    | error e' =>
      by_cases h : e = e'
      · exact isTrue (by rw [h])
      · exact isFalse (by intro h'; injection h' with h'; exact h h')
    | ok b => exact isFalse (by intro h; cases h)
  | ok a => cases b with
    | error e' => exact isFalse (by intro h; cases h)
    | ok b =>
      by_cases h : a = b
      · exact isTrue (by rw [h])
      · exact isFalse (by intro h'; injection h' with h'; exact h h')

/-- Result of a stateful Python call: the object state is kept also when an exception is raised. -/
inductive Res (σ α : Type) where
  | ok : α → σ → Res σ α
  | err : PyErr → σ → Res σ α
  deriving DecidableEq, Repr

/-- Stateful Python code over object state `σ`. -/
abbrev M (σ α : Type) := σ → Res σ α

namespace M
variable {σ α β : Type}

/-- run -/
@[inline] def run (m : M σ α) (s : σ) : Res σ α := m s

protected def pure (a : α) : M σ α := fun s => .ok a s

protected def bind (m : M σ α) (f : α → M σ β) : M σ β := fun s =>
  match m s with
  | .ok a s' => f a s'
  | .err e s' => .err e s'

instance : Monad (M σ) where
  pure := M.pure
  bind := M.bind

/-- `raise e` -/
def throw (e : PyErr) : M σ α := fun s => .err e s

/-- read the object -/
def get : M σ σ := fun s => .ok s s

/-- assign to attributes of the object -/
def modify (f : σ → σ) : M σ Unit := fun s => .ok () (f s)

/-- run a pure computation -/
def lift (x : Py α) : M σ α := fun s =>
  match x with
  | .ok a => .ok a s
  | .error e => .err e s

/-- `try: m  except <p>: h` -/
def tryCatch (m : M σ α) (p : PyErr → Bool) (h : PyErr → M σ α) : M σ α := fun s =>
  match m s with
  | .ok a s' => .ok a s'
  | .err e s' => if p e then h e s' else .err e s'

@[simp] theorem pure_apply (a : α) (s : σ) : (pure a : M σ α) s = .ok a s := rfl
theorem bind_apply (m : M σ α) (f : α → M σ β) (s : σ) :
    (m >>= f) s = match m s with | .ok a s' => f a s' | .err e s' => .err e s' := rfl
theorem bind_ok {m : M σ α} {f : α → M σ β} {s s' : σ} {a : α} (h : m s = .ok a s') :
    (m >>= f) s = f a s' := by rw [bind_apply, h]
theorem bind_err {m : M σ α} {f : α → M σ β} {s s' : σ} {e : PyErr} (h : m s = .err e s') :
    (m >>= f) s = .err e s' := by rw [bind_apply, h]
@[simp] theorem throw_apply (e : PyErr) (s : σ) : (throw e : M σ α) s = .err e s := rfl
@[simp] theorem get_apply (s : σ) : (get : M σ σ) s = .ok s s := rfl
@[simp] theorem modify_apply (f : σ → σ) (s : σ) : (modify f : M σ Unit) s = .ok () (f s) := rfl
@[simp] theorem lift_ok (a : α) (s : σ) : (lift (.ok a) : M σ α) s = .ok a s := rfl
@[simp] theorem lift_error (e : PyErr) (s : σ) : (lift (.error e) : M σ α) s = .err e s := rfl

end M

/-- `array.pop(0)` / `list.pop(0)`: IndexError when empty. -/
def pop0 : List Nat → Py (Nat × List Nat)
  | [] => .error .indexError
  | x :: xs => .ok (x, xs)

/-- `x[i]` for a non-negative index. -/
def pyIdx (l : List Nat) (i : Nat) : Py Nat :=
  match l[i]? with
  | some x => .ok x
  | none => .error .indexError

/-- `chr(n)`: ValueError outside range(256). -/
def pyChr (n : Nat) : Py Nat := if n < 256 then .ok n else .error .valueError

/-- `unichr(n)` on a wide build: ValueError outside range(0x110000). -/
def pyUnichr (n : Nat) : Py Nat := if n < 0x110000 then .ok n else .error .valueError

/-- C-locale `isspace`, used by `str.strip` and `int`. -/
def isSpace (c : Nat) : Bool := c == 32 || (9 ≤ c && c ≤ 13)

/-- Value of one hexadecimal digit character. -/
def hexVal (c : Nat) : Option Nat :=
  if 48 ≤ c ∧ c ≤ 57 then some (c - 48)
  else if 97 ≤ c ∧ c ≤ 102 then some (c - 87)
  else if 65 ≤ c ∧ c ≤ 70 then some (c - 55)
  else none

/-- `int(s, 16)` for `s` of at most two characters (the only lengths the library passes): optional
surrounding white space or one sign are accepted as Python does. -/
def pyInt16 : Str → Py Int
  | [a] => match hexVal a with
    | some x => .ok x
    | none => .error .valueError
  | [a, b] =>
    match hexVal a, hexVal b with
    | some x, some y => .ok ((16 * x + y : Nat) : Int)
    | some x, none => if isSpace b then .ok x else .error .valueError
    | none, some y =>
      if isSpace a || a == 43 then .ok y
      else if a == 45 then .ok (-(y : Int))
      else .error .valueError
    | none, none => .error .valueError
  | _ => .error .valueError

/-- one lower-case hexadecimal digit -/
def hexDig (n : Nat) : Nat := if n < 10 then 48 + n else 87 + n

/-- `"%02x" % n` for an ordinal `n < 0x110000`. -/
def hex02 (n : Nat) : Str :=
  if n < 256 then [hexDig (n / 16), hexDig (n % 16)]
  else if n < 4096 then [hexDig (n / 256), hexDig (n / 16 % 16), hexDig (n % 16)]
  else if n < 65536 then
    [hexDig (n / 4096), hexDig (n / 256 % 16), hexDig (n / 16 % 16), hexDig (n % 16)]
  else if n < 1048576 then
    [hexDig (n / 65536), hexDig (n / 4096 % 16), hexDig (n / 256 % 16), hexDig (n / 16 % 16), hexDig (n % 16)]
  else
    [hexDig (n / 1048576), hexDig (n / 65536 % 16), hexDig (n / 4096 % 16), hexDig (n / 256 % 16),
     hexDig (n / 16 % 16), hexDig (n % 16)]

/-- `str.upper` on one ASCII character -/
def upChar (c : Nat) : Nat := if 97 ≤ c ∧ c ≤ 122 then c - 32 else c

/-- `str.upper` (ASCII) -/
def pyUpper (s : Str) : Str := s.map upChar

/-- `s.lstrip()` -/
def lstrip : Str → Str
  | [] => []
  | c :: cs => if isSpace c then lstrip cs else c :: cs

/-- `s.strip()` -/
def strip (s : Str) : Str := (lstrip (lstrip s).reverse).reverse

/-- `"%02d" % n` for `n < 100` -/
def dec02 (n : Nat) : Str := [48 + n / 10, 48 + n % 10]

/-- `int(s)` for a string without a sign (base 10): white space around the digits is ignored; ValueError if there is no
digit, or something else. -/
def pyInt10 (s : Str) : Py Nat :=
  let s := strip s
  if s.isEmpty || s.any (fun c => !(48 ≤ c && c ≤ 57)) then .error .valueError
  else .ok (s.foldl (fun a c => 10 * a + (c - 48)) 0)

/-- A Python 2 text value: `uni` distinguishes `unicode` from `str`. -/
structure PyStr where
  uni : Bool
  s : Str
  deriving DecidableEq, Repr

end Verif

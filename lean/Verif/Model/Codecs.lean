import Verif.Model.Gsm0338
/-!
# Model of the registration of the codec (`messaging/sms/gsm0338.py`, last part)

The registry is Python's own (`Python/codecs.c` of Python 2.7): a list of search functions and a cache of the codecs found.
Simplified: names are `str` objects without NUL octets, and search functions are functions of the name alone.
-/
set_option autoImplicit false

namespace Verif.Codecs

/-- `codecs.CodecInfo`: encoder and decoder, with the text given for `errors`, if one is given -/
structure Codec where
  encode : PyStr → Option Str → Py Str
  decode : Str → Option Str → Py Str

/-- gsm0338.py:205, 216-229, 235, 257-265: the values of `errors` that are told apart; the default is `'strict'` -/
def errorsOf : Option Str → Gsm.Errors
  | none => .strict
  | some e =>
    if e = py! "strict" then .strict
    else if e = py! "replace" then .replace
    else if e = py! "ignore" then .ignore
    else .other

/-- gsm0338.py:274-276 the codec -/
def gsmCodec : Codec where
  encode text e := Gsm.encode text (errorsOf e)
  decode octets e := Gsm.decode (errorsOf e) octets

/-- a search function -/
abbrev Search := Str → Option Codec

/-- gsm0338.py:272-276 `getregentry` -/
def getregentry : Search := fun encoding => if encoding = py! "gsm0338" then some gsmCodec else none

/-- the registry of the interpreter -/
structure Registry where
  funcs : List Search
  cache : List (Str × Codec)

/-- `normalizestring` of Python 2: spaces to hyphens, capital letters to small ones -/
def normalize (name : Str) : Str :=
  name.map fun c => if c = 32 then 45 else if 65 ≤ c ∧ c ≤ 90 then c + 32 else c

/-- the search functions are asked in the order of registration -/
def search : List Search → Str → Option Codec
  | [], _ => none
  | f :: fs, key =>
    match f key with
    | some c => some c
    | none => search fs key

/-- `codecs.register` -/
def register (f : Search) (r : Registry) : Registry := { r with funcs := r.funcs ++ [f] }

/-- gsm0338.py:279: what importing (or reloading) the module does to the registry -/
def importModule (r : Registry) : Registry := register getregentry r

/-- `codecs.lookup`: `none` is LookupError, which is not remembered -/
def lookup (name : Str) (r : Registry) : Option Codec × Registry :=
  match r.cache.find? (fun p => p.1 == normalize name) with
  | some p => (some p.2, r)
  | none =>
    match search r.funcs (normalize name) with
    | some c => (some c, { r with cache := (normalize name, c) :: r.cache })
    | none => (none, r)

/-- what a program does with codecs -/
inductive Ev
  | imported
  | registered (f : Search)
  | lookedUp (name : Str)

/-- one step -/
def step (r : Registry) : Ev → Registry
  | .imported => importModule r
  | .registered f => register f r
  | .lookedUp name => (lookup name r).2

/-- a program from the start of the interpreter -/
def run (evs : List Ev) : Registry := evs.foldl step ⟨[], []⟩

/-- `text.encode(name, errors)`: `none` is LookupError -/
def textEncode (name : Str) (errors : Option Str) (text : PyStr) (r : Registry) : Option (Py Str) :=
  (lookup name r).1.map fun c => c.encode text errors

/-- `octets.decode(name, errors)` -/
def octetsDecode (name : Str) (errors : Option Str) (octets : Str) (r : Registry) : Option (Py Str) :=
  (lookup name r).1.map fun c => c.decode octets errors

end Verif.Codecs

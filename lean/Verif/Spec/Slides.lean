import Verif.Model.WspTables
/-!
# Specification: slides of an MMS and their SMIL presentation, data parts, WAP pushes

Only the Python value types (`Val`, `HVal`, `Dict`, `Str`) are taken from the model.
-/
set_option autoImplicit false

namespace Verif.Spec.Slides
open Verif.Mms (Val HVal Dict)

/-- `isinstance(x, int)` in 64-bit Python 2: a machine integer or a bool -/
inductive IsInt : Val → Int → Prop
  | int (n : Int) (h1 : -(2 ^ 63) ≤ n) (h2 : n < 2 ^ 63) : IsInt (.int n) n
  | true : IsInt (.bool true) 1
  | false : IsInt (.bool false) 0

/-- the times of a medium: accepted unless the end is positive and before the beginning -/
def TimesOk (b e : Int) : Prop := ¬ (0 < e ∧ e < b)

/-- the kinds of media of a slide -/
inductive Kind
  | image | audio | text
  deriving DecidableEq, Repr

/-- a call on a slide.  For image and audio, `arg` names a file and `isFile` is what `os.path.isfile` says about it at
the time of the call. -/
inductive Call
  | add (kind : Kind) (arg begin_ end_ : Val) (isFile : Bool)
  | setDuration (d : Val)
  deriving DecidableEq, Repr

/-- the calls that succeed -/
def Call.Ok : Call → Prop
  | add kind arg b e isFile => (∃ s, arg = .str s) ∧ (∃ x y, IsInt b x ∧ IsInt e y ∧ TimesOk x y) ∧
      (kind = .text ∨ isFile = true)
  | setDuration d => ∃ n, IsInt d n ∧ 0 < n

/-- the calls that set this kind -/
def Call.Sets (k : Kind) : Call → Prop
  | add kind _ _ _ _ => kind = k
  | setDuration _ => False

/-- the times of the medium of kind `k` after a history of calls (oldest first): those of the last successful call
that sets it -/
inductive Holds (k : Kind) : List Call → Option (Int × Int) → Prop
  | start : Holds k [] none
  | set (h : List Call) (arg b e : Val) (isFile : Bool) (x y : Int) (hb : IsInt b x) (he : IsInt e y)
      (ok : (Call.add k arg b e isFile).Ok) : Holds k (h ++ [.add k arg b e isFile]) (some (x, y))
  | keep (h : List Call) (c : Call) (r : Option (Int × Int)) (hc : ¬ (c.Ok ∧ c.Sets k)) (hr : Holds k h r) :
      Holds k (h ++ [c]) r

/-- the duration after a history of calls: 4 s, or that of the last successful `set_duration` -/
inductive Lasts : List Call → Int → Prop
  | start : Lasts [] 4000
  | set (h : List Call) (d : Val) (n : Int) (hd : IsInt d n) (hn : 0 < n) : Lasts (h ++ [.setDuration d]) n
  | keep (h : List Call) (c : Call) (n : Int) (hc : ¬ (c.Ok ∧ ∃ d, c = .setDuration d)) (hr : Lasts h n) :
      Lasts (h ++ [c]) n

/-- an element of the presentation: tag, attributes -/
abbrev Elem := List Nat × Dict (List Nat)

/-- decimal digits, with a minus sign if negative -/
def digits (n : Nat) : List Nat := if n < 10 then [48 + n] else digits (n / 10) ++ [48 + n % 10]
termination_by n

def decimal (n : Int) : List Nat := if n < 0 then 45 :: digits n.natAbs else digits n.natAbs

/-- begin and end as attributes: none if both are unset (0 or less); the end not after the end of the slide -/
def timeAttrs (duration b e : Int) : Dict (List Nat) :=
  if 0 < b ∨ 0 < e then [(py! "begin", decimal b), (py! "end", decimal (min e duration))] else []

/-- a medium: where it comes from, begin, end -/
structure Medium where
  src : List Nat
  begin_ : Int
  end_ : Int

/-- a slide -/
structure Slide where
  duration : Int
  image : Option Medium
  text : Option Medium
  audio : Option Medium

/-- the media elements of a slide: image, text, audio, as far as present -/
def Slide.elems (s : Slide) : List Elem :=
  (s.image.toList.map fun m => (py! "img", [(py! "src", m.src), (py! "region", py! "Image")] ++ timeAttrs s.duration m.begin_ m.end_)) ++
  (s.text.toList.map fun m => (py! "text", [(py! "src", m.src), (py! "region", py! "Text")] ++ timeAttrs s.duration m.begin_ m.end_)) ++
  (s.audio.toList.map fun m => (py! "audio", (py! "src", m.src) :: timeAttrs s.duration m.begin_ m.end_))

/-- the time interval in which a medium is shown, as documented: a begin of 0 or less is the start of the slide; an
end of 0 or less, or beyond the duration, is its end -/
def shown (duration b e : Int) : Int × Int :=
  (max b 0, if e ≤ 0 ∨ duration < e then duration else e)

/-- what a SMIL player makes of begin and end attributes: missing ones are the start and the end of the slide -/
def played (duration : Int) (b e : Option Int) : Int × Int := (b.getD 0, e.getD duration)

end Verif.Spec.Slides

import Verif.Model.Cache
/-!
# Model of `to_file` of `messaging/mms/message.py` on a file system with links and limited room

`toFile` of `Model/Cache.lean` takes every name for a file of its own and every disk for large enough.  Here several names
may denote one file (links, or other ways to write a path), and writing may fail after any number of octets.
`C113_agrees` relates the two.
-/
set_option autoImplicit false

namespace Verif.Mms

/-- the regular files: which file a name denotes, if any, and what each file contains; a file is identified by a
string, for example its first name -/
structure FileSys where
  node : Str → Option Str
  data : Str → Str

/-- the files as the rest of the library sees them -/
def FileSys.env (fs : FileSys) (mime : Str → Option Str) : Env := { files := fun f => (fs.node f).map fs.data, mime := mime }

/-- the file `n` has the contents `c` -/
def FileSys.fill (fs : FileSys) (n c : Str) : FileSys := { fs with data := fun k => if k = n then c else fs.data k }

/-- what `open` does besides the library: `fresh` is the file that is made when the name denotes none, `also` the other
names by which that file can be reached, and `room` the number of octets that can be written before the disk is full -/
structure Disposal where
  writable : Str → Bool
  fresh : Str
  also : Str → Bool
  room : Nat

/-- message.py:237 `open(filename, 'wb')`: the file is emptied, or made -/
def FileSys.openW (fs : FileSys) (d : Disposal) (filename : Str) : FileSys × Str :=
  match fs.node filename with
  | some n => (fs.fill n [], n)
  | none =>
    ({ fs with node := fun g => if g = filename ∨ (fs.node g = none ∧ d.also g = true) then some d.fresh else fs.node g }.fill
      d.fresh [], d.fresh)

/-- message.py:225-238 `to_file`.  When there is no more room, what fits has been written, and `tofile` or the closing of
the file raises IOError. -/
def toFileL (ord : Dict HVal → Dict HVal) (rnd : Nat) (mime : Str → Option Str) (d : Disposal) (filename : Str) :
    M (Msg × FileSys) (Option (List Nat)) :=
  fun s =>
    if d.writable filename = false then .err .ioError s
    else
      let (fs, n) := s.2.openW d filename
      match encodeC (fs.env mime) ord rnd s.1 with
      | .err e m => .err e (m, fs)
      | .ok o m =>
        if d.room < o.length then .err .ioError (m, fs.fill n (o.take d.room))
        else .ok none (m, fs.fill n o)

end Verif.Mms

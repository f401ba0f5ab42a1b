import Verif.Model.Message
/-!
# Specification: what a message holds after any history

A history is a sequence of what a program can do with a message while building it, from the first deed to the last.
-/
set_option autoImplicit false

namespace Verif.Spec.MsgHistory
open Verif Verif.Mms

/-- what can be done with a message: `add_page`, `add_data_part`, assigning and deleting a header -/
inductive Deed
  | page (p : Page)
  | part (p : DataPart)
  | header (n : Str) (v : HVal)
  | drop (n : Str)

/-- the deed assigns or deletes this header -/
def Deed.Touches (n : Str) : Deed → Prop
  | header n' _ => n' = n
  | drop n' => n' = n
  | _ => False

/-- the first item of a header value: of a tuple, or of a string that is not empty -/
inductive First : HVal → Str → Prop
  | ct (t : Str) (ps : Dict Val) : First (.ct t ps) t
  | tup (t : Str) (x : Val) : First (.tup t x) t
  | str (c : Nat) (s : Str) : First (.v (.str (c :: s))) [c]
  | uni (c : Nat) (s : Str) : First (.v (.uni (c :: s))) [c]

/-- Content-Type always has a first item: nothing else is assigned to it and it is not deleted -/
def Deed.Sane : Deed → Prop
  | header n v => n = py! "Content-Type" → ∃ t, First v t
  | drop n => n ≠ py! "Content-Type"
  | _ => True

/-- the slides that are added, in order -/
def slides : List Deed → List Page := List.filterMap fun | .page p => some p | _ => none

/-- the data parts that are added, in order -/
def parts : List Deed → List DataPart := List.filterMap fun | .part p => some p | _ => none

/-- the headers of a new message -/
inductive Default : Str → HVal → Prop
  | type : Default (py! "Message-Type") (.v (.str (py! "m-send-req")))
  | transaction : Default (py! "Transaction-Id") (.v (.str (py! "1234")))
  | version : Default (py! "MMS-Version") (.v (.str (py! "1.0")))
  | ct : Default (py! "Content-Type") (.ct (py! "application/vnd.wap.multipart.mixed") [])

/-- what a header is worth after a history: as last assigned or deleted; a slide makes Content-Type
application/vnd.wap.multipart.related unless it is already -/
inductive Worth (n : Str) : List Deed → Option HVal → Prop
  | default (v : HVal) (hv : Default n v) : Worth n [] (some v)
  | absent (hv : ∀ v, ¬ Default n v) : Worth n [] none
  | set (h : List Deed) (v : HVal) : Worth n (h ++ [.header n v]) (some v)
  | del (h : List Deed) : Worth n (h ++ [.drop n]) none
  | related (h : List Deed) (p : Page) (v : HVal) (t : Str) (hn : n = py! "Content-Type") (hr : Worth n h (some v))
      (hv : First v t) (ht : t ≠ py! "application/vnd.wap.multipart.related") :
      Worth n (h ++ [.page p]) (some (.ct (py! "application/vnd.wap.multipart.related") []))
  | keep (h : List Deed) (d : Deed) (r : Option HVal) (hd : ¬ d.Touches n)
      (hp : (∃ p, d = .page p) → n = py! "Content-Type" →
        ∀ v t, r = some v → First v t → t = py! "application/vnd.wap.multipart.related")
      (hr : Worth n h r) : Worth n (h ++ [d]) r

end Verif.Spec.MsgHistory

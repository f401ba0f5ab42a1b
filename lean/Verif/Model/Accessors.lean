import Verif.Model.Message
/-!
# Model of the remaining accessors of `messaging/mms/message.py`
-/
set_option autoImplicit false

namespace Verif.Mms

/-- message.py:462-470 the `content_type` property of a part -/
def DataPart.contentType (p : DataPart) : Py Str := do
  let v ← p.headers.index (py! "Content-Type")
  v.first

/-- message.py:472-474 setting `content_type` -/
def DataPart.setContentType (value : Str) : M DataPart Unit :=
  M.modify (fun p => { p with headers := p.headers.set (py! "Content-Type") (.ct value []) })

/-- `part.headers[name] = value` -/
def DataPart.setHeader (name : Str) (value : HVal) : M DataPart Unit :=
  M.modify (fun p => { p with headers := p.headers.set name value })

/-- `message.headers[name] = value` (`headers` is the plain dict of message.py:35-40) -/
def Msg.setHeader (name : Str) (value : HVal) : M Msg Unit :=
  M.modify (fun m => { m with headers := m.headers.set name value })

/-- `del message.headers[name]` -/
def Msg.delHeader (name : Str) : M Msg Unit := do
  let m ← M.get
  let _ ← M.lift (m.headers.index name)
  M.modify (fun m => { m with headers := m.headers.del name })

/-- message.py:72-75 the `pages` property -/
def Msg.getPages (m : Msg) : List Page := m.pages

end Verif.Mms

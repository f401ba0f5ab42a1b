import Verif.Model.Message
/-!
# Specification: parts whose contents come from files

A part made from a file reads the file when its contents are first needed, and keeps them.
-/
set_option autoImplicit false

namespace Verif.Spec.Files
open Verif Verif.Mms

/-- the part after its contents were read -/
def loaded (env : Env) (p : DataPart) : DataPart :=
  match p.data, p.filename with
  | none, some f => { p with data := env.files f }
  | _, _ => p

/-- a slot of a slide after its contents were read -/
def loadedSlot (env : Env) (x : Option (DataPart × Int × Int)) : Option (DataPart × Int × Int) :=
  x.map (fun t => (loaded env t.1, t.2))

/-- a slide after the contents of its parts were read -/
def loadedPage (env : Env) (p : Page) : Page :=
  { p with image := loadedSlot env p.image, audio := loadedSlot env p.audio, text := loadedSlot env p.text }

/-- a message after the contents of the parts of its slides were read -/
def loadedMsg (env : Env) (m : Msg) : Msg := { m with pages := m.pages.map (loadedPage env) }

/-- `p` is a part of a slide of the message -/
def Holds (m : Msg) (p : DataPart) : Prop :=
  ∃ s ∈ m.pages, ∃ t, s.image = some (p, t) ∨ s.audio = some (p, t) ∨ s.text = some (p, t)

/-- the part, read or not -/
def Maybe (env : Env) (p p' : DataPart) : Prop := p' = p ∨ p' = loaded env p

/-- the same for a slot -/
inductive MaybeSlot (env : Env) : Option (DataPart × Int × Int) → Option (DataPart × Int × Int) → Prop
  | none : MaybeSlot env none none
  | some {p p' : DataPart} (t : Int × Int) (h : Maybe env p p') : MaybeSlot env (some (p, t)) (some (p', t))

/-- the same for a slide -/
structure MaybePage (env : Env) (p p' : Page) : Prop where
  duration : p'.duration = p.duration
  image : MaybeSlot env p.image p'.image
  audio : MaybeSlot env p.audio p'.audio
  text : MaybeSlot env p.text p'.text

/-- the same for the slides of a message -/
inductive MaybePages (env : Env) : List Page → List Page → Prop
  | nil : MaybePages env [] []
  | cons {p p' : Page} {l l' : List Page} (h : MaybePage env p p') (t : MaybePages env l l') :
    MaybePages env (p :: l) (p' :: l')

/-- the same for a message: nothing else of it has changed -/
structure MaybeMsg (env : Env) (m m' : Msg) : Prop where
  pages : MaybePages env m.pages m'.pages
  dataParts : m'.dataParts = m.dataParts
  metaTags : m'.metaTags = m.metaTags
  headers : m'.headers = m.headers
  width : m'.width = m.width
  height : m'.height = m.height

end Verif.Spec.Files

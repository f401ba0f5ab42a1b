import Verif.Props.ReadOrder
/-!
# C46 continued: whole messages with part headers in any order
-/
set_option autoImplicit false

namespace Verif.Props
open Verif Verif.Mms
open Verif.Spec.Wsp Verif.Spec.Mms

/-- parts with plain headers in any order -/
def Orderly (p : Part) : Prop :=
  p.ctype.InStep ∧ (∀ h ∈ p.headers, h.Plain) ∧ p.head.length < 2 ^ 63 ∧ p.data.length < 2 ^ 63

/-- a decoded part shows what is read of a part with its headers in any order -/
structure OrderRead (p : Part) (d : DataPart) : Prop where
  params : d.ctParams = p.ctype.paramsRead
  headers : ∀ n, d.headers.get n = match lastPartValue (readInOrder none p.headers) n with
    | some v => some (.v (.str v))
    | none => if n = py! "Content-Type" then some (.ct p.ctype.mediaRead p.ctype.paramsRead) else none
  data : ∀ env, d.readData env = .ok p.data
  len : ∀ env, d.len env = .ok p.data.length

theorem partLoop_each {P : Part → DataPart → Prop} (ps : List Part)
    (h : ∀ p ∈ ps, ∀ rest, ∃ d, decodePart ⟨p.enc ++ rest, 0⟩ = .ok d ⟨rest, 0⟩ ∧ P p d) (acc : List DataPart)
    (rest : List Nat) : ∃ ds, partLoop ps.length acc ⟨ps.flatMap Part.enc ++ rest, 0⟩ = .ok (acc ++ ds) ⟨rest, 0⟩ ∧
      List.Forall₂ P ps ds := by
  induction ps generalizing acc with
  | nil => exact ⟨[], by simp [partLoop], .nil⟩
  | cons p ps ih =>
    obtain ⟨d, hd, hP⟩ := h p (by simp) (ps.flatMap Part.enc ++ rest)
    obtain ⟨ds, h1, h2⟩ := ih (fun q hq => h q (by simp [hq])) (acc ++ [d])
    refine ⟨d :: ds, ?_, .cons hP h2⟩
    rw [List.length_cons, List.flatMap_cons, List.append_assoc, partLoop, M.bind_ok hd, h1]
    simp

/-- whole messages: the data of every part is right, and its headers are those of the specification -/
theorem C46_any_order_message (hs : List Hdr) (c : CType) (ps : List Part) (rest : List Nat) (hw : ∀ h ∈ hs, h.WF)
    (hc : c.InStep) (hp : ∀ p ∈ ps, Orderly p) (hl : ps.length < 2 ^ 63) :
    ∃ m, decodeData (hs.flatMap Hdr.enc ++ (0x84 :: c.enc ++ (multipart ps ++ rest))) = .ok m ∧
      m.headers.get (py! "Content-Type") = some (.ct c.mediaRead c.paramsRead) ∧ m.pages = [] ∧
      List.Forall₂ OrderRead ps m.dataParts ∧ ∀ n, n ≠ py! "Content-Type" → m.headers.get n = expected hs n := by
  obtain ⟨ds, h1, h2⟩ := partLoop_each (P := OrderRead) ps (fun p hpp rest => by
    obtain ⟨h1, h2, h3, h4⟩ := hp p hpp
    obtain ⟨d, e1, e2, ef, e3, e4⟩ := C46_any_order p h1 h2 h3 h4 rest
    refine ⟨d, e1, e2, ?_, fun env => by simp [DataPart.readData, e3],
      fun env => by simp [DataPart.len, DataPart.readData, ef, e3]; rfl⟩
    intro n
    rw [e4, setApps_get]
    simp only [Dict.get, @eq_comm _ _ n]
    rfl) [] rest
  have hb : decodeMessageBody ⟨multipart ps ++ rest, 0⟩ = .ok ds ⟨rest, 0⟩ := by
    unfold decodeMessageBody multipart
    rw [List.append_assoc]
    simp only [decodeUintVar_uintvar]
    rw [M.bind_ok (xrangeCheck_ok hl _), h1, List.nil_append]
  refine ⟨_, by
    unfold decodeData It.new
    rw [M.bind_ok (messageHeader_read hs hw hc _), M.bind_ok hb]
    rfl, ?_, rfl, h2, ?_⟩
  · simp only []
    rw [dict_get_set, if_pos rfl]
  · intro n hn
    simp only []
    rw [dict_get_set, if_neg (fun e => hn e.symm), setAll_get, defaults_eq]
    rfl

/-- a message with a picture whose Content-Location comes first -/
example : (decodeData (0x84 :: 0xb3 :: (multipart [⟨.constrained (.known 30 (py! "image/jpeg")),
      [.location (py! "a.jpg"), .contentId (py! "<1>")], [1, 2]⟩]))).toOption.map
        (fun m => m.dataParts.map fun d => d.headers.get (py! "a.jpg")) =
    some [some (.v (.str (0xc0 :: py! "\"<1>")))] := by
  decide +kernel

end Verif.Props

import Verif.Proofs.Size
import Verif.Proofs.MmsEnc3
import Verif.Props.MmsTrip
/-!
# C119: how large a message is when it is sent
-/
set_option autoImplicit false

namespace Verif.Props
open Verif Verif.Mms
open Verif.Spec.Size

/-- the values of the headers are strings, integers, truth values, None and content types with such parameters; a part has
its data from a file or has them itself, not both -/
def Measured (p : DataPart) : Prop := (∀ e ∈ p.headers, Ordinary e.1 e.2) ∧ (p.filename = none ∨ p.data = none)

theorem smilPart_measured (smil : Str) : Measured (smilPart smil) := by
  refine ⟨?_, .inl rfl⟩
  intro e he
  simp only [smilPart, List.mem_cons, List.not_mem_nil, or_false] at he
  rcases he with rfl | rfl
  · exact ⟨rfl, fun e he => by cases he⟩
  · trivial

theorem sum_shift (ds : List Str) : (ds.map fun d => d.length + 2).sum = (ds.map List.length).sum + 2 * ds.length := by
  induction ds with
  | nil => rfl
  | cons d ds ih =>
    simp only [List.map_cons, List.sum_cons, List.length_cons, ih]
    omega

theorem sum_around (l : List DataPart) (ds : List Str) (h : l.length = ds.length) :
    ((l.zip ds).map fun x => x.2.length + around x.1.headers x.2.length).sum =
      (ds.map List.length).sum + ((l.zip ds).map fun x => around x.1.headers x.2.length).sum := by
  induction l generalizing ds with
  | nil =>
    cases ds with
    | nil => rfl
    | cons d ds => simp at h
  | cons p l ih =>
    cases ds with
    | nil => simp at h
    | cons d ds =>
      simp only [List.zip_cons_cons, List.map_cons, List.sum_cons, ih ds (by simpa using h)]
      omega

/-- what is sent contains the presentation and the data of all parts of the slides, with two octets more for each; besides
them there are the headers of the message, 110 octets more for those that are added, the number of the parts, for each part
its headers and two lengths, and the headers of the presentation -/
theorem C119_size (env : Env) (ord : Dict HVal → Dict HVal) (ho : ∀ d, (ord d).Perm d) (rnd : Nat) (hr : rnd < 10000)
    (m m' : Msg) (o : List Nat) (h : encode env ord rnd m = .ok o m') (hm : ∀ e ∈ m.headers, Ordinary e.1 e.2)
    (hp : ∀ p ∈ slideParts m.pages, Measured p) :
    ∃ (smil : Str) (ds : List Str), m.smil env = .ok smil ∧
      List.Forall₂ (fun p d => p.readData env = .ok d) (slideParts m.pages) ds ∧
      smil.length + (ds.map List.length).sum + 2 * (1 + ds.length) ≤ o.length ∧
      o.length ≤ smil.length + (ds.map List.length).sum + (headers m.headers + 110) + len (1 + ds.length + m.dataParts.length) +
        (55 + len smil.length) + (((slideParts m.pages).zip ds).map fun x => around x.1.headers x.2.length).sum := by
  obtain ⟨hd, b, h1, h2, rfl⟩ := encode_inv h
  obtain ⟨k1, hdrs, rfl⟩ := Mms.Size.messageHeader_le ho hr hm h1
  unfold encodeMessageBody at h2
  obtain ⟨a, ha, h2⟩ := Mms.Size.eb h2
  obtain ⟨smil, hs, h2⟩ := Mms.Size.eb h2
  obtain ⟨c, hc, h2⟩ := Mms.Size.eb h2
  injection h2 with h2
  subst h2
  obtain ⟨ds', g1, g2, g3⟩ := Mms.Size.parts_le ho _ (fun p hp' => by
    rcases List.mem_cons.1 hp' with rfl | hp'
    · exact smilPart_measured smil
    · exact hp p hp') c hc
  have hsm : m.smil env = .ok smil := hs
  cases g1 with
  | @cons _ d _ ds e1 e2 =>
    injection e1 with e1
    subst e1
    have hl := e2.length_eq
    have ha' := Mms.Size.octets_ints ha
    unfold numEntries at ha'
    rw [Mms.Size.encodeUintVar_length, ← slideParts_length, hl] at ha'
    dsimp only at ha'
    have hsmil : ∀ n, around (smilPart smil).headers n = 55 + len n := by
      intro n
      unfold around
      have : headers (smilPart smil).headers + len (headers (smilPart smil).headers) = 55 := by
        show headers [(py! "Content-Type", .ct (py! "application/smil") []), (py! "Content-ID", .v (.str (py! "<0000>")))] +
          len (headers [(py! "Content-Type", .ct (py! "application/smil") []), (py! "Content-ID", .v (.str (py! "<0000>")))]) = 55
        decide +kernel
      omega
    refine ⟨smil, ds, hsm, e2, ?_, ?_⟩
    · rw [sum_shift] at g2
      simp only [List.map_cons, List.sum_cons, List.length_cons] at g2
      simp only [List.length_append]
      omega
    · simp only [List.zip_cons_cons, List.map_cons, List.sum_cons, hsmil, sum_around _ _ hl] at g3
      simp only [List.length_append]
      omega

/-- a message with a photo of three octets and a text of five: 442 octets, of which 356 are the presentation -/
example : ∃ o m', encode sampleEnv id 1234 photoMsg = .ok o m' ∧ o.length = 442 ∧ (∀ e ∈ photoMsg.headers, Ordinary e.1 e.2) ∧
    (∀ p ∈ slideParts photoMsg.pages, Measured p) ∧ headers photoMsg.headers = 140 ∧
    ∃ smil, photoMsg.smil sampleEnv = .ok smil ∧ smil.length = 356 := by
  have h : (match encode sampleEnv id 1234 photoMsg with | .ok o _ => o.length | .err _ _ => 0) = 442 := by decide +kernel
  have h' : (match photoMsg.smil sampleEnv with | .ok o => o.length | .error _ => 0) = 356 := by decide +kernel
  obtain ⟨o, m', he, hl⟩ : ∃ o m', encode sampleEnv id 1234 photoMsg = .ok o m' ∧ o.length = 442 := by
    cases he : encode sampleEnv id 1234 photoMsg with
    | ok o m' => rw [he] at h; exact ⟨o, m', rfl, h⟩
    | err e m' => rw [he] at h; cases h
  obtain ⟨s, hs, hsl⟩ : ∃ s, photoMsg.smil sampleEnv = .ok s ∧ s.length = 356 := by
    cases he : photoMsg.smil sampleEnv with
    | ok s => rw [he] at h'; exact ⟨s, rfl, h'⟩
    | error e => rw [he] at h'; cases h'
  refine ⟨o, m', he, hl, ?_, ?_, by decide +kernel, s, hs, hsl⟩
  · have e : photoMsg.headers = [(MT, .v (.str (py! "m-send-req"))), (TI, .v (.str (py! "1234"))),
      (MV, .v (.str (py! "1.0"))), (CT, .ct (py! "application/vnd.wap.multipart.mixed") []),
      (py! "To", .v (.str (py! "+34600000000")))] := rfl
    intro x hx
    rw [e] at hx
    simp only [List.mem_cons, List.not_mem_nil, or_false] at hx
    rcases hx with rfl | rfl | rfl | rfl | rfl
    · trivial
    · trivial
    · trivial
    · exact ⟨rfl, fun e he => by cases he⟩
    · trivial
  · intro p hp
    have hp : p ∈ [samplePhoto, textPart (py! "hello")] := hp
    simp only [List.mem_cons, List.not_mem_nil, or_false] at hp
    rcases hp with rfl | rfl
    · refine ⟨?_, .inr rfl⟩
      intro x hx
      simp only [samplePhoto, List.mem_cons, List.not_mem_nil, or_false] at hx
      rcases hx with rfl | rfl
      · trivial
      · exact ⟨rfl, fun e he => by cases he⟩
    · refine ⟨?_, .inl rfl⟩
      intro x hx
      have e : (textPart (py! "hello")).headers = [(CT, .ct (py! "text/plain") [])] := rfl
      rw [e] at hx
      simp only [List.mem_cons, List.not_mem_nil, or_false] at hx
      subst hx
      exact ⟨rfl, fun e he => by cases he⟩

end Verif.Props

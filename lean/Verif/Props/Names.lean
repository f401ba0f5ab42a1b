import Verif.Proofs.Names
import Verif.Props.MmsTrip
/-!
# C47: files of any name
-/
set_option autoImplicit false

namespace Verif.Props
open Verif Verif.Mms
open Verif.Spec.Wsp Verif.Spec.Mms Verif.Spec.MmsEnc Verif.Spec.Names

/-- a part of a slide that can be sent: a text or data, or a file of any usual name -/
def Brought (env : Env) (part : DataPart) : Prop :=
  (∃ media data, PlainPart env part media data) ∨ ∃ media data t, NamedPart env part media data t

/-- what is read for the headers of a part: all of them, or for a file its content type and the stray header -/
inductive HeadersRead (p q : DataPart) : Prop
  | plain (h : p.headers.get (py! "Content-Location") = none) (hq : ∀ n, q.headers.get n = p.headers.get n)
  | named (media t : Str) (hc : p.headers.get CT = some (.ct media []))
      (h : p.headers.get (py! "Content-Location") = some (.v (.str t)))
      (hq : ∀ n, q.headers.get n = namedHeader media t n)

/-- what is read for a part -/
def PartRead (env : Env) (p q : DataPart) : Prop :=
  (∃ data, p.readData env = .ok data ∧ q.data = some data ∧ ∀ env', q.readData env' = .ok data) ∧ HeadersRead p q

/-- the message and its parts as they are read, if every header is -/
theorem names_read (env : Env) (ord : Dict HVal → Dict HVal) (rnd : Nat) (m : Msg) (media smil : Str)
    (ho : ∀ d, (ord d).Perm d) (hk : m.headers.Ok) (hset : Settled m.headers)
    (hct : m.headers.get CT = some (.ct media [])) (hm : Sends media)
    (hf : ∀ n v, m.headers.get n = some v → n ≠ CT → Comes n v)
    (hsm : m.smil env = .ok smil) (hlen : smil.length < 2 ^ 63)
    (hp : ∀ p ∈ partsOf m.pages, Brought env p)
    (hd : m.dataParts = []) (hn : 3 * m.pages.length < 2 ^ 63 - 1) :
    ∃ o m' m2 q qs, encode env ord rnd m = .ok o m' ∧ decodeData o = .ok m2 ∧ (∀ n, m2.headers.get n = m.headers.get n) ∧
      m2.dataParts = q :: qs ∧
      q.data = some smil ∧ (∀ n, q.headers.get n = Dict.get [(CT, .ct (py! "application/smil") []),
        (py! "Content-ID", .v (.str (py! "<0000>")))] n) ∧
      List.Forall₂ (PartRead env) (partsOf m.pages) qs := by
  have hP := prepare_settled hk hset rnd
  have plain : ∀ {p : DataPart} {media data : Str}, PlainPart env p media data →
      ∃ o q, encodePart env ord p = .ok o ∧ PartRead env p q ∧ ∀ rest, decodePart ⟨o ++ rest, 0⟩ = .ok q ⟨rest, 0⟩ := by
    intro p media data hc
    obtain ⟨o, q, e1, ⟨_, r2, r3, r4⟩, e3⟩ := plainPart_ok ho hc
    have hloc : p.headers.get (py! "Content-Location") = none := by
      cases hg : p.headers.get (py! "Content-Location") with
      | none => rfl
      | some v => exact absurd (hc.app _ v hg (by decide)) kept_location
    refine ⟨o, q, e1, ⟨⟨data, hc.read, r3, fun env' => by unfold DataPart.readData; rw [r3]⟩, .plain hloc fun n => ?_⟩, e3⟩
    rw [r4]
    split
    · next e => rw [e, hloc]
    · rfl
  obtain ⟨o, h1, h2, _⟩ := message_ok (env := env) ho (rnd := rnd) hk hct hm (fun n v hg hc => hf n v (by rw [← hP n]; exact hg) hc)
    (smil := smil) (R := PartRead env) hsm (by
      intro p hmem
      rcases List.mem_cons.1 hmem with rfl | hmem
      · exact plain (smilPart_plain env hlen)
      · rw [slideParts_eq] at hmem
        rcases hp p hmem with ⟨media, data, hc⟩ | ⟨media, data, t, hc⟩
        · exact plain hc
        · obtain ⟨o, q, e1, ⟨_, r3, r4⟩, e3⟩ := namedPart_ok ho hc
          exact ⟨o, q, e1, ⟨⟨data, hc.read, r3, fun env' => by unfold DataPart.readData; rw [r3]⟩,
            .named media t hc.ct hc.loc r4⟩, e3⟩) (numEntries_lt (by rw [hd]; simpa using hn))
  obtain ⟨m2, g1, g2, g3⟩ := h2 hd
  rw [slideParts_eq] at g3
  cases hq : m2.dataParts with
  | nil => rw [hq] at g3; cases g3
  | cons q qs =>
    rw [hq] at g3
    cases g3 with
    | cons hh ht =>
      obtain ⟨⟨data, r1, r2, _⟩, hr⟩ := hh
      refine ⟨o, _, m2, q, qs, h1, g1, fun n => by rw [g2, hP], hq, ?_, ?_, ht⟩
      · rw [r2]
        injection r1 with r1
        rw [← r1]
      · cases hr with
        | plain _ hq => exact fun n => hq n
        | named _ _ _ h => cases h

/-- `C47_partial` for files of all usual names: those that start with a printable character, or a letter beyond ASCII in
UTF-8 or Latin-1.  All data arrive and all headers of the message; the Content-Location of a file does not, and if its name
is not a token (say, has a space in it) the part may get a stray header instead, which is described exactly. -/
theorem C47_names_partial (env : Env) (ord : Dict HVal → Dict HVal) (rnd : Nat) (m : Msg) (media smil : Str)
    (ho : ∀ d, (ord d).Perm d) (hk : m.headers.Ok) (hset : Settled m.headers)
    (hct : m.headers.get CT = some (.ct media [])) (hm : Sends media)
    (hf : ∀ n v, m.headers.get n = some v → n ≠ CT → Faithful n v)
    (hsm : m.smil env = .ok smil) (hlen : smil.length < 2 ^ 63)
    (hp : ∀ p ∈ partsOf m.pages, Brought env p)
    (hd : m.dataParts = []) (hn : 3 * m.pages.length < 2 ^ 63 - 1) :
    ∃ o m' m2 q qs, encode env ord rnd m = .ok o m' ∧ decodeData o = .ok m2 ∧ (∀ n, m2.headers.get n = m.headers.get n) ∧
      m2.dataParts = q :: qs ∧
      q.data = some smil ∧ (∀ n, q.headers.get n = Dict.get [(CT, .ct (py! "application/smil") []),
        (py! "Content-ID", .v (.str (py! "<0000>")))] n) ∧
      List.Forall₂ (PartRead env) (partsOf m.pages) qs := by
  exact names_read env ord rnd m media smil ho hk hset hct hm (fun n v h1 h2 => faithful_ok (hf n v h1 h2)) hsm hlen hp hd hn

/-- A file of any usual name can be sent, if it is still there when the message is encoded. -/
theorem C47_named_file (env : Env) (f c : Str) (p : DataPart) (h : DataPart.ofFile env f = .ok p) (hc : env.files f = some c)
    (hb : Nameable (DataPart.basename f)) (hs : ∀ media, env.mime f = some media → Sends media ∧ media.length < 2 ^ 61)
    (hl : (DataPart.basename f).length < 2 ^ 61 ∧ c.length < 2 ^ 63) : Brought env p := by
  unfold DataPart.ofFile DataPart.fromFile at h
  rw [hc] at h
  injection h with h
  subst h
  have hmm : Sends ((env.mime f).getD (py! "application/octet-stream")) ∧ ((env.mime f).getD (py! "application/octet-stream")).length < 2 ^ 61 := by
    cases hme : env.mime f with
    | none => exact ⟨⟨⟨by decide, 97, rfl, by decide, by decide⟩, by decide⟩, by decide⟩
    | some x => exact hs x hme
  refine .inr ⟨_, c, DataPart.basename f, by unfold Dict.Ok; exact (by decide : [py! "Content-Location", py! "Content-Type"].Nodup), rfl, hmm.1,
    rfl, hb, ?_, ?_, ?_, ?_, hl.2⟩
  · intro n h1 h2
    show Dict.get [(py! "Content-Location", _), (py! "Content-Type", _)] n = none
    simp only [Dict.get]
    rw [if_neg (fun e => h2 e.symm), if_neg (fun e => h1 e.symm)]
  · unfold DataPart.readData
    simp only [hc]
  · unfold DataPart.len
    simp only [hc]
  · show (List.map entrySize [(py! "Content-Location", _), (py! "Content-Type", _)]).sum < _
    simp only [List.map_cons, List.map_nil, List.sum_cons, List.sum_nil, entrySize, List.length_cons, List.length_nil]
    have := hmm.2
    have := hl.1
    omega

/-- names without separators leave no trace -/
theorem C47_name_plain (media t n : Str) (ht : ∀ c ∈ t, ends c = false) :
    namedHeader media t n = if n = CT then some (.ct media []) else none := by
  have hs : ∀ c ∈ seen t, ends c = false := by
    intro c hc
    cases t with
    | nil => cases hc
    | cons a r =>
      simp only [seen] at hc
      split at hc
      · exact ht c (by simp [hc])
      · exact ht c hc
  have : stray (seen t) = none := by
    unfold stray
    have h1 : (seen t).dropWhile (fun c => !ends c) = [] := by
      have : ∀ l : List Nat, (∀ c ∈ l, ends c = false) → l.dropWhile (fun c => !ends c) = [] := by
        intro l
        induction l with
        | nil => exact fun _ => rfl
        | cons a l ih =>
          intro h
          rw [List.dropWhile_cons_of_pos (by simp [h a (by simp)])]
          exact ih fun c hc => h c (by simp [hc])
      exact this _ hs
    rw [h1]
    cases (seen t).takeWhile (fun c => !ends c) <;> rfl
  unfold namedHeader
  rw [this]

example := C47_name_plain (py! "image/jpeg") (py! "photo.jpg") (py! "Content-Type") (by decide)

/-- "holiday photo.jpg" arrives with a header "holiday", worth "photo.jpg"; "Content-Type x.jpg" has lost its type -/
theorem C47_name_stray : stray (seen (py! "holiday photo.jpg")) = some (py! "holiday", py! "photo.jpg") ∧
    namedHeader (py! "image/jpeg") (py! "Content-Type x.jpg") CT = some (.v (.str (py! "x.jpg"))) := by decide +kernel

example : Nameable (py! "holiday photo.jpg") := ⟨by decide, by decide, 104, rfl, by decide⟩
example : Nameable [0xc3, 0xa9, 0x74, 0xc3, 0xa9, 46, 106, 112, 103] := ⟨by decide, by decide, 0xc3, rfl, by decide⟩

/-- a message with such a file satisfies the hypotheses -/
def spacedEnv : Env := { files := fun f => if f = py! "/tmp/a b.jpg" then some [1, 2, 3] else none, mime := fun _ => some (py! "image/jpeg") }

def spacedPhoto : DataPart := { samplePhoto with filename := some (py! "/tmp/a b.jpg"), headers := [(py! "Content-Location", .v (.str (py! "a b.jpg"))), (py! "Content-Type", .ct (py! "image/jpeg") [])] }

def spacedMsg : Msg := { photoMsg with pages := [{ Page.new with image := some (spacedPhoto, 0, 0) }] }

example (ord : Dict HVal → Dict HVal) (ho : ∀ d, (ord d).Perm d) (rnd : Nat) : ∃ o m' m2 q,
    encode spacedEnv ord rnd spacedMsg = .ok o m' ∧ decodeData o = .ok m2 ∧ q ∈ m2.dataParts ∧ q.data = some [1, 2, 3] ∧
    q.headers.get (py! "a") = some (.v (.str (py! "b.jpg"))) := by
  obtain ⟨smil, hs, hl⟩ : ∃ smil, spacedMsg.smil spacedEnv = .ok smil ∧ smil.length < 2 ^ 63 := by
    have : (match spacedMsg.smil spacedEnv with | .ok s => decide (s.length < 1000) | .error _ => false) = true := by
      decide +kernel
    split at this
    · rename_i s hs
      exact ⟨s, hs, Nat.lt_trans (of_decide_eq_true this) (by decide)⟩
    · cases this
  obtain ⟨o, m', m2, q, qs, h1, h2, h3, h4, h5, _, h6⟩ := C47_names_partial spacedEnv ord rnd spacedMsg
    (py! "application/vnd.wap.multipart.mixed") smil ho sample_ok sample_settled rfl
    ⟨⟨by decide, 97, rfl, by decide, by decide⟩, by decide⟩ sample_faithful hs hl (by
      intro p hp
      have hp : p ∈ [spacedPhoto] := hp
      rw [List.mem_singleton] at hp
      subst hp
      refine C47_named_file spacedEnv (py! "/tmp/a b.jpg") [1, 2, 3] _ rfl rfl ⟨by decide, by decide, 97, rfl, by decide⟩ ?_
        ⟨by decide, by decide⟩
      intro media h
      injection h with h
      subst h
      exact ⟨⟨⟨by decide, 105, rfl, by decide, by decide⟩, by decide⟩, by decide⟩) rfl (by decide)
  have hp : partsOf spacedMsg.pages = [spacedPhoto] := rfl
  rw [hp] at h6
  cases h6 with
  | cons a b =>
    cases b
    obtain ⟨⟨data, r1, r2, _⟩, hr⟩ := a
    refine ⟨o, m', m2, _, h1, h2, by rw [h4]; simp; exact .inr rfl, ?_, ?_⟩
    · rw [r2]
      exact congrArg some (by injection r1 with r1; exact r1.symm)
    · cases hr with
      | plain h => cases h
      | named media t hc h hq =>
        rw [hq]
        injection hc with hc
        injection hc with hc
        injection h with h
        injection h with h
        injection h with h
        subst hc h
        decide +kernel

end Verif.Props

import Verif.Props.MmsTrip
import Verif.Proofs.Repeat
/-!
# C95: the octets of a message determine it
-/
set_option autoImplicit false

namespace Verif.Props
open Verif Verif.Mms
open Verif.Spec.Wsp Verif.Spec.Mms Verif.Spec.MmsEnc

/-- two parts say the same, each read with its own files: same data, same headers but perhaps the Content-Location -/
def EqualPart (env1 env2 : Env) (p1 p2 : DataPart) : Prop :=
  (∃ data, p1.readData env1 = .ok data ∧ p2.readData env2 = .ok data) ∧
  ∀ n, n ≠ py! "Content-Location" → p1.headers.get n = p2.headers.get n

/-- C95 in full: whatever is encoded, equal octets mean equal headers, presentation and parts (loose ones included). -/
def C95_full : Prop := ∀ (env1 env2 : Env) (ord1 ord2 : Dict HVal → Dict HVal) (rnd1 rnd2 : Nat) (m1 m2 : Msg)
  (o : List Nat) (m1' m2' : Msg),
  (∀ d, (ord1 d).Perm d) → (∀ d, (ord2 d).Perm d) → m1.headers.Ok → m2.headers.Ok → Settled m1.headers → Settled m2.headers →
  encode env1 ord1 rnd1 m1 = .ok o m1' → encode env2 ord2 rnd2 m2 = .ok o m2' →
  (∀ n, m1.headers.get n = m2.headers.get n) ∧ (∃ smil, m1.smil env1 = .ok smil ∧ m2.smil env2 = .ok smil) ∧
    List.Forall₂ (EqualPart env1 env2) (partsOf m1.pages ++ m1.dataParts) (partsOf m2.pages ++ m2.dataParts)

/-- messages as in `C47_partial`: faithful headers, a media type without parameters, slides made of texts and files, no
loose data parts -/
structure Posted (env : Env) (m : Msg) : Prop where
  ok : m.headers.Ok
  settled : Settled m.headers
  type : ∃ media, m.headers.get CT = some (.ct media []) ∧ Sends media
  faithful : ∀ n v, m.headers.get n = some v → n ≠ CT → Faithful n v
  smil : ∃ smil, m.smil env = .ok smil ∧ smil.length < 2 ^ 63
  parts : ∀ p ∈ partsOf m.pages, Carried env p
  loose : m.dataParts = []
  size : 3 * m.pages.length < 2 ^ 63 - 1

theorem forall₂_join {α : Type} {R1 R2 : α → α → Prop} {S : α → α → Prop} (h : ∀ a b c, R1 a c → R2 b c → S a b) :
    ∀ {l1 l2 l : List α}, List.Forall₂ R1 l1 l → List.Forall₂ R2 l2 l → List.Forall₂ S l1 l2
  | _, _, _, .nil, .nil => .nil
  | _, _, _, .cons a as, .cons b bs => .cons (h _ _ _ a b) (forall₂_join h as bs)

/-- C95 for messages as in `C47_partial`: if two of them, perhaps encoded with different files, random ids and orders of
dictionaries, give the same octets, they have the same headers, the same presentation and, part by part, the same data and
headers.  Missing: loose data parts, which are not sent (`C95_refuted`); and the Content-Location of files, messages with
content type parameters, about which nothing is said. -/
theorem C95_partial (env1 env2 : Env) (ord1 ord2 : Dict HVal → Dict HVal) (rnd1 rnd2 : Nat) (m1 m2 : Msg)
    (o : List Nat) (m1' m2' : Msg) (ho1 : ∀ d, (ord1 d).Perm d) (ho2 : ∀ d, (ord2 d).Perm d)
    (hp1 : Posted env1 m1) (hp2 : Posted env2 m2)
    (h1 : encode env1 ord1 rnd1 m1 = .ok o m1') (h2 : encode env2 ord2 rnd2 m2 = .ok o m2') :
    (∀ n, m1.headers.get n = m2.headers.get n) ∧ (∃ smil, m1.smil env1 = .ok smil ∧ m2.smil env2 = .ok smil) ∧
      List.Forall₂ (EqualPart env1 env2) (partsOf m1.pages ++ m1.dataParts) (partsOf m2.pages ++ m2.dataParts) := by
  obtain ⟨media1, c1, c2⟩ := hp1.type
  obtain ⟨media2, d1, d2⟩ := hp2.type
  obtain ⟨smil1, e1, e2⟩ := hp1.smil
  obtain ⟨smil2, f1, f2⟩ := hp2.smil
  obtain ⟨o1, x1, y1, q1, qs1, a1, a2, a3, a4, a5, _, a6⟩ := C47_partial env1 ord1 rnd1 m1 media1 smil1 ho1 hp1.ok hp1.settled c1 c2
    hp1.faithful e1 e2 hp1.parts hp1.loose hp1.size
  obtain ⟨o2, x2, y2, q2, qs2, b1, b2, b3, b4, b5, _, b6⟩ := C47_partial env2 ord2 rnd2 m2 media2 smil2 ho2 hp2.ok hp2.settled d1 d2
    hp2.faithful f1 f2 hp2.parts hp2.loose hp2.size
  rw [h1] at a1
  rw [h2] at b1
  cases a1
  cases b1
  rw [a2] at b2
  cases b2
  rw [a4] at b4
  cases b4
  rw [a5] at b5
  cases b5
  rw [hp1.loose, hp2.loose, List.append_nil, List.append_nil]
  refine ⟨fun n => by rw [← a3, b3], ⟨_, e1, f1⟩, forall₂_join ?_ a6 b6⟩
  rintro p1 p2 q ⟨⟨v1, r1, r2, _⟩, r3⟩ ⟨⟨v2, s1, s2, _⟩, s3⟩
  rw [r2] at s2
  cases s2
  refine ⟨⟨_, r1, s1⟩, fun n hn => ?_⟩
  have := (r3 n).symm.trans (s3 n)
  rwa [if_neg hn, if_neg hn] at this

/-- the message with a photo and a text -/
theorem photo_posted : Posted sampleEnv photoMsg where
  ok := sample_ok
  settled := sample_settled
  type := ⟨py! "application/vnd.wap.multipart.mixed", rfl, ⟨by decide, 97, rfl, by decide, by decide⟩, by decide⟩
  faithful := sample_faithful
  smil := sample_smil
  parts := photo_carried
  loose := rfl
  size := by decide

/-- so any other message with the same octets carries the photo -/
example (o : List Nat) (m1' m2' m2 : Msg) (env2 : Env) (hp : Posted env2 m2) (h1 : encode sampleEnv id 1 photoMsg = .ok o m1')
    (h2 : encode env2 id 2 m2 = .ok o m2') : m2.headers.get (py! "To") = some (.v (.str (py! "+34600000000"))) :=
  ((C95_partial sampleEnv env2 id id 1 2 photoMsg m2 o m1' m2' (fun _ => List.Perm.refl _) (fun _ => List.Perm.refl _)
    photo_posted hp h1 h2).1 (py! "To")).symm

/-- C95 is false of the code: only the number of loose data parts is sent, not what is in them. -/
theorem C95_refuted : ¬ C95_full := by
  intro h
  have hp : ∀ d, (id d : Dict HVal).Perm d := fun _ => List.Perm.refl _
  have e : (encode sampleEnv id 1 { photoMsg with dataParts := [textPart (py! "a")] }).val =
      (encode sampleEnv id 1 { photoMsg with dataParts := [textPart (py! "b")] }).val := by decide +kernel
  have hok : ∃ o m', encode sampleEnv id 1 { photoMsg with dataParts := [textPart (py! "a")] } = .ok o m' := by
    obtain ⟨smil, hs, hl⟩ := sample_smil
    obtain ⟨o, m', h1, _⟩ := C47_loose sampleEnv id 1 { photoMsg with dataParts := [textPart (py! "a")] }
      (py! "application/vnd.wap.multipart.mixed") smil hp sample_ok sample_settled rfl
      ⟨⟨by decide, 97, rfl, by decide, by decide⟩, by decide⟩ sample_faithful hs hl photo_carried (by simp) (by decide)
    exact ⟨o, m', h1⟩
  obtain ⟨o, m', h1⟩ := hok
  have h2 := e.symm
  rw [h1] at h2
  have h2 := Res.val_ok h2
  have := (h sampleEnv sampleEnv id id 1 1 { photoMsg with dataParts := [textPart (py! "a")] } { photoMsg with dataParts := [textPart (py! "b")] } o m' _ hp hp sample_ok sample_ok sample_settled sample_settled h1 h2).2.2
  have this : List.Forall₂ (EqualPart sampleEnv sampleEnv) [samplePhoto, textPart (py! "hello"), textPart (py! "a")]
    [samplePhoto, textPart (py! "hello"), textPart (py! "b")] := this
  cases this with
  | cons _ t => cases t with
    | cons _ t => cases t with
      | cons t _ =>
        obtain ⟨⟨d, g1, g2⟩, _⟩ := t
        have e1 : d = py! "a" := (Except.ok.inj g1).symm
        have e2 : d = py! "b" := (Except.ok.inj g2).symm
        rw [e1] at e2
        revert e2
        decide

end Verif.Props

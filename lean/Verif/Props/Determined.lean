import Verif.Proofs.Determined
import Verif.Props.MmsInjective
import Verif.Props.SurviveMsg
/-!
# C95: the octets of a message determine it, the names of files and the number of loose parts included
-/
set_option autoImplicit false

namespace Verif.Props
open Verif Verif.Mms
open Verif.Spec.Wsp Verif.Spec.Mms Verif.Spec.MmsEnc Verif.Spec.Survive Verif.Spec.Determined

/-- messages with headers that come back (`C44_iff`), a media type without parameters, and slides whose parts have any
headers that are written down; any loose parts -/
structure Enclosed (env : Env) (m : Msg) : Prop where
  ok : m.headers.Ok
  settled : Settled m.headers
  type : ∃ media, m.headers.get CT = some (.ct media []) ∧ Sends media
  bytes : ∀ n s, m.headers.get n = some (.v (.str s)) → ∀ c ∈ s, c < 256
  survive : ∀ n v, m.headers.get n = some v → n ≠ CT → Survives n v
  parts : ∀ p ∈ partsOf m.pages, WrittenPart env p

/-- the same data, and the same headers, all of them -/
def TwinPart (env1 env2 : Env) (p1 p2 : DataPart) : Prop :=
  (∃ data, p1.readData env1 = .ok data ∧ p2.readData env2 = .ok data) ∧ ∀ n, p1.headers.get n = p2.headers.get n

theorem enclosed_split {env : Env} {ord : Dict HVal → Dict HVal} {rnd : Nat} {m m' : Msg} {o : List Nat}
    (ho : ∀ d, (ord d).Perm d) (hp : Enclosed env m) (h : encode env ord rnd m = .ok o m') :
    ∃ a b d, o = a ++ b ∧ (∀ n, Dict.get d n = m.headers.get n) ∧
      (∀ rest, decodeMessageHeader ⟨a ++ rest, 0⟩ = .ok d ⟨rest, 0⟩) ∧ encodeMessageBody env ord m = .ok b := by
  obtain ⟨media, hct, hm⟩ := hp.type
  have hP := prepare_settled hp.ok hp.settled rnd
  obtain ⟨a, d, h1, h2, h3⟩ := header_ok (m := m) ho rfl (prepare_ok hp.ok rnd) (by rw [hP, hct]) hm
    (fun n v hg hc => survives_comes (fun s hs => hp.bytes n s (by rw [← hP n, hg, hs])) hc
      (hp.survive n v (by rw [← hP n]; exact hg) hc))
  unfold encode at h
  rw [M.bind_ok h1] at h
  have hb : encodeMessageBody env ord { m with headers := restHeaders (prepareHeaders rnd m.headers) }
      = encodeMessageBody env ord m := rfl
  simp only [bind, M.bind, M.get, M.lift, pure, M.pure, hb] at h
  cases hx : encodeMessageBody env ord m with
  | error e => rw [hx] at h; cases h
  | ok b =>
    rw [hx] at h
    simp only [Res.ok.injEq] at h
    exact ⟨a, b, d, h.1.symm, fun n => by rw [h2, hP], h3, rfl⟩

/-- C95, more than `C95_partial`: if two messages with any headers that come back and with parts that have any headers that
are written down (perhaps with different files, random ids and orders of dictionaries) give the same octets, they have the
same headers, the same presentation, the same number of loose parts and, part by part, the same data and headers, the names
of files included.  Missing: the contents of loose data parts, which are not sent (`C95_refuted`), and headers that do not
come back. -/
theorem C95_determined_partial (env1 env2 : Env) (ord1 ord2 : Dict HVal → Dict HVal) (rnd1 rnd2 : Nat) (m1 m2 : Msg)
    (o : List Nat) (m1' m2' : Msg) (ho1 : ∀ d, (ord1 d).Perm d) (ho2 : ∀ d, (ord2 d).Perm d)
    (hp1 : Enclosed env1 m1) (hp2 : Enclosed env2 m2)
    (h1 : encode env1 ord1 rnd1 m1 = .ok o m1') (h2 : encode env2 ord2 rnd2 m2 = .ok o m2') :
    (∀ n, m1.headers.get n = m2.headers.get n) ∧ (∃ smil, m1.smil env1 = .ok smil ∧ m2.smil env2 = .ok smil) ∧
      List.Forall₂ (TwinPart env1 env2) (partsOf m1.pages) (partsOf m2.pages) ∧
      m1.dataParts.length = m2.dataParts.length := by
  obtain ⟨a1, b1, d1, e1, e2, e3, e4⟩ := enclosed_split ho1 hp1 h1
  obtain ⟨a2, b2, d2, f1, f2, f3, f4⟩ := enclosed_split ho2 hp2 h2
  have hd := e3 b1
  rw [← e1, f1, f3] at hd
  injection hd with hd hb
  injection hb with hb
  subst hd hb
  obtain ⟨smil1, c1, s1, s2, s3⟩ := body_parts e4
  obtain ⟨smil2, c2, t1, t2, t3⟩ := body_parts f4
  obtain ⟨u1, u2⟩ := uintvar_unique (s3.symm.trans t3)
  subst u2
  have hall : ∀ {env : Env} {m : Msg} {smil : Str}, Enclosed env m →
      ∀ p ∈ smilPart smil :: slideParts m.pages, WrittenPart env p := by
    intro env m smil hp p hmem
    rcases List.mem_cons.1 hmem with rfl | hmem
    · exact smilPart_written env smil
    · rw [slideParts_eq] at hmem
      exact hp.parts p hmem
  have hF := writtenParts_unique ho1 ho2 (hall hp1) (hall hp2) s2 t2
  rw [slideParts_eq, slideParts_eq] at hF
  cases hF with
  | cons hs hF =>
    obtain ⟨⟨data, g1, g2⟩, _⟩ := hs
    have g1 : Except.ok smil1 = (Except.ok data : Py Str) := g1
    have g2 : Except.ok smil2 = (Except.ok data : Py Str) := g2
    injection g1 with g1
    injection g2 with g2
    refine ⟨fun n => by rw [← e2, f2], ⟨smil1, s1, by rw [t1, g1, g2]⟩, hF, ?_⟩
    have hl := hF.length_eq
    have l1 := slideParts_length m1.pages
    have l2 := slideParts_length m2.pages
    rw [slideParts_eq] at l1 l2
    unfold numEntries at u1
    omega

/-- parts that bring their headers back, and files with usual names, are written down -/
theorem brought_written {env : Env} {p : DataPart} (h : Brought env p) : WrittenPart env p := by
  rcases h with ⟨media, data, h⟩ | ⟨media, data, t, h⟩
  · refine ⟨h.keys, ⟨media, h.ct, h.sends⟩, fun n v hg hn => ?_, ⟨data, h.read, h.len⟩⟩
    cases h.app n v hg hn with
    | app n s a b c => exact .app n s a b ⟨c.1, c.2.1⟩
    | numbered n s a c =>
      obtain ⟨g1, g2, _, _, i, _, hx, _⟩ := late_table n a
      exact .numbered n s (List.mem_of_getElem? (indexOf_get hx)) g1 g2 ⟨c.1, c.2.1⟩
    | accept s a => exact .accept s a
  · refine ⟨h.keys, ⟨media, h.ct, h.sends⟩, fun n v hg hn => ?_, ⟨data, h.read, h.len⟩⟩
    by_cases hl : n = py! "Content-Location"
    · rw [hl, h.loc] at hg
      injection hg with hg
      subst hg hl
      exact .numbered _ t (by decide) (by decide) (by decide) ⟨h.name.1, h.name.2.1⟩
    · rw [h.only n hn hl] at hg
      cases hg

theorem accent_enclosed (l : List DataPart) : Enclosed sampleEnv { accentMsg with dataParts := l } where
  ok := (by unfold Dict.Ok; decide : accentMsg.headers.Ok)
  settled := ⟨⟨_, rfl⟩, ⟨_, rfl⟩, ⟨_, rfl⟩, ⟨rfl, rfl, rfl⟩, fun _ => .inl ⟨_, rfl⟩⟩
  type := ⟨_, rfl, ⟨by decide, 97, rfl, by decide, by decide⟩, by decide⟩
  bytes := accent_bytes
  survive := accent_survives
  parts := fun p hp => brought_written (accent_brought p hp)

/-- a message with a loose part, encoded with another order of headers and another random id than a second message with the
same octets: that one has one loose part and the text of the slide as well -/
example (ord : Dict HVal → Dict HVal) (ho : ∀ d, (ord d).Perm d) (o : List Nat) (m1' m2' m2 : Msg) (env2 : Env)
    (hp : Enclosed env2 m2)
    (h1 : encode sampleEnv ord 1 { accentMsg with dataParts := [textPart (py! "loose")] } = .ok o m1')
    (h2 : encode env2 id 2 m2 = .ok o m2') : m2.dataParts.length = 1 ∧ (partsOf m2.pages).length = 1 := by
  obtain ⟨_, _, h3, h4⟩ := C95_determined_partial sampleEnv env2 ord id 1 2 _ m2 o m1' m2' ho
    (fun _ => List.Perm.refl _) (accent_enclosed _) hp h1 h2
  exact ⟨h4.symm, h3.length_eq.symm⟩

/-- the photo with its name and a header of its own with an unusual value; the library cannot read this part back -/
def taggedPhoto : DataPart := { samplePhoto with headers := samplePhoto.headers ++ [(py! "X-Tag", .v (.str [127, 200]))] }

example : WrittenPart sampleEnv taggedPhoto where
  keys := by unfold Dict.Ok; decide
  ct := ⟨py! "image/jpeg", rfl, ⟨by decide, 105, rfl, by decide, by decide⟩, by decide⟩
  headers := by
    intro n v h hn
    have hm : (n, v) ∈ taggedPhoto.headers := Dict.mem_of_get h
    simp only [taggedPhoto, samplePhoto, List.cons_append, List.nil_append, List.mem_cons, List.not_mem_nil, or_false] at hm
    rcases hm with h | h | h <;> injection h with h1 h2 <;> subst h1 h2
    · exact .numbered _ _ (by decide) (by decide) (by decide) (by unfold Closed; decide)
    · exact absurd rfl hn
    · exact .app _ _ (by unfold IsToken; decide) (by decide) (by unfold Closed; decide)
  data := ⟨_, rfl, rfl⟩

end Verif.Props

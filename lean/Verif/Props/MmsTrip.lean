import Verif.Props.MmsMsg
/-!
# Property of encoding and decoding whole messages (C47)
-/
set_option autoImplicit false

namespace Verif.Props
open Verif Verif.Mms
open Verif.Spec.Wsp Verif.Spec.Mms Verif.Spec.MmsEnc

/-- Any message that can be encoded is read back: the headers as set, a SMIL part, the parts of the slides with their
headers and data. -/
def C47_full : Prop := ∀ (env : Env) (ord : Dict HVal → Dict HVal) (rnd : Nat) (m : Msg) (o : List Nat) (m' : Msg),
  (∀ d, (ord d).Perm d) → m.headers.Ok → Settled m.headers → encode env ord rnd m = .ok o m' →
  ∃ m2 q qs, decodeData o = .ok m2 ∧ (∀ n, m2.headers.get n = m.headers.get n) ∧ m2.dataParts = q :: qs ∧
    (∃ smil, m.smil env = .ok smil ∧ q.data = some smil ∧ q.headers.get CT = some (.ct (py! "application/smil") [])) ∧
    List.Forall₂ (fun p q => (∀ n, q.headers.get n = p.headers.get n) ∧ p.readData env = q.readData env) (partsOf m.pages) qs

theorem slideParts_eq (pages : List Page) : slideParts pages = partsOf pages := by
  induction pages with
  | nil => rfl
  | cons p ps ih =>
    obtain ⟨dur, i, a, t⟩ := p
    unfold slideParts
    rw [ih]
    show _ = _ ++ partsOf ps
    congr 1
    cases i <;> cases a <;> cases t <;> rfl

theorem numEntries_lt {m : Msg} (h : 3 * m.pages.length + m.dataParts.length < 2 ^ 63 - 1) : numEntries m < 2 ^ 63 := by
  have key : ∀ ps : List Page, (ps.map Page.numberOfParts).sum ≤ 3 * ps.length := by
    intro ps
    induction ps with
    | nil => simp
    | cons p ps ih =>
      simp only [List.map_cons, List.sum_cons, List.length_cons]
      have : p.numberOfParts ≤ 3 := by
        unfold Page.numberOfParts
        split <;> split <;> split <;> omega
      omega
  have := key m.pages
  unfold numEntries
  omega

theorem smilPart_plain (env : Env) {smil : Str} (h : smil.length < 2 ^ 63) :
    PlainPart env (smilPart smil) (py! "application/smil") smil where
  keys := by unfold Dict.Ok; exact (by decide : [py! "Content-Type", py! "Content-ID"].Nodup)
  ct := rfl
  sends := ⟨⟨by decide, 97, rfl, by decide, by decide⟩, by decide⟩
  app := by
    intro n v hg hn
    have : n = py! "Content-ID" ∧ v = .v (.str (py! "<0000>")) := by
      have hm := Dict.mem_of_get hg
      simp only [smilPart, List.mem_cons, List.not_mem_nil, or_false, Prod.mk.injEq] at hm
      rcases hm with ⟨rfl, _⟩ | h
      · exact absurd rfl hn
      · exact h
    obtain ⟨rfl, rfl⟩ := this
    exact .app _ _ ⟨by decide, by decide⟩ (by decide +kernel) ⟨by decide, by decide, by decide⟩
  read := rfl
  len := rfl
  small := ⟨(by decide : (List.map entrySize (smilPart []).headers).sum < 2 ^ 63), h⟩

/-- headers the encoder has nothing to add to are sent as they are -/
theorem prepare_settled {d : Dict HVal} (hk : d.Ok) (h : Settled d) (rnd : Nat) (n : Str) :
    (prepareHeaders rnd d).get n = d.get n := by
  obtain ⟨⟨vt, ht⟩, ⟨vi, hi⟩, ⟨vv, hv⟩, ⟨x1, x2, x3⟩, hr⟩ := h
  by_cases hx : n = XT ∨ n = XI ∨ n = XV
  · rw [prepare_gone hk rnd hx]
    rcases hx with rfl | rfl | rfl
    · exact x1.symm
    · exact x2.symm
    · exact x3.symm
  simp only [not_or] at hx
  rw [prepare_get rnd d n hx]
  split
  · subst_vars
    rw [ht]
    unfold sentType
    rw [x1, ht]
    show some (if isStr (some vt) (py! "m-send-req") && !(d.has (py! "To") || d.has (py! "Cc") || d.has (py! "Bc")) then
      HVal.v (.str (py! "m-retrieve-conf")) else vt) = some vt
    rw [if_neg]
    intro hc
    simp only [Bool.and_eq_true, Bool.not_eq_true', Bool.or_eq_false_iff] at hc
    have hs := hc.1
    simp only [isStr, Bool.or_eq_true, decide_eq_true_eq] at hs
    rw [ht] at hr
    rcases hr hs with ⟨w, hw⟩ | ⟨w, hw⟩
    · have := hc.2.1.1
      unfold Dict.has at this
      rw [hw] at this
      cases this
    · have := hc.2.1.2
      unfold Dict.has at this
      rw [hw] at this
      cases this
  · split
    · subst_vars
      rw [x2, hi]
      rfl
    · split
      · subst_vars
        rw [x3, hv]
        rfl
      · rfl

/-- a part of a slide that can be sent -/
def Carried (env : Env) (part : DataPart) : Prop := ∃ media data, PlainPart env part media data ∨ FilePart env part media data

/-- what is read for a part is its data and its headers, but no Content-Location; it does not depend on any file of the
recipient -/
def ReadBack (env : Env) (p q : DataPart) : Prop :=
  (∃ data, p.readData env = .ok data ∧ q.data = some data ∧ ∀ env', q.readData env' = .ok data) ∧ ∀ n, q.headers.get n = if n = py! "Content-Location" then none else p.headers.get n

/-- For messages with faithful headers, a media type without parameters and slides made of texts and files, and without
loose data parts: encoding succeeds; decoding gives exactly the headers set; the first part is the SMIL presentation;
then come the parts of the slides in order, each with its content type, its other headers and its data.  Missing: the
Content-Location of files is lost (`C47_location`), and messages with loose data parts cannot be read at all
(`C47_loose`). -/
theorem C47_partial (env : Env) (ord : Dict HVal → Dict HVal) (rnd : Nat) (m : Msg) (media smil : Str)
    (ho : ∀ d, (ord d).Perm d) (hk : m.headers.Ok) (hset : Settled m.headers)
    (hct : m.headers.get CT = some (.ct media [])) (hm : Sends media)
    (hf : ∀ n v, m.headers.get n = some v → n ≠ CT → Faithful n v)
    (hsm : m.smil env = .ok smil) (hlen : smil.length < 2 ^ 63)
    (hp : ∀ p ∈ partsOf m.pages, Carried env p)
    (hd : m.dataParts = []) (hn : 3 * m.pages.length < 2 ^ 63 - 1) :
    ∃ o m' m2 q qs, encode env ord rnd m = .ok o m' ∧ decodeData o = .ok m2 ∧ (∀ n, m2.headers.get n = m.headers.get n) ∧
      m2.dataParts = q :: qs ∧
      q.data = some smil ∧ (∀ n, q.headers.get n = Dict.get [(CT, .ct (py! "application/smil") []),
        (py! "Content-ID", .v (.str (py! "<0000>")))] n) ∧
      List.Forall₂ (ReadBack env) (partsOf m.pages) qs := by
  have hP := prepare_settled hk hset rnd
  obtain ⟨o, h1, h2, _⟩ := message_ok (env := env) ho (rnd := rnd) hk hct hm (fun n v hg hc => faithful_ok (hf n v (by rw [← hP n]; exact hg) hc))
    (smil := smil) (R := fun p q => ∃ data, p.readData env = .ok data ∧ readPart p data q) hsm (by
      intro p hmem
      have hc : Carried env p := by
        rcases List.mem_cons.1 hmem with rfl | hmem
        · exact ⟨_, _, .inl (smilPart_plain env hlen)⟩
        · rw [slideParts_eq] at hmem
          exact hp p hmem
      obtain ⟨media, data, hc | hc⟩ := hc
      · obtain ⟨o, q, e1, e2, e3⟩ := plainPart_ok ho hc
        exact ⟨o, q, e1, ⟨data, hc.read, e2⟩, e3⟩
      · obtain ⟨o, q, e1, e2, e3⟩ := filePart_ok ho hc
        exact ⟨o, q, e1, ⟨data, hc.read, e2⟩, e3⟩) (numEntries_lt (by rw [hd]; simpa using hn))
  obtain ⟨m2, g1, g2, g3⟩ := h2 hd
  have hconv : ∀ p q, (∃ data, p.readData env = .ok data ∧ readPart p data q) → ReadBack env p q := by
    rintro p q ⟨data, r1, _, r2, r3, r4⟩
    refine ⟨⟨data, r1, r3, fun env' => ?_⟩, r4⟩
    unfold DataPart.readData
    rw [r3]
  rw [slideParts_eq] at g3
  cases hq : m2.dataParts with
  | nil => rw [hq] at g3; cases g3
  | cons q qs =>
    rw [hq] at g3
    cases g3 with
    | cons hh ht =>
      refine ⟨o, _, m2, q, qs, h1, g1, fun n => by rw [g2, hP], hq, ?_, ?_, ht.imp hconv⟩
      · obtain ⟨data, r1, _, _, r3, _⟩ := hh
        rw [r3]
        injection r1 with r1
        rw [← r1]
      · obtain ⟨data, _, _, _, _, r4⟩ := hh
        intro n
        rw [r4]
        by_cases e : n = py! "Content-Location"
        · subst e; rfl
        · rw [if_neg e]; rfl

/-- Loose data parts are counted but not sent: a message that has any is encoded to something that cannot be decoded. -/
theorem C47_loose (env : Env) (ord : Dict HVal → Dict HVal) (rnd : Nat) (m : Msg) (media smil : Str)
    (ho : ∀ d, (ord d).Perm d) (hk : m.headers.Ok) (hset : Settled m.headers)
    (hct : m.headers.get CT = some (.ct media [])) (hm : Sends media)
    (hf : ∀ n v, m.headers.get n = some v → n ≠ CT → Faithful n v)
    (hsm : m.smil env = .ok smil) (hlen : smil.length < 2 ^ 63)
    (hp : ∀ p ∈ partsOf m.pages, Carried env p)
    (hd : m.dataParts ≠ []) (hn : 3 * m.pages.length + m.dataParts.length < 2 ^ 63 - 1) :
    ∃ o m', encode env ord rnd m = .ok o m' ∧ decodeData o = .error .stopIteration := by
  have hP := prepare_settled hk hset rnd
  obtain ⟨o, h1, _, h3⟩ := message_ok (env := env) ho (rnd := rnd) hk hct hm (fun n v hg hc => faithful_ok (hf n v (by rw [← hP n]; exact hg) hc))
    (smil := smil) (R := fun _ _ => True) hsm (by
      intro p hmem
      have hc : Carried env p := by
        rcases List.mem_cons.1 hmem with rfl | hmem
        · exact ⟨_, _, .inl (smilPart_plain env hlen)⟩
        · rw [slideParts_eq] at hmem
          exact hp p hmem
      obtain ⟨media, data, hc | hc⟩ := hc
      · obtain ⟨o, q, e1, e2, e3⟩ := plainPart_ok ho hc
        exact ⟨o, q, e1, trivial, e3⟩
      · obtain ⟨o, q, e1, e2, e3⟩ := filePart_ok ho hc
        exact ⟨o, q, e1, trivial, e3⟩) (numEntries_lt hn)
  exact ⟨o, _, h1, h3 hd⟩

/-! the parts made by the library can be sent -/

/-- A text of any bytes (less than 8 EiB) can be carried. -/
theorem C47_text (env : Env) (t : Str) (p0 p : DataPart) (h : DataPart.setText t p0 = .ok () p) (ht : t.length < 2 ^ 63) :
    Carried env p := by
  injection h with _ h
  subst h
  refine ⟨py! "text/plain", t, .inl ⟨by unfold Dict.Ok; simp, rfl, ⟨⟨by decide, 116, rfl, by decide, by decide⟩, by decide⟩, ?_, rfl, rfl,
    (by decide : (List.map entrySize [(CT, HVal.ct (py! "text/plain") [])]).sum < 2 ^ 63), ht⟩⟩
  intro n v hg hn
  have hm := Dict.mem_of_get hg
  simp only [List.mem_cons, List.not_mem_nil, or_false, Prod.mk.injEq] at hm
  exact absurd hm.1 hn

/-- Data of any media type without parameters can be carried. -/
theorem C47_data (env : Env) (t media : Str) (p0 p : DataPart) (h : DataPart.setData t media [] p0 = .ok () p)
    (ht : t.length < 2 ^ 63) (hm : Sends media) (hl : media.length < 2 ^ 62) : Carried env p := by
  injection h with _ h
  subst h
  refine ⟨media, t, .inl ⟨by unfold Dict.Ok; simp, rfl, hm, ?_, rfl, rfl, ?_, ht⟩⟩
  · intro n v hg hn
    have hm := Dict.mem_of_get hg
    simp only [List.mem_cons, List.not_mem_nil, or_false, Prod.mk.injEq] at hm
    exact absurd hm.1 hn
  · simp only [List.map_cons, List.map_nil, List.sum_cons, List.sum_nil, entrySize]
    omega

/-- A file whose base name is a token can be carried, if it is still there when the message is encoded. -/
theorem C47_file (env : Env) (f c : Str) (p : DataPart) (h : DataPart.ofFile env f = .ok p) (hc : env.files f = some c)
    (hb : IsToken (DataPart.basename f)) (hs : ∀ media, env.mime f = some media → Sends media ∧ media.length < 2 ^ 61)
    (hl : (DataPart.basename f).length < 2 ^ 61 ∧ c.length < 2 ^ 63) : Carried env p := by
  unfold DataPart.ofFile DataPart.fromFile at h
  rw [hc] at h
  injection h with h
  subst h
  have hmm : Sends ((env.mime f).getD (py! "application/octet-stream")) ∧ ((env.mime f).getD (py! "application/octet-stream")).length < 2 ^ 61 := by
    cases hme : env.mime f with
    | none => exact ⟨⟨⟨by decide, 97, rfl, by decide, by decide⟩, by decide⟩, by decide⟩
    | some x => exact hs x hme
  refine ⟨_, c, .inr ⟨by unfold Dict.Ok; exact (by decide : [py! "Content-Location", py! "Content-Type"].Nodup), rfl, hmm.1,
    ⟨_, rfl, hb⟩, ?_, ?_, ?_, ?_, hl.2⟩⟩
  · intro n h1 h2
    show Dict.get [(py! "Content-Location", _), (py! "Content-Type", _)] n = none
    simp only [Dict.get]
    rw [if_neg (fun e => h2 e.symm), if_neg (fun e => h1 e.symm)]
  · unfold DataPart.readData
    simp only [hc]
  · unfold DataPart.len
    simp only [hc]
  · show (List.map entrySize [(py! "Content-Location", _), (py! "Content-Type", _)]).sum < _
    simp only [List.map_cons, List.map_nil, List.sum_cons, List.sum_nil, entrySize, List.length_cons, List.length_nil]
    have := hmm.2
    have := hl.1
    omega

/-- The location of a part made from a file does not survive. -/
theorem C47_location (env : Env) (p q : DataPart) (h : ReadBack env p q) (s : Str)
    (hp : p.headers.get (py! "Content-Location") = some (.v (.str s))) :
    q.headers.get (py! "Content-Location") ≠ p.headers.get (py! "Content-Location") := by
  rw [h.2, hp, if_pos rfl]
  exact fun h => by cases h

/-! a message with a photo and a text -/

def samplePhoto : DataPart := { ctParams := [], filename := some (py! "/tmp/a.jpg"), data := (none : Option Str), headers := [(py! "Content-Location", .v (.str (py! "a.jpg"))), (py! "Content-Type", .ct (py! "image/jpeg") [])] }

def photoMsg : Msg := { withHeader (py! "To") (.v (.str (py! "+34600000000"))) with
  pages := [{ Page.new with image := some (samplePhoto, 0, 0), text := some (textPart (py! "hello"), 0, 0) }] }

theorem photo_made : DataPart.ofFile sampleEnv (py! "/tmp/a.jpg") = .ok samplePhoto := rfl

theorem photo_carried : ∀ p ∈ partsOf photoMsg.pages, Carried sampleEnv p := by
  intro p hp
  have : p = samplePhoto ∨ p = textPart (py! "hello") := by
    have hp : p ∈ [samplePhoto, textPart (py! "hello")] := hp
    simpa using hp
  rcases this with rfl | rfl
  · refine C47_file sampleEnv _ [1, 2, 3] _ photo_made rfl ?_ ?_ ⟨by decide, by decide⟩
    · exact ⟨by decide, by decide⟩
    · intro media h
      injection h with h
      subst h
      exact ⟨⟨⟨by decide, 105, rfl, by decide, by decide⟩, by decide⟩, by decide⟩
  · exact C47_text sampleEnv (py! "hello") DataPart.new _ rfl (by decide)

theorem sample_ok : photoMsg.headers.Ok := by unfold Dict.Ok; decide

theorem sample_settled : Settled photoMsg.headers :=
  ⟨⟨_, rfl⟩, ⟨_, rfl⟩, ⟨_, rfl⟩, ⟨rfl, rfl, rfl⟩, fun _ => .inl ⟨_, rfl⟩⟩

theorem sample_faithful : ∀ n v, photoMsg.headers.get n = some v → n ≠ CT → Faithful n v := by
  intro n v hg hn
  have hm := Dict.mem_of_get hg
  have e : photoMsg.headers = [(MT, .v (.str (py! "m-send-req"))), (TI, .v (.str (py! "1234"))),
      (MV, .v (.str (py! "1.0"))), (CT, .ct (py! "application/vnd.wap.multipart.mixed") []),
      (py! "To", .v (.str (py! "+34600000000")))] := rfl
  rw [e] at hm
  simp only [List.mem_cons, List.not_mem_nil, or_false, Prod.mk.injEq] at hm
  rcases hm with ⟨rfl, rfl⟩ | ⟨rfl, rfl⟩ | ⟨rfl, rfl⟩ | ⟨rfl, rfl⟩ | ⟨rfl, rfl⟩
  · exact .type _ (by decide)
  · exact .transactionId _ ⟨by decide, by decide, by decide⟩
  · have := Faithful.version 1 0 (by decide)
    have e : dotted 1 0 = py! "1.0" := by decide +kernel
    rwa [e] at this
  · exact absurd rfl hn
  · exact .text .to _ ⟨by decide, by decide, 43, rfl, by decide, by decide⟩

theorem sample_smil : ∃ smil, photoMsg.smil sampleEnv = .ok smil ∧ smil.length < 2 ^ 63 := by
  have : (match photoMsg.smil sampleEnv with | .ok s => decide (s.length < 1000) | .error _ => false) = true := by
    decide +kernel
  split at this
  · rename_i s hs
    exact ⟨s, hs, Nat.lt_trans (of_decide_eq_true this) (by decide)⟩
  · cases this

/-- the hypotheses of `C47_partial` hold for the message with a photo -/
theorem photo_trip (ord : Dict HVal → Dict HVal) (ho : ∀ d, (ord d).Perm d) (rnd : Nat) :
    ∃ o m' m2 q qs smil, encode sampleEnv ord rnd photoMsg = .ok o m' ∧ decodeData o = .ok m2 ∧
      (∀ n, m2.headers.get n = photoMsg.headers.get n) ∧ m2.dataParts = q :: qs ∧ q.data = some smil ∧
      List.Forall₂ (ReadBack sampleEnv) [samplePhoto, textPart (py! "hello")] qs := by
  obtain ⟨smil, hs, hl⟩ := sample_smil
  obtain ⟨o, m', m2, q, qs, h1, h2, h3, h4, h5, _, h6⟩ := C47_partial sampleEnv ord rnd photoMsg
    (py! "application/vnd.wap.multipart.mixed") smil ho sample_ok sample_settled rfl
    ⟨⟨by decide, 97, rfl, by decide, by decide⟩, by decide⟩ sample_faithful hs hl photo_carried rfl (by decide)
  exact ⟨o, m', m2, q, qs, smil, h1, h2, h3, h4, h5, h6⟩

theorem C47_refuted : ¬ C47_full := by
  intro h
  obtain ⟨o, m', m2, q, qs, smil, h1, h2, h3, h4, h5, h6⟩ := photo_trip id (fun d => List.Perm.refl d) 1234
  obtain ⟨m3, q', qs', g1, g2, g3, _, g5⟩ := h sampleEnv id 1234 photoMsg o m' (fun d => List.Perm.refl d) sample_ok sample_settled h1
  rw [h2] at g1
  injection g1 with g1
  subst g1
  rw [h4] at g3
  injection g3 with _ g3
  subst g3
  have hp : partsOf photoMsg.pages = [samplePhoto, textPart (py! "hello")] := rfl
  rw [hp] at g5
  cases h6 with
  | cons a _ =>
    cases g5 with
    | cons b _ => exact C47_location sampleEnv samplePhoto _ a (py! "a.jpg") rfl (b.1 _)

/-- the hypotheses of `C47_loose` hold for the message with a photo and a loose part -/
example (ord : Dict HVal → Dict HVal) (ho : ∀ d, (ord d).Perm d) (rnd : Nat) :
    ∃ o m', encode sampleEnv ord rnd { photoMsg with dataParts := [samplePhoto] } = .ok o m' ∧
      decodeData o = .error .stopIteration := by
  obtain ⟨smil, hs, hl⟩ := sample_smil
  exact C47_loose sampleEnv ord rnd { photoMsg with dataParts := [samplePhoto] } (py! "application/vnd.wap.multipart.mixed") smil ho
    sample_ok sample_settled rfl ⟨⟨by decide, 97, rfl, by decide, by decide⟩, by decide⟩ sample_faithful hs hl photo_carried
    (by simp) (by decide)

end Verif.Props

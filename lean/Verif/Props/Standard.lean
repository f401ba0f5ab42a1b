import Verif.Proofs.Standard2
import Verif.Props.MmsTrip
/-!
# What is sent is MMS as WAP-209 and WAP-230 have it (C114)
-/
set_option autoImplicit false

namespace Verif.Props
open Verif Verif.Mms
open Verif.Spec.Wsp Verif.Spec.Mms Verif.Spec.MmsEnc Verif.Spec.Standard

/-- A header that is accepted and that has an encoding in WAP-209 is written in one. -/
def C114_full : Prop := ∀ (n : Str) (v : HVal) (l : List Nat), headerOctets n v = .ok l →
  (∃ h : Hdr, h.Conf ∧ h.name = n ∧ h.value = v) → Written n v l

/-- Which headers are written as WAP-209 has them: exactly the standard ones. -/
theorem C114_header (n : Str) (v : HVal) (l : List Nat) (h : headerOctets n v = .ok l) : Written n v l ↔ Standard n v := by
  constructor
  · rintro ⟨x, h1, rfl, rfl, h4⟩
    exact sent_standard x h1 (by rw [h, h4])
  · intro hs
    obtain ⟨x, h1, h2, h3, h4⟩ := standard_sent hs
    rw [h] at h4
    injection h4 with h4
    exact ⟨x, h1, h2, h3, h4.symm⟩

/-- The standard headers are always accepted. -/
theorem C114_accepted (n : Str) (v : HVal) (h : Standard n v) : ∃ l, headerOctets n v = .ok l ∧ Written n v l := by
  obtain ⟨x, h1, h2, h3, h4⟩ := standard_sent h
  exact ⟨x.enc, h4, x, h1, h2, h3, rfl⟩

/-- Which media types without parameters are written as WAP-230 has them: exactly the standard ones. -/
theorem C114_media (m l : Str) (h : Carries m [] l) : WrittenMedia m l ↔ StandardMedia m := by
  refine ⟨media_standard h, fun hs => ?_⟩
  obtain ⟨c, h1, h2, h3, h4, h5, _⟩ := media_sent hs
  obtain ⟨items, g1, g2⟩ := h
  rw [h4] at g1
  injection g1 with g1
  subst g1
  rw [flatten_ints, toOctets_ints h5] at g2
  injection g2 with g2
  exact ⟨c, h1, h2, h3, g2⟩

/-- The standard media types are always accepted. -/
theorem C114_media_accepted (m : Str) (h : StandardMedia m) : ∃ l, Carries m [] l ∧ WrittenMedia m l := by
  obtain ⟨c, h1, h2, h3, h4, h5, _⟩ := media_sent h
  exact ⟨c.enc, ⟨_, h4, by rw [flatten_ints, toOctets_ints h5]⟩, c, h1, h2, h3, rfl⟩

/-- Which headers of a part, Content-Location or one without a number, are written as WAP-230 has them: exactly the
standard ones. -/
theorem C114_part_header (n s : Str) (i : List Item) (l : List Nat) (hn : n = py! "Content-Location" ∨ n ∉ wspNames)
    (h : encodeWspHeader n (.v (.str s)) = .ok i) (ho : toOctets i = .ok l) : WrittenPart n s l ↔ StandardP n s := by
  refine ⟨partHeader_standard hn h ho, fun hs => ?_⟩
  obtain ⟨x, h1, h2, h3, h4, h5, _⟩ := partHeader_sent hs
  rw [h] at h4
  injection h4 with h4
  subst h4
  rw [toOctets_ints h5] at ho
  injection ho with ho
  exact ⟨x, h1, h2, h3, ho⟩

/-- the SMIL part is a standard one -/
theorem smilPart_standard (env : Env) {smil : Str} (h : smil.length < 2 ^ 63) :
    StandardPart env (smilPart smil) (py! "application/smil") smil where
  keys := by unfold Dict.Ok; exact (by decide : [py! "Content-Type", py! "Content-ID"].Nodup)
  ct := rfl
  media := ⟨⟨⟨by decide, 97, rfl, by decide, by decide⟩, by decide⟩, by decide⟩
  headers := by
    intro n v hg hn
    have : n = py! "Content-ID" ∧ v = .v (.str (py! "<0000>")) := by
      have hm := Dict.mem_of_get hg
      simp only [smilPart, List.mem_cons, List.not_mem_nil, or_false, Prod.mk.injEq] at hm
      rcases hm with ⟨rfl, _⟩ | h
      · exact absurd rfl hn
      · exact h
    obtain ⟨rfl, rfl⟩ := this
    exact ⟨_, rfl, .app _ _ ⟨by decide, by decide⟩ (by decide +kernel) ⟨by decide, by decide, by decide⟩⟩
  read := rfl
  len := rfl
  small := ⟨(by decide : (List.map entrySize (smilPart []).headers).sum < 2 ^ 63), h⟩

/-- `C114_partial`, with the forms that are used -/
theorem message_sent (env : Env) (ord : Dict HVal → Dict HVal) (rnd : Nat) (m : Msg) (media smil : Str)
    (ho : ∀ d, (ord d).Perm d) (hk : m.headers.Ok) (hset : Settled m.headers)
    (hct : m.headers.get CT = some (.ct media [])) (hm : StandardMedia media)
    (hf : ∀ n v, m.headers.get n = some v → n ≠ CT → Standard n v)
    (hsm : m.smil env = .ok smil) (hlen : smil.length < 2 ^ 63)
    (hp : ∀ p ∈ partsOf m.pages, ∃ media data, StandardPart env p media data)
    (hd : m.dataParts = []) :
    ∃ (hs : List Hdr) (c : CType) (q : Part) (ps : List Part) (m' : Msg),
      encode env ord rnd m = .ok (hs.flatMap Hdr.enc ++ 0x84 :: c.enc ++ multipart (q :: ps)) m' ∧
      (∀ h ∈ hs, h.Conf) ∧ c.Conf ∧ (∀ p ∈ q :: ps, p.Conf) ∧
      (hs.map Hdr.name).take 3 = [MT, TI, MV] ∧ (hs.map Hdr.name).Nodup ∧ CT ∉ hs.map Hdr.name ∧
      (∀ n, n ≠ CT → lastValue hs n = m.headers.get n) ∧ c.media = media ∧ c.params = [] ∧
      q.ctype.media = py! "application/smil" ∧ q.data = smil ∧
      lastPartValue q.headers (py! "Content-ID") = some (py! "<0000>") ∧ List.Forall₂ (Says env) (partsOf m.pages) ps ∧
      (∀ h ∈ hs, SentForm h) ∧ (∃ M, c = .constrained M) ∧ ∀ p ∈ q :: ps, ∃ M, p.ctype = .constrained M := by
  have hP := prepare_settled hk hset rnd
  obtain ⟨hs, c, h1, h2, h3, h3', h4, h5, h6, h7, h8, h9⟩ := headers_sent ho (rnd := rnd) (m := m) rfl (prepare_ok hk rnd)
    (by rw [hP, hct]) hm (fun n v hg hc => hf n v (by rw [← hP n]; exact hg) hc)
  obtain ⟨q, q1, q2, q3, q5, q4⟩ := part_sent ho (smilPart_standard env hlen)
  obtain ⟨ps, p1, p2, p3⟩ := parts_sent (env := env) (ord := ord) (ps := partsOf m.pages) (by
    intro p hmem
    obtain ⟨media, data, hs⟩ := hp p hmem
    obtain ⟨x, x1, x2, _, x4, x5⟩ := part_sent ho hs
    exact ⟨x, x1, x2, x4, x5⟩)
  have hl : numEntries m = (q :: ps).length := by
    unfold numEntries
    rw [List.length_cons, ← p2.length_eq, ← slideParts_eq, slideParts_length, hd, List.length_nil]
    omega
  have hb : encodeMessageBody env ord { m with headers := restHeaders (prepareHeaders rnd m.headers) }
      = .ok (multipart (q :: ps)) := by
    have hu : toOctets (ints (encodeUintVar ((numEntries m : Nat) : Int))) = .ok (uintvar (numEntries m)) := by
      have := toOctets_ints (uintvar_lt (numEntries m))
      unfold toInts at this
      rw [encodeUintVar_eq, this]
    have hs' : ({ m with headers := restHeaders (prepareHeaders rnd m.headers) } : Msg).smil env = .ok smil := hsm
    have hn' : numEntries { m with headers := restHeaders (prepareHeaders rnd m.headers) } = numEntries m := rfl
    unfold encodeMessageBody
    simp only [hn', hu, hs', slideParts_eq, encodeParts, q4, p3, bind, Except.bind, multipart, List.flatMap_cons, ← hl]
  refine ⟨hs, c, q, ps, { m with headers := restHeaders (prepareHeaders rnd m.headers) }, ?_, fun h hm => (h2 h hm).1, h3, ?_, h6, h7, h8,
    fun n hn => by rw [h9 n hn, hP], h4, h5, ?_, q3, ?_, p2, fun h hm => (h2 h hm).2, h3', ?_⟩
  · unfold encode
    rw [M.bind_ok h1]
    simp only [bind, M.bind, M.get, M.lift, pure, M.pure, hb]
  · intro p hmem
    rcases List.mem_cons.1 hmem with rfl | hmem
    · exact q1
    · exact (p1 p hmem).1
  · have := q2.1
    have e : (smilPart smil).headers.get CT = some (.ct (py! "application/smil") []) := rfl
    rw [e] at this
    injection this with this
    injection this with this
    exact this.symm
  · have := q2.2.2.2.2.2 (py! "Content-ID") (by decide)
    have e : (smilPart smil).headers.get (py! "Content-ID") = some (.v (.str (py! "<0000>"))) := rfl
    rw [e] at this
    cases hv : lastPartValue q.headers (py! "Content-ID") with
    | none => rw [hv] at this; cases this
    | some x =>
      rw [hv] at this
      injection this with this
      injection this with this
      injection this with this
      rw [← this]
  · intro p hmem
    rcases List.mem_cons.1 hmem with rfl | hmem
    · exact q5
    · exact (p1 p hmem).2

/-- A message with standard headers, a standard media type, slides of standard parts and no loose parts is sent as one
WAP-209 message with a WAP-230 multipart body: first Message-Type, Transaction-Id and MMS-Version, then the other headers,
each once, the Content-Type last; as many entries as announced, the SMIL presentation first, then the parts of the slides
in order.  Nothing set is left out and nothing is added.  Missing: the other headers (`C114_header` says which, and
`C114_refuted` that there are some), content types with parameters (wrong length, `C43_never`) and loose parts
(announced, not sent, `C47_loose`). -/
theorem C114_partial (env : Env) (ord : Dict HVal → Dict HVal) (rnd : Nat) (m : Msg) (media smil : Str)
    (ho : ∀ d, (ord d).Perm d) (hk : m.headers.Ok) (hset : Settled m.headers)
    (hct : m.headers.get CT = some (.ct media [])) (hm : StandardMedia media)
    (hf : ∀ n v, m.headers.get n = some v → n ≠ CT → Standard n v)
    (hsm : m.smil env = .ok smil) (hlen : smil.length < 2 ^ 63)
    (hp : ∀ p ∈ partsOf m.pages, ∃ media data, StandardPart env p media data)
    (hd : m.dataParts = []) :
    ∃ (hs : List Hdr) (c : CType) (q : Part) (ps : List Part) (m' : Msg),
      encode env ord rnd m = .ok (hs.flatMap Hdr.enc ++ 0x84 :: c.enc ++ multipart (q :: ps)) m' ∧
      (∀ h ∈ hs, h.Conf) ∧ c.Conf ∧ (∀ p ∈ q :: ps, p.Conf) ∧
      (hs.map Hdr.name).take 3 = [MT, TI, MV] ∧ (hs.map Hdr.name).Nodup ∧ CT ∉ hs.map Hdr.name ∧
      (∀ n, n ≠ CT → lastValue hs n = m.headers.get n) ∧ c.media = media ∧ c.params = [] ∧
      q.ctype.media = py! "application/smil" ∧ q.data = smil ∧
      lastPartValue q.headers (py! "Content-ID") = some (py! "<0000>") ∧ List.Forall₂ (Says env) (partsOf m.pages) ps := by
  obtain ⟨hs, c, q, ps, m', h1, h2, h3, h4, h5, h6, h7, h8, h9, h10, h11, h12, h13, h14, _⟩ :=
    message_sent env ord rnd m media smil ho hk hset hct hm hf hsm hlen hp hd
  exact ⟨hs, c, q, ps, m', h1, h2, h3, h4, h5, h6, h7, h8, h9, h10, h11, h12, h13, h14⟩

/-- The text of a slide is a standard part. -/
theorem C114_text (env : Env) (t : Str) (p0 p : DataPart) (h : DataPart.setText t p0 = .ok () p) (ht : t.length < 2 ^ 63) :
    StandardPart env p (py! "text/plain") t := by
  injection h with _ h
  subst h
  refine ⟨by unfold Dict.Ok; simp, rfl, ⟨⟨⟨by decide, 116, rfl, by decide, by decide⟩, by decide⟩, by decide⟩, ?_, rfl, rfl,
    (by decide : (List.map entrySize [(CT, HVal.ct (py! "text/plain") [])]).sum < 2 ^ 63), ht⟩
  intro n v hg hn
  have hm := Dict.mem_of_get hg
  simp only [List.mem_cons, List.not_mem_nil, or_false, Prod.mk.injEq] at hm
  exact absurd hm.1 hn

/-- A file whose base name is plain text is a standard part, if it is still there when the message is encoded. -/
theorem C114_file (env : Env) (f c : Str) (p : DataPart) (h : DataPart.ofFile env f = .ok p) (hc : env.files f = some c)
    (hb : PlainText (DataPart.basename f)) (hs : ∀ media, env.mime f = some media → StandardMedia media ∧ media.length < 2 ^ 61)
    (hl : (DataPart.basename f).length < 2 ^ 61 ∧ c.length < 2 ^ 63) : ∃ media, StandardPart env p media c := by
  unfold DataPart.ofFile DataPart.fromFile at h
  rw [hc] at h
  injection h with h
  subst h
  have hmm : StandardMedia ((env.mime f).getD (py! "application/octet-stream")) ∧ ((env.mime f).getD (py! "application/octet-stream")).length < 2 ^ 61 := by
    cases hme : env.mime f with
    | none => exact ⟨⟨⟨⟨by decide, 97, rfl, by decide, by decide⟩, by decide⟩, by decide⟩, by decide⟩
    | some x => exact hs x hme
  refine ⟨_, by unfold Dict.Ok; exact (by decide : [py! "Content-Location", py! "Content-Type"].Nodup), rfl, hmm.1, ?_, ?_, ?_, ?_, hl.2⟩
  · intro n v hg hn
    have hm : (n, v) ∈ [(py! "Content-Location", HVal.v (.str (DataPart.basename f))), (py! "Content-Type", _)] := Dict.mem_of_get hg
    simp only [List.mem_cons, List.not_mem_nil, or_false, Prod.mk.injEq] at hm
    rcases hm with ⟨rfl, rfl⟩ | ⟨rfl, _⟩
    · exact ⟨_, rfl, .location _ hb⟩
    · exact absurd rfl hn
  · unfold DataPart.readData
    simp only [hc]
  · unfold DataPart.len
    simp only [hc]
  · show (List.map entrySize [(py! "Content-Location", _), (py! "Content-Type", _)]).sum < _
    simp only [List.map_cons, List.map_nil, List.sum_cons, List.sum_nil, entrySize, List.length_cons, List.length_nil]
    have := hmm.2
    have := hl.1
    omega

/-- A Subject of two octets, "é" in UTF-8, is accepted and could be sent, but the Quote octet that WAP-230 asks for is
missing. -/
theorem C114_refuted : ¬ C114_full := by
  intro h
  have he : headerOctets (py! "Subject") (.v (.str [195, 169])) = .ok [0x96, 195, 169, 0] := by decide +kernel
  have := (C114_header _ _ _ he).1 (h _ _ _ he ⟨.str .subject [195, 169], (show 0 ∉ [195, 169] by decide), rfl, rfl⟩)
  generalize hn : py! "Subject" = n at this
  generalize hv : HVal.v (.str [195, 169]) = v at this
  cases this with
  | text f s h => cases hv; exact absurd (h.2.2 195 rfl) (by decide)
  | sender s h hs => cases hv; exact absurd (h.2.2 195 rfl) (by decide)
  | messageId s h => cases hv; exact absurd (h.2.2 195 rfl) (by decide)
  | transactionId s h => cases hv; exact absurd (h.2.2 195 rfl) (by decide)
  | type s h => exact absurd hn (by decide)
  | version a b h => exact absurd hn (by decide)
  | versionMajor a h => exact absurd hn (by decide)
  | status s h => exact absurd hn (by decide)
  | size o h => exact absurd hn (by decide)
  | app n s hn' hf h => cases hv; exact absurd (h.2.2 195 rfl) (by decide)

/-! Cases. -/

/-- a Subject, a sender, a version and a header of the application -/
example : Standard (py! "Subject") (.v (.str (py! "photo"))) :=
  .text .subject _ ⟨by decide, by decide, fun c hc => by injection hc with hc; subst hc; decide⟩

example : headerOctets (py! "Subject") (.v (.str (py! "photo"))) = .ok (0x96 :: py! "photo" ++ [0]) ∧
    Written (py! "Subject") (.v (.str (py! "photo"))) (0x96 :: py! "photo" ++ [0]) :=
  have h : headerOctets (py! "Subject") (.v (.str (py! "photo"))) = .ok (0x96 :: py! "photo" ++ [0]) := by decide +kernel
  ⟨h, (C114_header _ _ _ h).2 (.text .subject _ ⟨by decide, by decide, fun c hc => by injection hc with hc; subst hc; decide⟩)⟩

/-- an empty sender is accepted, but what is written says that the sender is to be filled in -/
example : headerOctets (py! "From") (.v (.str [])) = .ok [0x89, 1, 129] ∧ ¬ Written (py! "From") (.v (.str [])) [0x89, 1, 129] := by
  have h : headerOctets (py! "From") (.v (.str [])) = .ok [0x89, 1, 129] := by decide +kernel
  refine ⟨h, fun hw => ?_⟩
  have := (C114_header _ _ _ h).1 hw
  generalize hn : py! "From" = n at this
  generalize hv : HVal.v (.str []) = v at this
  cases this with
  | text f s h => cases f <;> exact absurd hn (by decide)
  | sender s h hs => cases hv; exact hs rfl
  | messageId s h => exact absurd hn (by decide)
  | transactionId s h => exact absurd hn (by decide)
  | type s h => exact absurd hn (by decide)
  | version a b h => exact absurd hn (by decide)
  | versionMajor a h => exact absurd hn (by decide)
  | status s h => exact absurd hn (by decide)
  | size o h => exact absurd hn (by decide)
  | app n s hn' hf h => exact hf (by rw [← hn]; decide)

/-- a media type with a number, one without, and the misspelt one -/
example : StandardMedia (py! "image/jpeg") ∧ StandardMedia (py! "video/mp4") ∧ ¬ StandardMedia (py! "multipart/byterantes") :=
  ⟨⟨⟨⟨by decide, 105, rfl, by decide, by decide⟩, by decide⟩, by decide⟩,
    ⟨⟨⟨by decide, 118, rfl, by decide, by decide⟩, by decide⟩, by decide⟩, fun h => h.2 rfl⟩

example : ∃ i l, encodeWspHeader (py! "Content-Location") (.v (.str (py! "a.jpg"))) = .ok i ∧ toOctets i = .ok l ∧
    WrittenPart (py! "Content-Location") (py! "a.jpg") l :=
  have hs : StandardP (py! "Content-Location") (py! "a.jpg") :=
    .location _ ⟨by decide, by decide, fun c hc => by injection hc with hc; subst hc; decide⟩
  have h : encodeWspHeader (py! "Content-Location") (.v (.str (py! "a.jpg"))) = .ok (ints (toInts (0x8e :: (py! "a.jpg" ++ [0])))) := by
    decide +kernel
  ⟨_, _, h, toOctets_ints (by decide), (C114_part_header _ _ _ _ (.inl rfl) h (toOctets_ints (by decide))).2 hs⟩

theorem photo_standard : ∀ n v, photoMsg.headers.get n = some v → n ≠ CT → Standard n v := by
  intro n v hg hn
  have hm := Dict.mem_of_get hg
  have e : photoMsg.headers = [(MT, .v (.str (py! "m-send-req"))), (TI, .v (.str (py! "1234"))),
      (MV, .v (.str (py! "1.0"))), (CT, .ct (py! "application/vnd.wap.multipart.mixed") []),
      (py! "To", .v (.str (py! "+34600000000")))] := rfl
  rw [e] at hm
  simp only [List.mem_cons, List.not_mem_nil, or_false, Prod.mk.injEq] at hm
  rcases hm with ⟨rfl, rfl⟩ | ⟨rfl, rfl⟩ | ⟨rfl, rfl⟩ | ⟨rfl, rfl⟩ | ⟨rfl, rfl⟩
  · exact .type _ (by decide)
  · exact .transactionId _ ⟨by decide, by decide, fun c hc => by injection hc with hc; subst hc; decide⟩
  · have := Standard.version 1 0 (by decide)
    have e : dotted 1 0 = py! "1.0" := by decide +kernel
    rwa [e] at this
  · exact absurd rfl hn
  · exact .text .to _ ⟨by decide, by decide, fun c hc => by injection hc with hc; subst hc; decide⟩

theorem photo_parts : ∀ p ∈ partsOf photoMsg.pages, ∃ media data, StandardPart sampleEnv p media data := by
  intro p hp
  have : p = samplePhoto ∨ p = textPart (py! "hello") := by
    have hp : p ∈ [samplePhoto, textPart (py! "hello")] := hp
    simpa using hp
  rcases this with rfl | rfl
  · obtain ⟨media, h⟩ := C114_file sampleEnv _ [1, 2, 3] _ photo_made rfl
      ⟨by decide, by decide, fun c hc => by injection hc with hc; subst hc; decide⟩ (by
        intro media h
        injection h with h
        subst h
        exact ⟨⟨⟨⟨by decide, 105, rfl, by decide, by decide⟩, by decide⟩, by decide⟩, by decide⟩) ⟨by decide, by decide⟩
    exact ⟨media, _, h⟩
  · exact ⟨_, _, C114_text sampleEnv (py! "hello") DataPart.new _ rfl (by decide)⟩

/-- the hypotheses of `C114_partial` hold for the message with a photo -/
example (ord : Dict HVal → Dict HVal) (ho : ∀ d, (ord d).Perm d) (rnd : Nat) :
    ∃ (hs : List Hdr) (c : CType) (q : Part) (ps : List Part) (m' : Msg), encode sampleEnv ord rnd photoMsg = .ok (hs.flatMap Hdr.enc ++ 0x84 :: c.enc ++ multipart (q :: ps)) m' ∧
      (∀ h ∈ hs, h.Conf) ∧ c.Conf ∧ (∀ p ∈ q :: ps, p.Conf) ∧ ps.length = 2 := by
  obtain ⟨smil, hs, hl⟩ := sample_smil
  obtain ⟨hs, c, q, ps, m', h1, h2, h3, h4, _, _, _, _, _, _, _, _, _, h5⟩ := C114_partial sampleEnv ord rnd photoMsg
    (py! "application/vnd.wap.multipart.mixed") smil ho sample_ok sample_settled rfl
    ⟨⟨⟨by decide, 97, rfl, by decide, by decide⟩, by decide⟩, by decide⟩ photo_standard hs hl photo_parts rfl
  exact ⟨hs, c, q, ps, m', h1, h2, h3, h4, by rw [← h5.length_eq]; rfl⟩

end Verif.Props

import Verif.Spec.Reader
import Verif.Proofs.Reader
import Verif.Props.Standard
/-!
# What other recipients read (C115)
-/
set_option autoImplicit false

namespace Verif.Props
open Verif Verif.Mms
open Verif.Spec.Wsp Verif.Spec.Mms Verif.Spec.MmsEnc Verif.Spec.Standard Verif.Spec.Reader

/-- A header that is written as WAP-209 has it is read in one way only: by that name, with that value, and what follows it
is left. -/
def C115_full : Prop := ∀ (n : Str) (v : HVal) (l : List Nat), headerOctets n v = .ok l → Standard n v →
  ∀ (h : Hdr) (r r' : List Nat), h.Conf → l ++ r = h.enc ++ r' → h.name = n ∧ h.value = v ∧ r = r'

theorem clear_hdr {n : Str} {v : HVal} {h : Hdr} (hk : Clear n v) (hn : h.name = n) (hv : h.value = v) : ClearHdr h := by
  subst hn hv
  cases h with
  | str f s => intro c hc; exact hk (by cases f <;> simp [Hdr.name, StrField.name, charsetFields]) s c rfl hc
  | fromAddr s => intro c hc; exact hk (by simp [Hdr.name, charsetFields]) s c rfl hc
  | _ => trivial

/-- For texts that do not begin with a control character this is so.  Missing: those that do (`C115_refuted`). -/
theorem C115_header_partial (n : Str) (v : HVal) (l : List Nat) (hl : headerOctets n v = .ok l) (hs : Standard n v) (hk : Clear n v)
    (h : Hdr) (r r' : List Nat) (hc : h.Conf) (e : l ++ r = h.enc ++ r') : h.name = n ∧ h.value = v ∧ r = r' := by
  obtain ⟨x, h1, h2, h3, h4, h5⟩ := standard_form hs
  rw [hl] at h5
  injection h5 with h5
  subst h5
  obtain ⟨rfl, rfl⟩ := hdr_unique h4 h1 (clear_hdr hk h2 h3) hc e
  exact ⟨h2, h3, rfl⟩

/-- Whoever reads a message of C114 and keeps to WAP-209 and WAP-230 reads what was set: the headers, first Message-Type,
Transaction-Id and MMS-Version, and each once; the content type; the presentation, then the parts of the slides in order,
each with its content type, its headers and its data.  There is no other way to read the octets. -/
theorem C115_partial (env : Env) (ord : Dict HVal → Dict HVal) (rnd : Nat) (m : Msg) (media smil : Str)
    (ho : ∀ d, (ord d).Perm d) (hk : m.headers.Ok) (hset : Settled m.headers)
    (hct : m.headers.get CT = some (.ct media [])) (hm : StandardMedia media)
    (hf : ∀ n v, m.headers.get n = some v → n ≠ CT → Standard n v ∧ Clear n v)
    (hsm : m.smil env = .ok smil) (hlen : smil.length < 2 ^ 63)
    (hp : ∀ p ∈ partsOf m.pages, ∃ media data, StandardPart env p media data)
    (hd : m.dataParts = []) :
    ∃ o m', encode env ord rnd m = .ok o m' ∧ (∃ hs c ps, Reads o hs c ps) ∧
      ∀ hs c ps, Reads o hs c ps →
        (hs.map Hdr.name).take 3 = [MT, TI, MV] ∧ (hs.map Hdr.name).Nodup ∧ CT ∉ hs.map Hdr.name ∧
        (∀ n, n ≠ CT → lastValue hs n = m.headers.get n) ∧ c.media = media ∧ c.params = [] ∧
        ∃ q qs, ps = q :: qs ∧ q.ctype.media = py! "application/smil" ∧ q.data = smil ∧
          lastPartValue q.headers (py! "Content-ID") = some (py! "<0000>") ∧ List.Forall₂ (Says env) (partsOf m.pages) qs := by
  obtain ⟨hs, c, q, ps, m', h1, h2, h3, h4, h5, h6, h7, h8, h9, h10, h11, h12, h13, h14, h15, h16, h17⟩ :=
    message_sent env ord rnd m media smil ho hk hset hct hm (fun n v hg hn => (hf n v hg hn).1) hsm hlen hp hd
  refine ⟨_, m', h1, ⟨hs, c, q :: ps, h2, h3, h4, rfl⟩, ?_⟩
  rintro hs' c' ps' ⟨r1, r2, r3, r4⟩
  rw [List.append_assoc, List.append_assoc, List.cons_append, List.cons_append] at r4
  obtain ⟨rfl, r5⟩ := hdrs_unique (fun h hm => ⟨h15 h hm, h2 h hm, by
    have hg : m.headers.get h.name = some h.value := by
      rw [← h8 h.name (fun e => h7 (e ▸ List.mem_map.2 ⟨h, hm, rfl⟩))]
      exact lastValue_of_nodup h6 hm
    exact clear_hdr (hf _ _ hg (fun e => h7 (e ▸ List.mem_map.2 ⟨h, hm, rfl⟩))).2 rfl rfl⟩) r1 r4
  obtain ⟨M, rfl⟩ := h16
  obtain ⟨rfl, r6⟩ := ctype_unique h3 r2 r5
  obtain rfl := parts_unique (fun p hm => ⟨h4 p hm, h17 p hm⟩) r3 r6
  exact ⟨h5, h6, h7, h8, h9, h10, q, ps, rfl, h11, h12, h13, h14⟩

/-- Of the texts accepted that begin with an octet from 128 on, nothing can be read by whoever keeps to the standard. -/
theorem C115_unquoted (f : StrField) (c : Nat) (t : Str) (l : List Nat) (hl : headerOctets f.name (.v (.str (c :: t))) = .ok l)
    (h128 : 128 ≤ c) (h : Hdr) (r r' : List Nat) (hc : h.Conf) : l ++ r ≠ h.enc ++ r' := by
  have hl' : l = (0x80 + f.num) :: (c :: t ++ [0]) := by
    cases f <;> exact (text_sent rfl (by decide) hl).1
  subst hl'
  intro e
  rcases inv_str hc e.symm with ⟨s, rfl⟩ | ⟨d, s, rfl⟩
  · simp only [Hdr.enc, List.cons_append, List.cons.injEq, true_and] at e
    rcases text_quoted s with ⟨q, hq⟩ | q
    · rw [q] at e
      cases s with
      | nil => injection e with e; omega
      | cons a s =>
        injection e with e
        have := hq a rfl
        omega
    · rw [q] at e
      injection e with e
      omega
  · simp only [Hdr.enc, List.cons_append, List.cons.injEq, true_and] at e
    unfold sized valueLength at e
    split at e
    · injection e with e; omega
    · injection e with e; omega

/-- Of a Message-Size everyone else reads the number with its octets in reverse order. -/
theorem C115_size (o : List Nat) (h8 : ∀ x ∈ o, x < 256) (h0 : o.head? ≠ some 0) (hlt : beVal o < 2 ^ 63) :
    ∃ l, headerOctets (py! "Message-Size") (.v (.int (beVal o))) = .ok l ∧
      ∀ (h : Hdr) (r r' : List Nat), h.Conf → l ++ r = h.enc ++ r' → h = .size o.reverse ∧ r = r' := by
  refine ⟨_, size_octets hlt, ?_⟩
  rw [leDigits_beVal o h8 h0]
  intro h r r' hc e
  obtain ⟨o', rfl⟩ := inv_size hc e.symm
  simp only [Hdr.enc, List.cons_append, List.cons.injEq, true_and] at e
  obtain ⟨rfl, rfl⟩ := longInt_cut e
  exact ⟨rfl, rfl⟩

/-- A Subject that begins with a control character is taken for one with a character set: "\\x03\\x84a" is read as "a". -/
theorem C115_refuted : ¬ C115_full := by
  intro h
  have hl : headerOctets (py! "Subject") (.v (.str [3, 132, 97])) = .ok [0x96, 3, 132, 97, 0] := by decide +kernel
  have := (h _ _ _ hl (.text .subject _ ⟨by decide, by decide, fun c hc => by injection hc with hc; subst hc; decide⟩)
    (.strCs .subject (.short 4) (py! "a")) [] [] ⟨(show 4 < 128 by decide), (show 0 ∉ [97] by decide)⟩ (by decide +kernel)).2.1
  revert this
  decide

/-! Cases. -/

theorem photo_clear : ∀ n v, photoMsg.headers.get n = some v → Clear n v := by
  intro n v hg hn s c hs hc
  have hm := Dict.mem_of_get hg
  have e : photoMsg.headers = [(MT, .v (.str (py! "m-send-req"))), (TI, .v (.str (py! "1234"))),
      (MV, .v (.str (py! "1.0"))), (CT, .ct (py! "application/vnd.wap.multipart.mixed") []),
      (py! "To", .v (.str (py! "+34600000000")))] := rfl
  rw [e] at hm
  simp only [List.mem_cons, List.not_mem_nil, or_false, Prod.mk.injEq] at hm
  rcases hm with ⟨rfl, rfl⟩ | ⟨rfl, rfl⟩ | ⟨rfl, rfl⟩ | ⟨rfl, rfl⟩ | ⟨rfl, rfl⟩
  · exact absurd hn (by decide)
  · exact absurd hn (by decide)
  · exact absurd hn (by decide)
  · exact absurd hn (by decide)
  · injection hs with hs
    injection hs with hs
    subst hs
    injection hc with hc
    subst hc
    decide

example : ∀ (h : Hdr) (r r' : List Nat), h.Conf → (0x96 :: py! "photo" ++ [0]) ++ r = h.enc ++ r' →
    h.name = py! "Subject" ∧ h.value = .v (.str (py! "photo")) ∧ r = r' :=
  C115_header_partial _ _ _ (by decide +kernel) (.text .subject _ ⟨by decide, by decide, fun c hc => by injection hc with hc; subst hc; decide⟩)
    (fun _ s c hs hc => by injection hs with hs; injection hs with hs; subst hs; injection hc with hc; subst hc; decide)

/-- "é" in UTF-8 -/
example : headerOctets (py! "Subject") (.v (.str [195, 169])) = .ok [0x96, 195, 169, 0] ∧
    ∀ (h : Hdr) (r r' : List Nat), h.Conf → [0x96, 195, 169, 0] ++ r ≠ h.enc ++ r' :=
  have h : headerOctets (py! "Subject") (.v (.str [195, 169])) = .ok [0x96, 195, 169, 0] := by decide +kernel
  ⟨h, C115_unquoted .subject 195 [169] _ h (by decide)⟩

/-- 258 is read as 513 -/
example : ∃ l, headerOctets (py! "Message-Size") (.v (.int 258)) = .ok l ∧
    ∀ (h : Hdr) (r r' : List Nat), h.Conf → l ++ r = h.enc ++ r' → h.value = .v (.int 513) := by
  obtain ⟨l, h1, h2⟩ := C115_size [1, 2] (by decide) (by decide) (by decide)
  exact ⟨l, h1, fun h r r' hc e => by rw [(h2 h r r' hc e).1]; decide⟩

/-- the hypotheses of `C115_partial` hold for the message with a photo -/
example (ord : Dict HVal → Dict HVal) (ho : ∀ d, (ord d).Perm d) (rnd : Nat) :
    ∃ o m', encode sampleEnv ord rnd photoMsg = .ok o m' ∧ (∃ hs c ps, Reads o hs c ps) ∧
      ∀ hs c ps, Reads o hs c ps → lastValue hs (py! "To") = some (.v (.str (py! "+34600000000"))) ∧ ps.length = 3 := by
  obtain ⟨smil, hs, hl⟩ := sample_smil
  obtain ⟨o, m', h1, h2, h3⟩ := C115_partial sampleEnv ord rnd photoMsg
    (py! "application/vnd.wap.multipart.mixed") smil ho sample_ok sample_settled rfl
    ⟨⟨⟨by decide, 97, rfl, by decide, by decide⟩, by decide⟩, by decide⟩ (fun n v hg hn => ⟨photo_standard n v hg hn, photo_clear n v hg⟩)
    hs hl photo_parts rfl
  refine ⟨o, m', h1, h2, fun hs c ps hr => ?_⟩
  obtain ⟨_, _, _, g, _, _, q, qs, rfl, _, _, _, g2⟩ := h3 hs c ps hr
  refine ⟨g _ (by decide), ?_⟩
  rw [List.length_cons, ← g2.length_eq]
  rfl

end Verif.Props

import Verif.Props.MmsTrip
import Verif.Props.Truncated
/-!
# C75: sending on a message that was received
-/
set_option autoImplicit false

namespace Verif.Props
open Verif Verif.Mms Verif.Spec.Wsp Verif.Spec.Mms Verif.Spec.MmsEnc

/-- the full property: every conformant message that was decoded can be encoded again; decoding that gives the headers
and, among the parts, those that were received -/
def C75_full : Prop := ∀ (env : Env) (ord : Dict HVal → Dict HVal) (rnd : Nat) (hs : List Hdr) (c : CType) (ps : List Part) (m : Msg),
    (∀ d, (ord d).Perm d) → (∀ h ∈ hs, h.WF) → c.WF → (∀ p ∈ ps, p.WF) → ps.length < 2 ^ 63 →
    decodeData (sent hs c ps) = .ok m →
    ∃ o m' m2, encode env ord rnd m = .ok o m' ∧ decodeData o = .ok m2 ∧ (∀ n, m2.headers.get n = m.headers.get n) ∧
      ∀ p ∈ ps, ∃ q ∈ m2.dataParts, SamePart p q

theorem received_pages {l : List Nat} {m : Msg} (h : decodeData l = .ok m) : m.pages = [] ∧ m.headers.Ok := by
  obtain ⟨hdrs, parts, s1, s2, h1, h2, rfl⟩ := decodeData_inv h
  refine ⟨rfl, ?_⟩
  obtain ⟨hs, rfl⟩ := headerLoop_puts _ _ _ _ _ h1
  have key : ∀ (hs : List (Str × HVal)) (d : Dict HVal), d.Ok → (putAll d hs).Ok := by
    intro hs
    induction hs with
    | nil => exact fun _ h => h
    | cons x r ih => exact fun _ h => ih _ (h.set _ _)
  exact key hs _ (by unfold Dict.Ok; decide)

/-- whatever the octets of two messages: when they decode to the same headers and the same number of parts, they are
encoded alike, so nothing of the parts is sent -/
theorem C75_contents (l l' : List Nat) (m n : Msg) (hm : decodeData l = .ok m) (hn : decodeData l' = .ok n)
    (hh : m.headers = n.headers) (hp : m.dataParts.length = n.dataParts.length) (env : Env) (ord : Dict HVal → Dict HVal)
    (rnd : Nat) (o : List Nat) (m' : Msg) (h : encode env ord rnd m = .ok o m') :
    ∃ n', encode env ord rnd n = .ok o n' := by
  obtain ⟨hd, b, h1, h2, rfl⟩ := encode_inv h
  obtain ⟨vt, vi, vv, ba, bb, bc, r, t, a1, a2, a3, ga, gb, gc, gr, gt, rfl, rfl⟩ := emh_inv h1
  rw [hh] at a1 a2 a3 gr gt h2
  refine ⟨_, encode_of (emh_ok rfl a1 a2 a3 ga gb gc gr gt) ?_⟩
  rw [← h2]
  have hw : n.pages = m.pages := by rw [(received_pages hn).1, (received_pages hm).1]
  obtain ⟨hdrs, parts, s1, s2, _, _, rfl⟩ := decodeData_inv hm
  obtain ⟨hdrs, parts, s1, s2, _, _, rfl⟩ := decodeData_inv hn
  unfold encodeMessageBody
  simp only [numEntries] at hp ⊢
  rw [hp]
  rfl

theorem lastValue_of_mem {hs : List Hdr} {h : Hdr} (hm : h ∈ hs) : ∃ v, lastValue hs h.name = some v := by
  unfold lastValue
  induction hs using List.reverseRecOn with
  | nil => cases hm
  | append_singleton hs x ih =>
    rw [List.foldl_append]
    simp only [List.foldl_cons, List.foldl_nil]
    split
    · exact ⟨_, rfl⟩
    · rename_i hx
      rcases List.mem_append.1 hm with hm | hm
      · exact ih hm
      · rw [List.mem_singleton] at hm
        exact absurd (by rw [hm]) hx

/-- a conformant message with a Date, as every retrieved message has one, or one of the other ten headers that cannot
be encoded is read, but cannot be encoded -/
theorem C75_unsendable (env : Env) (ord : Dict HVal → Dict HVal) (rnd : Nat) (hs : List Hdr) (c : CType) (ps : List Part)
    (ho : ∀ d, (ord d).Perm d) (hw : ∀ h ∈ hs, h.WF) (hc : c.WF) (hp : ∀ p ∈ ps, p.WF) (hl : ps.length < 2 ^ 63)
    (h : Hdr) (hd : h ∈ hs) (hu : h.name ∈ unsendable) :
    ∃ m, decodeData (sent hs c ps) = .ok m ∧ List.Forall₂ SamePart ps m.dataParts ∧
      ∀ o m', encode env ord rnd m ≠ .ok o m' := by
  obtain ⟨m, h1, _, _, h4, h5⟩ := C46_partial hs c ps [] hw hc hp hl
  rw [List.append_nil] at h1
  refine ⟨m, h1, h4, fun o m' => C61_never env ord rnd m o m' ho h.name hu ?_⟩
  unfold Has
  have hne : ∀ n ∈ unsendable, n ≠ py! "Content-Type" := by decide
  rw [h5 _ (hne _ hu)]
  obtain ⟨v, hv⟩ := lastValue_of_mem hd
  exact ⟨v, by unfold expected; rw [hv]⟩

example : ∃ h ∈ sampleHeaders, h.name ∈ unsendable :=
  ⟨.date ⟨2026, 11, 16, 0, 0, 0, none⟩ [0x6a, 0xfa, 0x47, 0x80], by decide, by decide⟩

theorem C75_refuted : ¬ C75_full := by
  intro h
  have hc : (CType.constrained (.known 35 (py! "application/vnd.wap.multipart.mixed"))).WF :=
    ⟨by decide, by decide +kernel⟩
  obtain ⟨m, h1, _, h2⟩ := C75_unsendable sampleEnv id 1 sampleHeaders _ sampleParts (fun d => List.Perm.refl d)
    sampleHeaders_wf hc sampleParts_wf (by decide) (.date ⟨2026, 11, 16, 0, 0, 0, none⟩ [0x6a, 0xfa, 0x47, 0x80])
    (by decide) (by decide)
  obtain ⟨o, m', _, h3, _⟩ := h sampleEnv id 1 sampleHeaders _ sampleParts m (fun d => List.Perm.refl d)
    sampleHeaders_wf hc sampleParts_wf (by decide) h1
  exact h2 o m' h3

theorem received_smil (env : Env) {l : List Nat} {m : Msg} (h : decodeData l = .ok m) :
    ∃ smil, m.smil env = .ok smil ∧ smil.length < 2 ^ 63 := by
  obtain ⟨hdrs, parts, s1, s2, _, _, rfl⟩ := decodeData_inv h
  have e : Msg.smil env { Msg.new with headers := hdrs, dataParts := parts } = Msg.smil sampleEnv Msg.new := rfl
  rw [e]
  have : (match Msg.smil sampleEnv Msg.new with | .ok s => decide (s.length < 1000) | .error _ => false) = true := by
    decide +kernel
  split at this
  · rename_i s hs
    exact ⟨s, hs, Nat.lt_trans (of_decide_eq_true this) (by decide)⟩
  · cases this

/-- a received message with parts whose headers can all be sent is encoded to something that cannot be decoded -/
theorem C75_unreadable (env : Env) (ord : Dict HVal → Dict HVal) (rnd : Nat) (l : List Nat) (m : Msg) (media : Str)
    (ho : ∀ d, (ord d).Perm d) (hm : decodeData l = .ok m) (hset : Settled m.headers)
    (hct : m.headers.get CT = some (.ct media [])) (hs : Sends media)
    (hf : ∀ n v, m.headers.get n = some v → n ≠ CT → Faithful n v)
    (hd : m.dataParts ≠ []) (hn : m.dataParts.length < 2 ^ 63 - 1) :
    ∃ o m', encode env ord rnd m = .ok o m' ∧ decodeData o = .error .stopIteration := by
  obtain ⟨hp, hk⟩ := received_pages hm
  obtain ⟨smil, hsm, hlen⟩ := received_smil env hm
  exact C47_loose env ord rnd m media smil ho hk hset hct hs hf hsm hlen (by rw [hp]; simp [partsOf]) hd
    (by rw [hp]; simpa using hn)

/-- without parts, such as an acknowledgement, it is decoded to the same headers, but with a SMIL part that was not
there.  Missing: everything with parts (`C75_contents`, `C75_unreadable`), other headers (`C75_unsendable`) and content
types with parameters (`C75_charset`, `C75_parameters`). -/
theorem C75_partial (env : Env) (ord : Dict HVal → Dict HVal) (rnd : Nat) (l : List Nat) (m : Msg) (media : Str)
    (ho : ∀ d, (ord d).Perm d) (hm : decodeData l = .ok m) (hset : Settled m.headers)
    (hct : m.headers.get CT = some (.ct media [])) (hs : Sends media)
    (hf : ∀ n v, m.headers.get n = some v → n ≠ CT → Faithful n v)
    (hd : m.dataParts = []) :
    ∃ o m' m2 q smil, m.smil env = .ok smil ∧ encode env ord rnd m = .ok o m' ∧ decodeData o = .ok m2 ∧
      (∀ n, m2.headers.get n = m.headers.get n) ∧ m2.dataParts = [q] ∧ q.data = some smil := by
  obtain ⟨hp, hk⟩ := received_pages hm
  obtain ⟨smil, hsm, hlen⟩ := received_smil env hm
  obtain ⟨o, m', m2, q, qs, h1, h2, h3, h4, h5, _, h6⟩ := C47_partial env ord rnd m media smil ho hk hset hct hs hf hsm
    hlen (by rw [hp]; simp [partsOf]) hd (by rw [hp]; decide)
  rw [hp] at h6
  cases h6
  exact ⟨o, m', m2, q, smil, hsm, h1, h2, h3, h4, h5⟩

/-! a message with parts and one without -/

def plainHeaders : List Hdr := [.messageType 4, .transactionId (py! "t1"), .version 1 0, .messageId (py! "x1")]

theorem plainHeaders_wf : ∀ h ∈ plainHeaders, h.WF := by
  intro h hh
  simp only [plainHeaders, List.mem_cons, List.not_mem_nil, or_false] at hh
  rcases hh with rfl | rfl | rfl | rfl
  · show (4 : Nat) < 7; decide
  · show (0 : Nat) ∉ _; decide
  · show 1 ≤ 1 ∧ 1 ≤ 7 ∧ 0 ≤ 14; decide
  · show (0 : Nat) ∉ _; decide

def plainMsg (parts : List DataPart) : Msg := { Msg.new with
  headers := [(MT, .v (.str (py! "m-retrieve-conf"))), (TI, .v (.str (py! "t1"))), (MV, .v (.str (py! "1.0"))),
    (CT, .ct (py! "application/vnd.wap.multipart.mixed") []), (py! "Message-ID", .v (.str (py! "x1")))]
  dataParts := parts }

theorem plain_decodes (ps : List Part) (hp : ∀ p ∈ ps, p.WF) (hl : ps.length < 2 ^ 63) :
    decodeData (sent plainHeaders (.constrained (.known 35 (py! "application/vnd.wap.multipart.mixed"))) ps) =
      .ok (plainMsg (ps.map partOf)) := by
  have hc : (CType.constrained (.known 35 (py! "application/vnd.wap.multipart.mixed"))).WF :=
    ⟨by decide, by decide +kernel⟩
  have := decodeData_ok plainHeaders plainHeaders_wf hc ps hp hl []
  rw [List.append_nil] at this
  refine this.trans (congrArg Except.ok ?_)
  have e : (setAll plainHeaders Msg.new.headers).set (py! "Content-Type")
      (.ct (py! "application/vnd.wap.multipart.mixed") []) = (plainMsg []).headers := by decide +kernel
  simp only [CType.media, CType.params]
  exact congrArg (fun h => ({ Msg.new with headers := h, dataParts := ps.map partOf } : Msg)) e

theorem plain_settled (parts : List DataPart) : Settled (plainMsg parts).headers :=
  ⟨⟨_, rfl⟩, ⟨_, rfl⟩, ⟨_, rfl⟩, ⟨rfl, rfl, rfl⟩, fun h => by
    have h : (plainMsg []).headers.get MT = some (.v (.str (py! "m-send-req"))) ∨
      (plainMsg []).headers.get MT = some (.v (.uni (py! "m-send-req"))) := h
    exact absurd h (by decide)⟩

theorem plain_faithful (parts : List DataPart) :
    ∀ n v, (plainMsg parts).headers.get n = some v → n ≠ CT → Faithful n v := by
  intro n v hg hn
  have hm := Dict.mem_of_get hg
  simp only [plainMsg, List.mem_cons, List.not_mem_nil, or_false, Prod.mk.injEq] at hm
  rcases hm with ⟨rfl, rfl⟩ | ⟨rfl, rfl⟩ | ⟨rfl, rfl⟩ | ⟨rfl, rfl⟩ | ⟨rfl, rfl⟩
  · exact .type _ (by decide)
  · exact .transactionId _ ⟨by decide, by decide, by decide⟩
  · have := Faithful.version 1 0 (by decide)
    have e : dotted 1 0 = py! "1.0" := by decide +kernel
    rwa [e] at this
  · exact absurd rfl hn
  · exact .messageId _ ⟨by decide, by decide, by decide⟩

theorem plain_sends : Sends (py! "application/vnd.wap.multipart.mixed") := ⟨⟨by decide, 97, rfl, by decide, by decide⟩, by decide⟩

/-- the hypotheses of `C75_unreadable` hold -/
example (ord : Dict HVal → Dict HVal) (ho : ∀ d, (ord d).Perm d) : ∃ o m',
    encode sampleEnv ord 1 (plainMsg (sampleParts.map partOf)) = .ok o m' ∧ decodeData o = .error .stopIteration :=
  C75_unreadable sampleEnv ord 1 _ _ _ ho (plain_decodes sampleParts sampleParts_wf (by decide)) (plain_settled _) rfl
    plain_sends (plain_faithful _) (by decide) (by decide)

/-- the hypotheses of `C75_partial` hold -/
example (ord : Dict HVal → Dict HVal) (ho : ∀ d, (ord d).Perm d) : ∃ o m' m2 q smil,
    (plainMsg []).smil sampleEnv = .ok smil ∧ encode sampleEnv ord 1 (plainMsg []) = .ok o m' ∧ decodeData o = .ok m2 ∧
      (∀ n, m2.headers.get n = (plainMsg []).headers.get n) ∧ m2.dataParts = [q] ∧ q.data = some smil :=
  C75_partial sampleEnv ord 1 _ _ _ ho (plain_decodes [] (by simp) (by decide)) (plain_settled _) rfl
    plain_sends (plain_faithful _) rfl

/-- the hypotheses of `C75_contents` hold: the two parts of the sample in the other order -/
example (ord : Dict HVal → Dict HVal) (ho : ∀ d, (ord d).Perm d) : ∃ o m' n',
    encode sampleEnv ord 1 (plainMsg (sampleParts.map partOf)) = .ok o m' ∧
    encode sampleEnv ord 1 (plainMsg (sampleParts.reverse.map partOf)) = .ok o n' := by
  have h1 := plain_decodes sampleParts sampleParts_wf (by decide)
  have h2 := plain_decodes sampleParts.reverse (fun p hp => sampleParts_wf p (List.mem_reverse.1 hp)) (by decide)
  obtain ⟨o, m', h3, _⟩ := C75_unreadable sampleEnv ord 1 _ _ _ ho h1 (plain_settled _) rfl plain_sends (plain_faithful _)
    (by decide) (by decide)
  obtain ⟨n', h4⟩ := C75_contents _ _ _ _ h1 h2 rfl rfl sampleEnv ord 1 o m' h3
  exact ⟨o, m', n', h3, h4⟩

end Verif.Props

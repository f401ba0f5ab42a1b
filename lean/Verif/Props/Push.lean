import Verif.Props.Faithful
import Verif.Props.MmsDec
import Verif.Props.Slides
import Verif.Spec.Push
/-!
# C66: a WAP push that arrives in several messages
-/
set_option autoImplicit false

namespace Verif.Props
open Verif Verif.Mms Verif.Spec Verif.Spec.Sms Verif.Spec.Time Verif.Spec.Mms
open Verif.Deliver (smsDeliver State)

/-- `p` is a conformant message with the octets `chunk` as fragment `i` of `n`, from any sender; the coding outside
the exceptions of C33 -/
def Fragment (p : DeliverPdu) (ref n i : Nat) (chunk : List Nat) : Prop :=
  ∃ sm s t els b, Conformant p sm s t els chunk ∧ dcsAlphabet p.dcs = .bin ∧ ¬ Misread p.dcs ∧
    concatOf els = some (ref, n, i, b)

/-- the same without exceptions -/
def AnyFragment (p : DeliverPdu) (ref n i : Nat) (chunk : List Nat) : Prop :=
  ∃ sm s t els b, Conformant p sm s t els chunk ∧ dcsAlphabet p.dcs = .bin ∧ concatOf els = some (ref, n, i, b)

/-- number and contents of a decoded message, as a program that collects the fragments reads them -/
def fragmentOf (d : State) : Nat × List Nat :=
  match (Deliver.data d).concat, (Deliver.data d).text with
  | some (_, _, i), some t => (i, t)
  | _, _ => (0, [])

/-- the full claim: false, see `C66_refuted` -/
def C66_full : Prop :=
  ∀ (tid : Nat) (hdrs payload : List Nat) (ref : Nat) (chunks : List (List Nat)) (ps received : List DeliverPdu)
    (strict : Bool), ps.length = chunks.length →
    chunks.flatten = tid :: 0x06 :: (Spec.Wsp.uintvar hdrs.length ++ (hdrs ++ payload)) →
    (∀ i (h1 : i < ps.length) (h2 : i < chunks.length), AnyFragment ps[i] ref chunks.length (i + 1) chunks[i]) →
    received.Perm ps →
    ∃ ds, received.mapM (fun p => smsDeliver (hexUpper p.octets) strict) = .ok ds ∧
      isAWapPushNotification (.str (assemble chunks.length (ds.map fragmentOf))) = .ok true ∧
      extractPushNotification (assemble chunks.length (ds.map fragmentOf)) = decodeData payload

theorem mapM_all {α β γ : Type} {f : α → Py β} {g : β → γ} {k : α → γ} {Q : β → Prop} : ∀ {l : List α},
    (∀ a ∈ l, ∃ b, f a = .ok b ∧ Q b ∧ g b = k a) → ∃ bs, l.mapM f = .ok bs ∧ (∀ b ∈ bs, Q b) ∧ bs.map g = l.map k
  | [], _ => ⟨[], rfl, by simp, rfl⟩
  | a :: l, h => by
    obtain ⟨b, hb, hq, hg⟩ := h a (by simp)
    obtain ⟨bs, h1, h2, h3⟩ := mapM_all (l := l) fun x hx => h x (by simp [hx])
    refine ⟨b :: bs, by rw [List.mapM_cons, hb, h1]; rfl, ?_, by rw [List.map_cons, List.map_cons, hg, h3]⟩
    intro x hx
    rcases List.mem_cons.1 hx with rfl | hx
    · exact hq
    · exact h2 x hx

theorem filter_numbered (l : List (List Nat)) : ∀ (k i : Nat) (hi : i < l.length),
    (((List.range' k l.length).zip l).map fun x => (x.1 + 1, x.2)).filter (fun x => x.1 = k + i + 1) =
      [(k + i + 1, l[i])] := by
  induction l with
  | nil => intro k i hi; simp at hi
  | cons c l ih =>
    intro k i hi
    rw [List.length_cons, List.range'_succ, List.zip_cons_cons, List.map_cons]
    cases i with
    | zero =>
      rw [List.filter_cons_of_pos (by simp)]
      have : ((List.range' (k + 1) l.length).zip l |>.map fun x => (x.1 + 1, x.2)).filter (fun x => x.1 = k + 0 + 1) = [] := by
        rw [List.filter_eq_nil_iff]
        intro x hx
        obtain ⟨y, hy, rfl⟩ := List.mem_map.1 hx
        have := (List.mem_range'_1.1 (List.of_mem_zip hy).1).1
        simp only [decide_eq_true_eq]
        omega
      rw [this]
      rfl
    | succ i =>
      rw [List.filter_cons_of_neg (by simp)]
      have := ih (k + 1) i (by simpa using hi)
      rw [show k + 1 + i + 1 = k + (i + 1) + 1 by omega] at this
      rw [this]
      rfl

theorem assemble_perm {chunks : List (List Nat)} {parts : List (Nat × List Nat)}
    (h : parts.Perm ((List.range chunks.length).zip chunks |>.map fun x => (x.1 + 1, x.2))) :
    assemble chunks.length parts = chunks.flatten := by
  have h1 : ∀ i (hi : i < chunks.length), (parts.filter fun x => x.1 = i + 1).flatMap (·.2) = chunks[i] := by
    intro i hi
    have hf : ((List.range chunks.length).zip chunks |>.map fun x => (x.1 + 1, x.2)).filter (fun x => x.1 = i + 1) =
        [(i + 1, chunks[i])] := by
      have := filter_numbered chunks 0 i hi
      rw [← List.range_eq_range', Nat.zero_add] at this
      exact this
    have hp := h.filter (fun x => decide (x.1 = i + 1))
    rw [hf, List.perm_singleton] at hp
    rw [hp]
    simp
  unfold assemble
  have h2 : (List.range chunks.length).map (fun i => (parts.filter fun x => x.1 = i + 1).flatMap (·.2)) = chunks := by
    apply List.ext_getElem (by simp)
    intro i a b
    simp only [List.getElem_map, List.getElem_range]
    exact h1 i b
  rw [List.flatMap_def, h2]

/-- C66: octets cut into any number of fragments of any sizes, which arrive in any order, each in a conformant message
with the fragment number in an 8-bit or 16-bit concatenation element and with any other elements: every message decodes,
shows the reference and the number of fragments, and the joined texts are the octets.  Missing: the coding octets of C33. -/
theorem C66_assemble_partial (ref : Nat) (chunks : List (List Nat)) (ps received : List DeliverPdu) (strict : Bool)
    (hl : ps.length = chunks.length)
    (hf : ∀ i (h1 : i < ps.length) (h2 : i < chunks.length), Fragment ps[i] ref chunks.length (i + 1) chunks[i])
    (hp : received.Perm ps) :
    ∃ ds, received.mapM (fun p => smsDeliver (hexUpper p.octets) strict) = .ok ds ∧
      (∀ d ∈ ds, ∃ i, (Deliver.data d).concat = some (ref, chunks.length, i)) ∧
      assemble chunks.length (ds.map fragmentOf) = chunks.flatten := by
  have hdec : ∀ i (h1 : i < ps.length) (h2 : i < chunks.length), ∃ d, smsDeliver (hexUpper ps[i].octets) strict = .ok d ∧
      (Deliver.data d).concat = some (ref, chunks.length, i + 1) ∧ fragmentOf d = (i + 1, chunks[i]) := by
    intro i h1 h2
    obtain ⟨sm, s, t, els, b, hc, ha, hm, hcc⟩ := hf i h1 h2
    obtain ⟨d, _, hd, _, hsh⟩ := C64_sender_partial _ _ _ _ _ _ strict hc hm
    have hco := hsh.concat
    rw [hcc] at hco
    refine ⟨d, hd, hco, ?_⟩
    unfold fragmentOf
    rw [hco, hsh.text]
    rfl
  let k : DeliverPdu → Nat × List Nat := fun p =>
    match smsDeliver (hexUpper p.octets) strict with
    | .ok d => fragmentOf d
    | .error _ => (0, [])
  have hall : ∀ p ∈ received, ∃ d, smsDeliver (hexUpper p.octets) strict = .ok d ∧
      (∃ i, (Deliver.data d).concat = some (ref, chunks.length, i)) ∧ fragmentOf d = k p := by
    intro p hpm
    obtain ⟨i, h1, rfl⟩ := List.getElem_of_mem (hp.mem_iff.1 hpm)
    obtain ⟨d, hd, hc, _⟩ := hdec i h1 (hl ▸ h1)
    exact ⟨d, hd, ⟨_, hc⟩, by simp only [k, hd]⟩
  obtain ⟨ds, h1, h2, h3⟩ := mapM_all hall
  refine ⟨ds, h1, h2, assemble_perm ?_⟩
  rw [h3]
  refine (hp.map k).trans (List.Perm.of_eq ?_)
  apply List.ext_getElem (by simp [hl])
  intro i a b
  obtain ⟨d, hd, _, hk⟩ := hdec i (by simpa using a) (by simpa [hl] using a)
  simp only [List.getElem_map, List.getElem_zip, List.getElem_range]
  simp only [k, hd, hk]

/-- C66: a WAP push (transaction id, type 6, length of the headers, headers, payload) that arrives in this way: the
joined texts are recognised as a push, and extracting it decodes exactly the payload.  Missing, besides the exceptions
above: headers of 128 octets and more. -/
theorem C66_push_partial (tid : Nat) (hdrs payload : List Nat) (ref : Nat) (chunks : List (List Nat))
    (ps received : List DeliverPdu) (strict : Bool) (hl : ps.length = chunks.length) (hh : hdrs.length < 128)
    (hc : chunks.flatten = tid :: 0x06 :: (Spec.Wsp.uintvar hdrs.length ++ (hdrs ++ payload)))
    (hf : ∀ i (h1 : i < ps.length) (h2 : i < chunks.length), Fragment ps[i] ref chunks.length (i + 1) chunks[i])
    (hp : received.Perm ps) :
    ∃ ds, received.mapM (fun p => smsDeliver (hexUpper p.octets) strict) = .ok ds ∧
      isAWapPushNotification (.str (assemble chunks.length (ds.map fragmentOf))) = .ok true ∧
      extractPushNotification (assemble chunks.length (ds.map fragmentOf)) = decodeData payload := by
  obtain ⟨ds, h1, _, h3⟩ := C66_assemble_partial ref chunks ps received strict hl hf hp
  refine ⟨ds, h1, ?_, ?_⟩
  · rw [h3, hc]; rfl
  · rw [h3, hc]; exact C57_uintvar_partial tid hdrs payload hh

theorem value_not_none (h : Hdr) : h.value ≠ .v .none := by
  cases h <;> simp [Hdr.value]

/-- C66: an MMS notification that arrives in this way: its headers are exactly the ones sent, and it is recognised as
a notification exactly if it has a From and a Content-Location header.  Missing, besides the exceptions above: the
header forms that are not read (C45). -/
theorem C66_notification_partial (tid : Nat) (hdrs : List Nat) (hs : List Hdr) (ref : Nat) (chunks : List (List Nat))
    (ps received : List DeliverPdu) (strict : Bool) (hl : ps.length = chunks.length) (hh : hdrs.length < 128)
    (hw : ∀ h ∈ hs, h.WF)
    (hc : chunks.flatten = tid :: 0x06 :: (Spec.Wsp.uintvar hdrs.length ++ (hdrs ++ hs.flatMap Hdr.enc)))
    (hf : ∀ i (h1 : i < ps.length) (h2 : i < chunks.length), Fragment ps[i] ref chunks.length (i + 1) chunks[i])
    (hp : received.Perm ps) :
    ∃ ds m, received.mapM (fun p => smsDeliver (hexUpper p.octets) strict) = .ok ds ∧
      extractPushNotification (assemble chunks.length (ds.map fragmentOf)) = .ok m ∧
      (∀ n, m.headers.get n = expected hs n) ∧ m.dataParts = [] ∧
      (isMmsNotification m = true ↔ (∃ h ∈ hs, h.name = py! "From") ∧ ∃ h ∈ hs, h.name = py! "Content-Location") := by
  obtain ⟨ds, h1, _, h3⟩ := C66_push_partial tid hdrs _ ref chunks ps received strict hl hh hc hf hp
  obtain ⟨m, h4, h5, _, h6⟩ := C45_no_content_type_partial hs hw
  refine ⟨ds, m, h1, h3.trans h4, h6, h5, ?_⟩
  have key : ∀ n, defaultHeader n = none →
      ((∃ x, m.headers.get n = some x ∧ x ≠ .v .none) ↔ ∃ h ∈ hs, h.name = n) := by
    intro n hn
    rw [h6, expected]
    cases hv : lastValue hs n with
    | none =>
      simp only [hn]
      constructor
      · rintro ⟨x, hx, _⟩; cases hx
      · rintro ⟨h, hm, he⟩; exact absurd he (lastValue_none.1 hv h hm)
    | some v =>
      obtain ⟨h, hm, he, hvv⟩ := lastValue_some hv
      exact ⟨fun _ => ⟨h, hm, he⟩, fun _ => ⟨v, rfl, by rw [← hvv]; exact value_not_none h⟩⟩
  rw [C57_is_notification, key _ (by decide), key _ (by decide)]

/-- a notification in two fragments with an 8-bit reference and port numbers, the second one first -/
def pushHeaders : List Hdr := [.messageType 2, .fromAddr (py! "+44"), .contentLocation (py! "http://m/1")]

def pushOctets : List Nat := 1 :: 0x06 :: (Spec.Wsp.uintvar 2 ++ ([0x03, 0xbe] ++ pushHeaders.flatMap Hdr.enc))

def pushFragment (i : Nat) (chunk : List Nat) : DeliverPdu :=
  let ud := [11, 0, 3, 7, 2, i, 5, 4, 0x0b, 0x84, 0x23, 0xf0] ++ chunk
  { sampleDeliver with dcs := 4, udl := ud.length, ud := ud }

theorem pushFragment_ok (i : Nat) (hi : i < 256) (chunk : List Nat) (hb : ∀ x ∈ chunk, x < 256) (hl : chunk.length ≤ 100) :
    Fragment (pushFragment i chunk) 7 2 i chunk := by
  have hn : readAddress sampleDeliver.oa = some (⟨0x91, [1, 2, 3, 4]⟩, []) := by decide
  have hfo : (pushFragment i chunk).fo = 0x44 := rfl
  have hdcs : (pushFragment i chunk).dcs = 4 := rfl
  have hal : dcsAlphabet (pushFragment i chunk).dcs = .bin := by rw [hdcs]; decide
  refine ⟨_, py! "+1234", _, [⟨0, [7, 2, i]⟩, ⟨5, [0x0b, 0x84, 0x23, 0xf0]⟩], true,
    { sevenLetters_conformant with
      sender := .inl ⟨_, _, hn, by decide, rfl, rfl⟩, octets := ?_, elements := ?_, elementOctets := ?_, size := ?_,
      userData := ⟨[11, 0, 3, 7, 2, i, 5, 4, 0x0b, 0x84, 0x23, 0xf0], .inl ⟨by rw [hfo], rfl⟩, ?_⟩ },
    hal, by rw [hdcs]; decide, rfl⟩
  · have hsplit : (pushFragment i chunk).octets = [7, 0x91, 0x43, 0x46, 0x46, 0x65, 0x54, 0xF6, 0x44, 0x04, 0x91, 0x21,
        0x43, 0, 4, 0x11, 0x30, 0x13, 0x21, 0x43, 0x65, 0x80, chunk.length + 12, 11, 0, 3, 7, 2, i, 5, 4, 0x0b, 0x84, 0x23,
        0xf0] ++ chunk := rfl
    intro x hx
    rw [hsplit] at hx
    rcases List.mem_append.1 hx with hx | hx
    · simp only [List.mem_cons, List.not_mem_nil, or_false] at hx
      omega
    · exact hb x hx
  · simp [Element.Ok]
  · simp [elementOctets, hi]
  · simp only [pushFragment, List.length_append, List.length_cons, List.length_nil]; omega
  · rw [hal]; exact ⟨rfl, rfl⟩

example : ∃ (chunks : List (List Nat)) (ps received : List DeliverPdu), ps.length = chunks.length ∧
    chunks.flatten = pushOctets ∧ received.Perm ps ∧ received ≠ ps ∧ (∀ h ∈ pushHeaders, h.WF) ∧
    (∀ i (h1 : i < ps.length) (h2 : i < chunks.length), Fragment ps[i] 7 chunks.length (i + 1) chunks[i]) ∧
    (received.mapM fun p => smsDeliver (hexUpper p.octets)).bind (fun ds =>
      (extractPushNotification (assemble 2 (ds.map fragmentOf))).map isMmsNotification) = .ok true := by
  refine ⟨[pushOctets.take 9, pushOctets.drop 9], [pushFragment 1 (pushOctets.take 9), pushFragment 2 (pushOctets.drop 9)],
    [pushFragment 2 (pushOctets.drop 9), pushFragment 1 (pushOctets.take 9)], rfl, by decide +kernel, .swap _ _ _, ?_, ?_, ?_,
    by decide +kernel⟩
  · intro h; injection h with h; injection h; rename_i h; revert h; decide +kernel
  · intro h hh
    simp only [pushHeaders, List.mem_cons, List.not_mem_nil, or_false] at hh
    rcases hh with rfl | rfl | rfl
    · show (2 : Nat) < 7; decide
    · exact ⟨by decide, 43, rfl, by decide⟩
    · show (0 : Nat) ∉ _; decide
  · intro i h1 h2
    match i, h1 with
    | 0, _ => exact pushFragment_ok 1 (by decide) _ (by decide +kernel) (by decide +kernel)
    | 1, _ => exact pushFragment_ok 2 (by decide) _ (by decide +kernel) (by decide +kernel)

theorem two_fragments (push : List Nat) (hb : ∀ x ∈ push, x < 256) (hl : push.length ≤ 200) :
    ∀ i (h1 : i < [pushFragment 1 (push.take 100), pushFragment 2 (push.drop 100)].length)
      (h2 : i < [push.take 100, push.drop 100].length),
      Fragment [pushFragment 1 (push.take 100), pushFragment 2 (push.drop 100)][i] 7
        [push.take 100, push.drop 100].length (i + 1) [push.take 100, push.drop 100][i] := by
  intro i h1 h2
  match i, h1 with
  | 0, _ => exact pushFragment_ok 1 (by decide) _ (fun x hx => hb x (List.mem_of_mem_take hx)) (by simp)
  | 1, _ => exact pushFragment_ok 2 (by decide) _ (fun x hx => hb x (List.mem_of_mem_drop hx)) (by simp; omega)

/-- with 130 octets of headers the payload is looked for in the wrong place -/
theorem C66_refuted : ¬ C66_full := by
  intro h
  obtain ⟨push, hpush⟩ : ∃ p : List Nat, p = 1 :: 0x06 :: (Spec.Wsp.uintvar (List.replicate 130 0x98).length ++
    (List.replicate 130 0x98 ++ [])) := ⟨_, rfl⟩
  have hf := two_fragments push (by rw [hpush]; decide +kernel) (by rw [hpush]; decide +kernel)
  have hflat : [push.take 100, push.drop 100].flatten = push := by simp
  obtain ⟨ds, h1, _, h2⟩ := h 1 (List.replicate 130 0x98) [] 7 _ _ _ true rfl (hflat.trans hpush)
    (fun i a b => by
      obtain ⟨sm, s, t, els, b, hc, ha, _, hcc⟩ := hf i a b
      exact ⟨sm, s, t, els, b, hc, ha, hcc⟩) (.refl _)
  obtain ⟨ds', h1', _, h3⟩ := C66_assemble_partial 7 _ _ _ true rfl hf (.refl _)
  rw [h1] at h1'
  cases h1'
  rw [h3, hflat] at h2
  have h4 : extractPushNotification push = .error .runtimeError := by rw [hpush]; decide +kernel
  have h5 : decodeData [] = .ok Msg.new := by decide +kernel
  rw [h4, h5] at h2
  cases h2

end Verif.Props

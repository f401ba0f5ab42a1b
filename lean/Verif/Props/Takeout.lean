import Verif.Proofs.Takeout
import Verif.Props.MmsDec
import Mathlib.Data.List.Forall2
/-!
# C116: parts are read independently of one another; C117: headers are read independently of what follows
-/
set_option autoImplicit false

namespace Verif.Props
open Verif.Mms Verif.Spec.Mms Verif.Spec.Wsp

/-! ## C116 -/

/-- the octets `o` are the entry of the part `p`: in a message without other headers and parts they are read as `p`, and
nothing of them can be left out at the end -/
def Entry (o : List Nat) (p : DataPart) : Prop :=
  (∃ m, decodeData ([0x84, 0xa3, 1] ++ o) = .ok m ∧ m.dataParts = [p]) ∧
    ∀ q, q <+: o → q ≠ o → ∃ e, decodeData ([0x84, 0xa3, 1] ++ q) = .error e

/-- multipart/mixed -/
def mixed : CType := .constrained (.known 35 (py! "application/vnd.wap.multipart.mixed"))

theorem mixed_wf : mixed.WF := by
  show CType.WF (.constrained (.known 35 (py! "application/vnd.wap.multipart.mixed")))
  simp only [CType.WF, Media.WF]; decide +kernel

theorem decodeData_one (o : List Nat) : decodeData ([0x84, 0xa3, 1] ++ o) =
    match decodePart ⟨o, 0⟩ with
    | .ok p _ => .ok { Msg.new with
        headers := Msg.new.headers.set (py! "Content-Type") (.ct mixed.media mixed.params), dataParts := [p] }
    | .err e _ => .error e := by
  have h := decodeData_after [] (by simp) mixed_wf 1 (by decide) o
  have e : [0x84, 0xa3, 1] ++ o = List.flatMap Hdr.enc [] ++ (0x84 :: mixed.enc ++ (uintvar 1 ++ o)) := by
    have e1 : mixed.enc = [0xa3] := by decide +kernel
    have e2 : uintvar 1 = [1] := by decide +kernel
    rw [e1, e2]; rfl
  rw [e, h]
  simp only [partLoop, M.bind_apply]
  cases decodePart ⟨o, 0⟩ <;> rfl

theorem entry_iff (o : List Nat) (p : DataPart) : Entry o p ↔ ReadAlone o p := by
  constructor
  · rintro ⟨⟨m, h1, h2⟩, h3⟩
    rw [decodeData_one] at h1
    cases hd : decodePart ⟨o, 0⟩ with
    | err e s => rw [hd] at h1; cases h1
    | ok p' s =>
      rw [hd] at h1
      injection h1 with h1
      subst h1
      have hp : p' = p := by simpa using h2
      subst hp
      obtain ⟨c, e, _, f⟩ := decodePart_local _ _ _ hd
      have e : o = c ++ s.rem := e
      by_cases hc : c = o
      · subst hc
        exact fun r => f r 0
      · obtain ⟨e', h4⟩ := h3 c ⟨s.rem, e.symm⟩ hc
        have := f [] 0
        rw [List.append_nil] at this
        rw [decodeData_one, this] at h4
        cases h4
  · intro h
    refine ⟨?_, ?_⟩
    · have := h []
      rw [List.append_nil] at this
      rw [decodeData_one, this]
      exact ⟨_, rfl, rfl⟩
    · rintro q ⟨t, rfl⟩ hne
      have h0 := h []
      rw [List.append_nil] at h0
      cases hd : decodePart ⟨q, 0⟩ with
      | err e s => exact ⟨e, by rw [decodeData_one, hd]⟩
      | ok p' s =>
        obtain ⟨c, e, _, f⟩ := decodePart_local _ _ _ hd
        have e : q = c ++ s.rem := e
        rw [e, List.append_assoc, f] at h0
        injection h0 with _ h0
        injection h0 with h0 _
        rw [List.append_eq_nil_iff] at h0
        exact absurd (by simp [h0.2]) hne

theorem entries_iff (os : List (List Nat)) (ps : List DataPart) : List.Forall₂ Entry os ps ↔ List.Forall₂ ReadAlone os ps := by
  have : Entry = ReadAlone := funext fun o => funext fun p => propext (entry_iff o p)
  rw [this]

/-- C116: whatever octets are accepted: after the headers and the number of parts they consist of one entry for each part,
and each of them would be read as the same part if it were the only one. -/
theorem C116_split (data : List Nat) (m : Msg) (h : decodeData data = .ok m) :
    ∃ front os back, data = front ++ os.flatten ++ back ∧ List.Forall₂ Entry os m.dataParts := by
  obtain ⟨front, os, back, h1, h2⟩ := body_local h
  exact ⟨front, os, back, h1, (entries_iff _ _).2 h2⟩

/-- C116: entries of parts, wherever they come from, after any headers and content type that can be read, in any order and
number: the message has exactly these parts. -/
theorem C116_join (hs : List Hdr) (c : CType) (os : List (List Nat)) (ps : List DataPart) (rest : List Nat)
    (hw : ∀ h ∈ hs, h.WF) (hc : c.WF) (he : List.Forall₂ Entry os ps) (hl : ps.length < 2 ^ 63) :
    ∃ m, decodeData (hs.flatMap Hdr.enc ++ (0x84 :: c.enc ++ (uintvar ps.length ++ (os.flatten ++ rest)))) = .ok m ∧
      m.dataParts = ps ∧ m.pages = [] ∧ m.headers.get (py! "Content-Type") = some (.ct c.media c.params) ∧
      ∀ n, n ≠ py! "Content-Type" → m.headers.get n = expected hs n := by
  rw [entries_iff] at he
  have hlen := he.length_eq
  have := partLoop_chunks he 0 [] rest
  rw [Nat.add_zero, hlen, List.nil_append] at this
  rw [decodeData_after hs hw hc _ hl, this]
  refine ⟨_, rfl, rfl, rfl, ?_, ?_⟩
  · show Dict.get (Dict.set _ _ _) _ = _
    rw [dict_get_set, if_pos rfl]
  · intro n hn
    show Dict.get (Dict.set _ _ _) _ = _
    rw [dict_get_set, if_neg (fun e => hn e.symm), setAll_get, defaults_eq]
    rfl

/-- C116: every part of a message that was received can be taken out of it: its octets are an entry. -/
theorem C116_take (data : List Nat) (m : Msg) (h : decodeData data = .ok m) (p : DataPart) (hp : p ∈ m.dataParts) :
    ∃ o, o <:+: data ∧ Entry o p := by
  obtain ⟨front, os, back, h1, h2⟩ := C116_split data m h
  obtain ⟨i, hi, rfl⟩ := List.getElem_of_mem hp
  have hlen := h2.length_eq
  have hi' : i < os.length := by omega
  refine ⟨os[i], ?_, ?_⟩
  · rw [h1]
    have : os[i] <:+: os.flatten := List.infix_of_mem_flatten (List.getElem_mem hi')
    exact this.trans ⟨front, back, rfl⟩
  · exact (List.forall₂_iff_get.1 h2).2 i hi' hi

/-- C116: after entries that can be read the others are read as if they were alone: with the same exception, or with the
same parts, which follow. -/
theorem C116_after (hs : List Hdr) (c : CType) (os : List (List Nat)) (ps : List DataPart) (n : Nat) (x : List Nat)
    (hw : ∀ h ∈ hs, h.WF) (hc : c.WF) (he : List.Forall₂ Entry os ps) (hl : ps.length + n < 2 ^ 63) :
    (∀ e, decodeData (hs.flatMap Hdr.enc ++ (0x84 :: c.enc ++ (uintvar (ps.length + n) ++ (os.flatten ++ x)))) = .error e ↔
      decodeData ([0x84, 0xa3] ++ (uintvar n ++ x)) = .error e) ∧
    ∀ m, decodeData ([0x84, 0xa3] ++ (uintvar n ++ x)) = .ok m →
      ∃ m', decodeData (hs.flatMap Hdr.enc ++ (0x84 :: c.enc ++ (uintvar (ps.length + n) ++ (os.flatten ++ x)))) = .ok m' ∧
        m'.dataParts = ps ++ m.dataParts := by
  rw [entries_iff] at he
  have hlen := he.length_eq
  have h1 := partLoop_chunks he n [] x
  rw [hlen, List.nil_append, partLoop_acc n ps] at h1
  have e : [0x84, 0xa3] ++ (uintvar n ++ x) = List.flatMap Hdr.enc [] ++ (0x84 :: mixed.enc ++ (uintvar n ++ x)) := by
    have e1 : mixed.enc = [0xa3] := by decide +kernel
    rw [e1]; rfl
  rw [decodeData_after hs hw hc _ hl, h1, e, decodeData_after [] (by simp) mixed_wf n (by omega) x]
  simp only [M.bind_apply]
  cases partLoop n [] ⟨x, 0⟩ with
  | err e s => simp
  | ok l s =>
    refine ⟨fun e => by simp [pure, M.pure], ?_⟩
    intro m hm
    injection hm with hm
    subst hm
    exact ⟨_, rfl, rfl⟩

/-- C116: if an entry cannot be read the exception is that of this entry alone, whatever else the message has in front of
it and behind it. -/
theorem C116_first_error (hs : List Hdr) (c : CType) (os : List (List Nat)) (ps : List DataPart) (n : Nat) (x : List Nat)
    (e : PyErr) (hw : ∀ h ∈ hs, h.WF) (hc : c.WF) (he : List.Forall₂ Entry os ps) (hl : ps.length + (n + 1) < 2 ^ 63)
    (hx : decodeData ([0x84, 0xa3, 1] ++ x) = .error e) :
    decodeData (hs.flatMap Hdr.enc ++ (0x84 :: c.enc ++ (uintvar (ps.length + (n + 1)) ++ (os.flatten ++ x)))) = .error e := by
  rw [entries_iff] at he
  have hlen := he.length_eq
  have h1 := partLoop_chunks he (n + 1) [] x
  rw [hlen, List.nil_append] at h1
  rw [decodeData_after hs hw hc _ hl, h1]
  rw [decodeData_one] at hx
  cases hd : decodePart ⟨x, 0⟩ with
  | ok p s => rw [hd] at hx; cases hx
  | err e' s =>
    rw [hd] at hx
    injection hx with hx
    subst hx
    rw [partLoop, M.bind_err hd]

/-- the entry of a text part that says "Hi" -/
def hiEntry : List Nat := [1, 2, 0x83, 72, 105]

/-- and the part -/
def hiPart : DataPart :=
  { ctParams := [], headers := [(py! "Content-Type", .ct (py! "text/plain") [])], filename := none, data := some (py! "Hi") }

theorem hi_entry : Entry hiEntry hiPart := by
  obtain ⟨c, h1, _, h2⟩ := decodePart_local ⟨hiEntry, 0⟩ ⟨[], 0⟩ hiPart (by rfl)
  rw [List.append_nil] at h1
  rw [entry_iff, show hiEntry = c from h1]
  exact fun r => h2 r 0

/-- it is an entry of a message with two parts, can be taken out of it, and put into another message twice -/
example : ∃ m, decodeData ([0x84, 0xa3, 2] ++ hiEntry ++ [1, 0, 0x9e] ++ [9, 9]) = .ok m ∧ m.dataParts.length = 2 ∧
    hiPart ∈ m.dataParts := ⟨_, rfl, rfl, List.mem_cons_self⟩

example := C116_take ([0x84, 0xa3, 2] ++ hiEntry ++ [1, 0, 0x9e] ++ [9, 9]) _ rfl hiPart List.mem_cons_self

example := C116_split ([0x84, 0xa3, 2] ++ hiEntry ++ [1, 0, 0x9e] ++ [9, 9]) _ rfl

example := C116_join sampleHeaders mixed [hiEntry, hiEntry] [hiPart, hiPart] [7] sampleHeaders_wf mixed_wf
  (.cons hi_entry (.cons hi_entry .nil)) (by decide)

example := C116_after sampleHeaders mixed [hiEntry] [hiPart] 1 [1, 0, 0x9e] sampleHeaders_wf mixed_wf
  (.cons hi_entry .nil) (by decide)

/-- a second entry without content type: StopIteration, whatever else there is -/
example := C116_first_error sampleHeaders mixed [hiEntry] [hiPart] 3 [0, 0] .stopIteration sampleHeaders_wf mixed_wf
  (.cons hi_entry .nil) (by decide) (by rfl)

/-! ## C117 -/

/-- the value a header has after the settings `hr`, the last one counting -/
def afterwards (hr : List (Str × HVal)) (n : Str) (before : Option HVal) : Option HVal :=
  match hr.reverse.lookup n with
  | some v => some v
  | none => before

/-- `rest`, with headers of `hss` in front or without: the same exception; or the same parts, the headers that `rest` sets,
whichever are in front, and the values in front of them for all other names -/
def ReadOn (rest : List Nat) (hss : List Hdr → Prop) : Prop :=
  (∃ e, decodeData rest = .error e ∧ ∀ hs, hss hs → decodeData (hs.flatMap Hdr.enc ++ rest) = .error e) ∨
  ∃ m hr, decodeData rest = .ok m ∧ (∀ n, m.headers.get n = afterwards hr n (defaultHeader n)) ∧
    ∀ hs, hss hs → ∃ m', decodeData (hs.flatMap Hdr.enc ++ rest) = .ok m' ∧ m'.dataParts = m.dataParts ∧
      m'.pages = m.pages ∧ ∀ n, m'.headers.get n = afterwards hr n (expected hs n)

/-- full statement: whatever follows headers the standard allows is read as if it were alone -/
def C117_full : Prop := ∀ rest : List Nat, ReadOn rest (fun hs => ∀ h ∈ hs, h.Conf)

/-- C117: headers of `WF`, and then any octets: the same exception as for these octets alone, or the same parts and the
same headers, with the headers in front wherever the octets set none of that name.  Missing compared with `C117_full`: the
headers that are not read (C45). -/
theorem C117_partial (rest : List Nat) : ReadOn rest (fun hs => ∀ h ∈ hs, h.WF) := by
  unfold ReadOn decodeData It.new
  simp only [M.bind_apply]
  rcases messageHeader_any rest with ⟨hr, s', h⟩ | ⟨e, s', h⟩
  · have h0 := h [] (by simp)
    rw [List.flatMap_nil, List.nil_append] at h0
    rw [h0]
    simp only []
    cases hb : decodeMessageBody s' with
    | err e s2 =>
      refine .inl ⟨e, rfl, fun hs hw => ?_⟩
      rw [h hs hw]
      simp only [hb]
    | ok l s2 =>
      refine .inr ⟨_, hr, rfl, fun n => ?_, fun hs hw => ?_⟩
      · show (putAll (setAll [] Msg.new.headers) hr).get n = _
        rw [putAll_get, setAll_get, defaults_eq]
        rfl
      · rw [h hs hw]
        simp only [hb]
        refine ⟨_, rfl, rfl, rfl, fun n => ?_⟩
        show (putAll (setAll hs Msg.new.headers) hr).get n = _
        rw [putAll_get, setAll_get, defaults_eq]
        rfl
  · have h0 := h [] (by simp)
    rw [List.flatMap_nil, List.nil_append] at h0
    rw [h0]
    refine .inl ⟨e, rfl, fun hs hw => ?_⟩
    rw [h hs hw]

/-- C117: headers with different names can be sent in any order in front of anything: the same exception, or the same
parts and the same value under every name. -/
theorem C117_order_partial (hs hs' : List Hdr) (rest : List Nat) (hw : ∀ h ∈ hs, h.WF) (hperm : hs.Perm hs')
    (hnd : (hs.map Hdr.name).Nodup) :
    (∀ e, decodeData (hs.flatMap Hdr.enc ++ rest) = .error e ↔ decodeData (hs'.flatMap Hdr.enc ++ rest) = .error e) ∧
    ∀ m, decodeData (hs.flatMap Hdr.enc ++ rest) = .ok m → ∃ m', decodeData (hs'.flatMap Hdr.enc ++ rest) = .ok m' ∧
      m'.dataParts = m.dataParts ∧ m'.pages = m.pages ∧ ∀ n, m'.headers.get n = m.headers.get n := by
  have hw' : ∀ h ∈ hs', h.WF := fun h hh => hw h (hperm.mem_iff.2 hh)
  have hx : ∀ n, expected hs n = expected hs' n := by
    intro n
    obtain ⟨m, m', e1, e2, e3⟩ := C45_order_partial hs hs' hw hperm hnd
    obtain ⟨k, f1, _, _, f2⟩ := C45_no_content_type_partial hs hw
    obtain ⟨k', g1, _, _, g2⟩ := C45_no_content_type_partial hs' hw'
    rw [e1] at f1; injection f1 with f1; subst f1
    rw [e2] at g1; injection g1 with g1; subst g1
    rw [← f2, ← g2, e3]
  rcases C117_partial rest with ⟨e, _, h⟩ | ⟨m0, hr, _, _, h⟩
  · rw [h hs hw, h hs' hw']
    exact ⟨fun _ => Iff.rfl, fun m hm => by cases hm⟩
  · obtain ⟨u, u1, u2, u3, u4⟩ := h hs hw
    obtain ⟨v, v1, v2, v3, v4⟩ := h hs' hw'
    rw [u1, v1]
    refine ⟨fun e => by simp, fun m hm => ?_⟩
    injection hm with hm
    subst hm
    exact ⟨v, rfl, by rw [u2, v2], by rw [u3, v3], fun n => by rw [u4, v4, hx]⟩

/-- headers in front of a message with a Content-Type and a part, and in front of octets that cannot be read -/
example : (∃ m, decodeData ([0x84, 0xa3, 1] ++ hiEntry) = .ok m ∧ m.dataParts = [hiPart]) ∧
    decodeData ([0x84, 0xa3, 1] ++ [0, 0]) = .error .stopIteration := ⟨⟨_, rfl, rfl⟩, rfl⟩

example := C117_order_partial sampleHeaders sampleHeaders.reverse ([0x84, 0xa3, 1] ++ hiEntry) sampleHeaders_wf
  (List.reverse_perm _).symm (by decide +kernel)

/-- C117: a relative Delivery-Time given as a Short-integer changes what the octets behind it are read as: the content
type is not found. -/
theorem C117_refuted : ¬ C117_full := by
  intro h
  have hc : ∀ x ∈ [Hdr.deliveryRelShort 5], x.Conf := by
    intro x hx; rw [List.mem_singleton] at hx; subst hx; show (5 : Nat) < 128; decide
  have ok : ∃ m, decodeData [0x84, 0x83, 0] = .ok m ∧
      m.headers.get (py! "Content-Type") ≠ defaultHeader (py! "Content-Type") := by
    refine ⟨_, rfl, ?_⟩
    decide +kernel
  obtain ⟨m1, k1, k2⟩ := ok
  rcases h [0x84, 0x83, 0] with ⟨e, h1, _⟩ | ⟨m, hr, h1, h2, h3⟩
  · rw [k1] at h1; cases h1
  · rw [k1] at h1
    injection h1 with h1
    subst h1
    obtain ⟨m', g1, _, _, g2⟩ := h3 _ hc
    have ok' : ∃ m, decodeData ([Hdr.deliveryRelShort 5].flatMap Hdr.enc ++ [0x84, 0x83, 0]) = .ok m ∧
        m.headers.get (py! "Content-Type") = defaultHeader (py! "Content-Type") := by
      refine ⟨_, rfl, ?_⟩
      decide +kernel
    obtain ⟨m2, l1, l2⟩ := ok'
    rw [l1] at g1
    injection g1 with g1
    subst g1
    have a := h2 (py! "Content-Type")
    have b := g2 (py! "Content-Type")
    unfold afterwards at a b
    cases hl : hr.reverse.lookup (py! "Content-Type") with
    | some v => rw [hl] at a b; exact k2 (a.trans (b.symm.trans l2))
    | none =>
      rw [hl] at a
      exact k2 a

end Verif.Props

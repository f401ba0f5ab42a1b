import Verif.Proofs.Trunc3
import Verif.Props.MmsDec
/-!
# Messages that arrive cut short (C73)

`Hdr`, `CType`, `Part` of `Verif.Spec.Mms` are what a conformant sender writes, as in C46.
-/
set_option autoImplicit false

namespace Verif.Props
open Verif Verif.Mms Verif.Spec.Mms Verif.Spec.Wsp

/-- the octets of a conformant message: headers, Content-Type, multipart body -/
def sent (hs : List Hdr) (c : CType) (ps : List Part) : List Nat :=
  hs.flatMap Hdr.enc ++ (0x84 :: c.enc ++ multipart ps)

/-- the full property: a message with parts of which the end is missing is refused -/
def C73_full : Prop := ∀ (hs : List Hdr) (c : CType) (ps : List Part) (n : Nat), (∀ h ∈ hs, h.WF) → c.WF →
    (∀ p ∈ ps, p.WF) → ps.length < 2 ^ 63 → ps ≠ [] → n < (sent hs c ps).length →
    ∃ e, decodeData ((sent hs c ps).take n) = .error e

/-- every conformant message cut off after its Content-Type header is accepted, without parts -/
theorem C73_no_body (hs : List Hdr) (c : CType) (ps : List Part) (hw : ∀ h ∈ hs, h.WF) (hc : c.WF) :
    ∃ m, decodeData ((sent hs c ps).take ((hs.flatMap Hdr.enc).length + 1 + c.enc.length)) = .ok m ∧ m.dataParts = [] ∧
      m.headers.get (py! "Content-Type") = some (.ct c.media c.params) := by
  have e : (sent hs c ps).take ((hs.flatMap Hdr.enc).length + 1 + c.enc.length) = hs.flatMap Hdr.enc ++ (0x84 :: c.enc) := by
    have : sent hs c ps = (hs.flatMap Hdr.enc ++ (0x84 :: c.enc)) ++ multipart ps := by simp [sent]
    rw [this]
    apply List.take_left'
    simp
    omega
  rw [e]
  refine ⟨_, decodeData_ct_only hs hw hc, rfl, ?_⟩
  simp only []
  rw [dict_get_set, if_pos rfl]

example := C73_no_body sampleHeaders (.constrained (.text (py! "a/b"))) sampleParts sampleHeaders_wf ⟨by decide, 97, rfl, by decide⟩

/-- a message cut off after its Content-Type header -/
theorem C73_refuted : ¬ C73_full := by
  intro h
  have hc : (CType.constrained (.known 35 (py! "application/vnd.wap.multipart.mixed"))).WF :=
    ⟨by decide, by decide +kernel⟩
  obtain ⟨e, he⟩ := h sampleHeaders _ sampleParts ((sampleHeaders.flatMap Hdr.enc).length + 1 + 1)
    sampleHeaders_wf hc sampleParts_wf (by decide) (by decide) (by decide +kernel)
  obtain ⟨m, hm, _⟩ := C73_no_body sampleHeaders _ sampleParts sampleHeaders_wf hc
  have hm : decodeData (List.take ((sampleHeaders.flatMap Hdr.enc).length + 1 + 1) _) = .ok m := hm
  rw [hm] at he
  cases he

/-- for any octets whatever: what is read as a message with parts is no part of a longer message; octets that follow
change nothing -/
theorem C73_parts_partial (pre suf : List Nat) (m : Msg) (h : decodeData pre = .ok m) (hp : m.dataParts ≠ []) :
    decodeData (pre ++ suf) = .ok m := by
  obtain ⟨hdrs, parts, s1, s2, h1, h2, rfl⟩ := decodeData_inv h
  have hp : parts ≠ [] := hp
  rcases headerLoop_trunc (pre.length + 1) ((pre ++ suf).length + 1) Msg.new.headers pre suf 0 rfl (by omega) (by omega)
    with ⟨e, s', a1⟩ | ⟨d1, s', a1, a2, _⟩ | ⟨d1, r, j, a1, _, a2⟩
  · have : decodeMessageHeader (It.new pre) = .err e s' := a1
    rw [h1] at this; cases this
  · have : decodeMessageHeader (It.new pre) = .ok d1 s' := a1
    rw [h1] at this
    injection this with b1 b2
    subst b2
    exact absurd (body_short _ a2 _ _ h2) hp
  · have e1 : decodeMessageHeader (It.new pre) = .ok d1 ⟨r, j⟩ := a1
    have e2 : decodeMessageHeader (It.new (pre ++ suf)) = .ok d1 ⟨r ++ suf, j⟩ := a2
    rw [h1] at e1
    injection e1 with b1 b2
    subst b1 b2
    rcases body_trunc r suf j with ⟨s', c1⟩ | ⟨e, s', c1⟩ | ⟨ps, r', j', c1, c2⟩
    · rw [h2] at c1; injection c1 with c1; exact absurd c1 hp
    · rw [h2] at c1; cases c1
    · rw [h2] at c1
      injection c1 with c1 c3
      subst c1
      unfold decodeData
      rw [M.bind_ok e2, M.bind_ok c2]
      rfl

example : ∃ m, decodeData [0x84, 0xa3, 1, 1, 2, 0x83, 72, 105] = .ok m ∧ m.dataParts ≠ [] := ⟨_, rfl, by decide +kernel⟩

/-- for any octets whatever: when a part of a message and the whole can both be read, the whole has the headers of the
part, set in the same order, and perhaps more of them -/
theorem C73_headers (pre suf : List Nat) (m m' : Msg) (h : decodeData pre = .ok m) (h' : decodeData (pre ++ suf) = .ok m') :
    ∃ hs hs' : List (Str × HVal), m.headers = hs.foldl (fun d h => d.set h.1 h.2) Msg.new.headers ∧
      m'.headers = (hs ++ hs').foldl (fun d h => d.set h.1 h.2) Msg.new.headers := by
  obtain ⟨hdrs, parts, s1, s2, h1, h2, rfl⟩ := decodeData_inv h
  obtain ⟨hdrs', parts', s1', s2', h1', h2', rfl⟩ := decodeData_inv h'
  rcases headerLoop_trunc (pre.length + 1) ((pre ++ suf).length + 1) Msg.new.headers pre suf 0 rfl (by omega) (by omega)
    with ⟨e, s', a1⟩ | ⟨d1, s', a1, _, ⟨hs, a2⟩, a3⟩ | ⟨d1, r, j, a1, ⟨hs, a2⟩, a3⟩
  · have : decodeMessageHeader (It.new pre) = .err e s' := a1
    rw [h1] at this; cases this
  · have : decodeMessageHeader (It.new pre) = .ok d1 s' := a1
    rw [h1] at this
    injection this with b1 b2
    subst b1
    obtain ⟨hs', e⟩ := a3 _ _ h1'
    refine ⟨hs, hs', a2, ?_⟩
    rw [List.foldl_append]
    rw [show List.foldl (fun d h => d.set h.1 h.2) Msg.new.headers hs = hdrs from a2.symm]
    exact e
  · have e1 : decodeMessageHeader (It.new pre) = .ok d1 ⟨r, j⟩ := a1
    have e2 : decodeMessageHeader (It.new (pre ++ suf)) = .ok d1 ⟨r ++ suf, j⟩ := a3
    rw [h1] at e1
    rw [h1'] at e2
    injection e1 with b1 b2
    injection e2 with b3 b4
    subst b1 b3
    exact ⟨hs, [], a2, by rw [List.append_nil]; exact a2⟩

/-- two headers, and the same cut after the first -/
example : ∃ m m', decodeData [0x8c, 0x82, 0x98, 65, 0] = .ok m' ∧ decodeData [0x8c, 0x82] = .ok m ∧ m ≠ m' :=
  ⟨_, _, rfl, rfl, by decide +kernel⟩

/-- a conformant message cut anywhere in its body, after the number of parts: StopIteration -/
theorem C73_body_partial (hs : List Hdr) (c : CType) (ps : List Part) (n : Nat) (hw : ∀ h ∈ hs, h.WF) (hc : c.WF)
    (hp : ∀ p ∈ ps, p.WF) (hl : ps.length < 2 ^ 63)
    (h1 : (hs.flatMap Hdr.enc ++ (0x84 :: c.enc ++ uintvar ps.length)).length ≤ n) (h2 : n < (sent hs c ps).length) :
    decodeData ((sent hs c ps).take n) = .error .stopIteration := by
  have e0 : sent hs c ps = (hs.flatMap Hdr.enc ++ (0x84 :: c.enc ++ uintvar ps.length)) ++ ps.flatMap Part.enc := by
    simp [sent, multipart]
  rw [e0, List.take_append, List.take_of_length_le h1]
  rw [e0, List.length_append] at h2
  obtain ⟨k, hk'⟩ : ∃ k, n - (hs.flatMap Hdr.enc ++ (0x84 :: c.enc ++ uintvar ps.length)).length = k := ⟨_, rfl⟩
  have hk : k < (ps.flatMap Part.enc).length := by omega
  rw [hk']
  obtain ⟨s', hb⟩ := body_cut ps hp hl k hk
  have e : hs.flatMap Hdr.enc ++ (0x84 :: c.enc ++ uintvar ps.length) ++ (ps.flatMap Part.enc).take k =
      hs.flatMap Hdr.enc ++ (0x84 :: c.enc ++ (uintvar ps.length ++ (ps.flatMap Part.enc).take k)) := by simp
  rw [e]
  unfold decodeData It.new
  rw [M.bind_ok (messageHeader_ct hs hw hc _), M.bind_err hb]

/-- the sample message of C46, cut in its last octet but one -/
example : (sampleHeaders.flatMap Hdr.enc ++ (0x84 :: (CType.constrained (.text (py! "a/b"))).enc ++
      uintvar sampleParts.length)).length ≤ 95 ∧ 95 < (sent sampleHeaders (.constrained (.text (py! "a/b"))) sampleParts).length := by
  decide +kernel

/-- a conformant message of which any proper part has arrived: an exception, or a message without parts.  Missing
compared with `C73_full`: the exception, when the cut is before the end of the number of parts (`C73_no_body`). -/
theorem C73_partial (hs : List Hdr) (c : CType) (ps : List Part) (n : Nat) (hw : ∀ h ∈ hs, h.WF) (hc : c.WF)
    (hp : ∀ p ∈ ps, p.WF) (hl : ps.length < 2 ^ 63) (h : n < (sent hs c ps).length) :
    (∃ e, decodeData ((sent hs c ps).take n) = .error e) ∨
      ∃ m, decodeData ((sent hs c ps).take n) = .ok m ∧ m.dataParts = [] := by
  by_cases h1 : (hs.flatMap Hdr.enc ++ (0x84 :: c.enc ++ uintvar ps.length)).length ≤ n
  · exact .inl ⟨_, C73_body_partial hs c ps n hw hc hp hl h1 h⟩
  · cases hd : decodeData ((sent hs c ps).take n) with
    | error e => exact .inl ⟨e, rfl⟩
    | ok m =>
      refine .inr ⟨m, rfl, ?_⟩
      by_contra hm
      -- with parts, the same message would be read from the octets up to the end of the number of parts only
      have hps : ps.flatMap Part.enc = [] ∨ ps.flatMap Part.enc ≠ [] := em _
      have e0 : sent hs c ps = (hs.flatMap Hdr.enc ++ (0x84 :: c.enc ++ uintvar ps.length)) ++ ps.flatMap Part.enc := by
        simp [sent, multipart]
      have e1 : (hs.flatMap Hdr.enc ++ (0x84 :: c.enc ++ uintvar ps.length)) =
          (sent hs c ps).take n ++ (hs.flatMap Hdr.enc ++ (0x84 :: c.enc ++ uintvar ps.length)).drop n := by
        rw [e0, List.take_append_of_le_length (by omega), List.take_append_drop]
      have h2 := C73_parts_partial _ ((hs.flatMap Hdr.enc ++ (0x84 :: c.enc ++ uintvar ps.length)).drop n) m hd hm
      rw [← e1] at h2
      rcases hps with h3 | h3
      · have hz : ps = [] := by
          cases ps with
          | nil => rfl
          | cons p ps =>
            exfalso
            simp only [List.flatMap_cons, List.append_eq_nil_iff] at h3
            have := h3.1
            simp only [Part.enc, List.append_eq_nil_iff] at this
            exact uintvar_ne_nil _ this.1.1.1
        subst hz
        have h4 := decodeData_ok hs hw hc [] (by simp) (by decide) []
        have e2 : hs.flatMap Hdr.enc ++ (0x84 :: c.enc ++ (multipart [] ++ [])) =
            hs.flatMap Hdr.enc ++ (0x84 :: c.enc ++ uintvar ([] : List Part).length) := by simp [multipart]
        rw [e2, h2] at h4
        injection h4 with h4
        rw [h4] at hm
        exact hm rfl
      · have h4 := C73_body_partial hs c ps _ hw hc hp hl le_rfl (by
          have := List.length_pos_iff.mpr h3
          have e3 := congrArg List.length e0
          rw [List.length_append (bs := ps.flatMap Part.enc)] at e3
          omega)
        rw [e0, List.take_left] at h4
        rw [h4] at h2
        cases h2

example := C73_partial sampleHeaders (.constrained (.text (py! "a/b"))) sampleParts 95 sampleHeaders_wf ⟨by decide, 97, rfl, by decide⟩
  sampleParts_wf (by decide) (by decide +kernel)

end Verif.Props

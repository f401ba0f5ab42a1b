import Verif.Proofs.CutHdr
import Verif.Props.Truncated
/-!
# C73 continued: exactly which cuts of a conformant message are accepted, and what is shown then
-/
set_option autoImplicit false

namespace Verif.Props
open Verif Verif.Mms Verif.Spec.Mms Verif.Spec.Wsp

theorem take_middle (a b z : List Nat) {k : Nat} (hk : k ≤ b.length) :
    (a ++ (b ++ z)).take (a.length + k) = a ++ b.take k := by
  rw [List.take_length_add_append, List.take_append_of_le_length hk]

/-- what the object shows after the headers `hs` alone -/
def HeadersAlone (hs : List Hdr) (m : Msg) : Prop :=
  m.dataParts = [] ∧ m.pages = [] ∧ ∀ n, m.headers.get n = expected hs n

theorem headersAlone_new (hs : List Hdr) : HeadersAlone hs { Msg.new with headers := setAll hs Msg.new.headers } := by
  refine ⟨rfl, rfl, fun n => ?_⟩
  simp only []
  rw [setAll_get, defaults_eq]
  rfl

/-- headers, and then octets of which no header can be read for want of more, with nothing left -/
theorem data_starved (hs : List Hdr) (hw : ∀ h ∈ hs, h.WF) (r : List Nat)
    (h : decodeHeader ⟨r, 0⟩ = .err .stopIteration ⟨[], 0⟩) :
    decodeData (hs.flatMap Hdr.enc ++ r) = .ok { Msg.new with headers := setAll hs Msg.new.headers } := by
  obtain ⟨fuel, hf⟩ := messageHeader_rest hs hw r
  rw [headerLoop] at hf
  simp only [h] at hf
  unfold decodeData It.new
  rw [M.bind_ok hf]
  have : decodeMessageBody ⟨[], 0⟩ = .ok [] ⟨[], 0⟩ := rfl
  rw [M.bind_ok this]
  rfl

theorem data_runtime (hs : List Hdr) (hw : ∀ h ∈ hs, h.WF) (r : List Nat) {s : It}
    (h : decodeHeader ⟨r, 0⟩ = .err .runtimeError s) :
    decodeData (hs.flatMap Hdr.enc ++ r) = .error .runtimeError := by
  obtain ⟨fuel, hf⟩ := messageHeader_rest hs hw r
  rw [headerLoop] at hf
  simp only [h] at hf
  unfold decodeData It.new
  rw [M.bind_err hf]

/-- C73: a message cut between two headers is accepted and shows the headers before the cut. -/
theorem C73_between (as bs : List Hdr) (c : CType) (ps : List Part) (hw : ∀ h ∈ as ++ bs, h.WF) :
    ∃ m, decodeData ((sent (as ++ bs) c ps).take (as.flatMap Hdr.enc).length) = .ok m ∧ HeadersAlone as m := by
  have e : (sent (as ++ bs) c ps).take (as.flatMap Hdr.enc).length = as.flatMap Hdr.enc ++ [] := by
    unfold sent
    rw [List.flatMap_append, List.append_assoc, List.take_left, List.append_nil]
  rw [e]
  exact ⟨_, data_starved as (fun h hh => hw h (by simp [hh])) [] rfl, headersAlone_new as⟩

/-- C73: so is a message cut inside an application header, after its second octet or later. -/
theorem C73_application (as bs : List Hdr) (n v : List Nat) (c : CType) (ps : List Part)
    (hw : ∀ h ∈ as ++ .app n v :: bs, h.WF) (k : Nat) (h2 : 2 ≤ k) (hk : k < (Hdr.app n v).enc.length) :
    ∃ m, decodeData ((sent (as ++ .app n v :: bs) c ps).take ((as.flatMap Hdr.enc).length + k)) = .ok m ∧
      HeadersAlone as m := by
  have e : (sent (as ++ .app n v :: bs) c ps).take ((as.flatMap Hdr.enc).length + k) =
      as.flatMap Hdr.enc ++ ((Hdr.app n v).enc).take k := by
    unfold sent
    rw [List.flatMap_append, List.flatMap_cons, List.append_assoc, List.append_assoc, take_middle _ _ _ (by omega)]
  have ha : (Hdr.app n v).WF := hw _ (by simp)
  rw [e]
  exact ⟨_, data_starved as (fun h hh => hw h (by simp [hh])) _ (app_cut ha.1 ha.2.1 h2 hk), headersAlone_new as⟩

/-- C73: cut after the first octet of an application header: StopIteration (the octet is taken for the number of parts). -/
theorem C73_first_octet (as bs : List Hdr) (n v : List Nat) (c : CType) (ps : List Part)
    (hw : ∀ h ∈ as ++ .app n v :: bs, h.WF) :
    decodeData ((sent (as ++ .app n v :: bs) c ps).take ((as.flatMap Hdr.enc).length + 1)) = .error .stopIteration := by
  have e : (sent (as ++ .app n v :: bs) c ps).take ((as.flatMap Hdr.enc).length + 1) =
      as.flatMap Hdr.enc ++ ((Hdr.app n v).enc).take 1 := by
    unfold sent
    rw [List.flatMap_append, List.flatMap_cons, List.append_assoc, List.append_assoc,
      take_middle _ _ _ (hdr_enc_pos _)]
  have ha : (Hdr.app n v).WF := hw _ (by simp)
  obtain ⟨x, h1, h2, h3, h4⟩ := app_first (v := v) ha.1
  rw [e, h3]
  obtain ⟨fuel, hf⟩ := messageHeader_rest as (fun h hh => hw h (by simp [hh])) [x]
  rw [headerLoop] at hf
  simp only [h4] at hf
  unfold decodeData It.new
  rw [M.bind_ok hf]
  have hu : decodeUintVar ⟨[x], 1⟩ = .ok x ⟨[], 0⟩ := by
    have : [x] = uintvar x := by
      unfold uintvar
      rw [show x / 128 = 0 by omega, uvHigh, dif_pos rfl, List.nil_append, Nat.mod_eq_of_lt (by omega)]
    have h := decodeUintVar_uintvar x [] 1
    rw [List.append_nil, ← this] at h
    exact h
  have hb : ∃ s, decodeMessageBody ⟨[x], 1⟩ = .err .stopIteration s := by
    unfold decodeMessageBody
    simp only [hu]
    rw [M.bind_ok (xrangeCheck_ok (by omega) _)]
    obtain ⟨y, rfl⟩ : ∃ y, x = y + 1 := ⟨x - 1, by omega⟩
    exact ⟨_, rfl⟩
  obtain ⟨s, hb⟩ := hb
  rw [M.bind_err hb]

/-- C73: cut inside any other header, after its number or later: RuntimeError. -/
theorem C73_inside (as bs : List Hdr) (h : Hdr) (c : CType) (ps : List Part) (hw : ∀ x ∈ as ++ h :: bs, x.WF)
    (ha : ∀ n v, h ≠ .app n v) (k : Nat) (h0 : 0 < k) (hk : k < h.enc.length) :
    decodeData ((sent (as ++ h :: bs) c ps).take ((as.flatMap Hdr.enc).length + k)) = .error .runtimeError := by
  have e : (sent (as ++ h :: bs) c ps).take ((as.flatMap Hdr.enc).length + k) = as.flatMap Hdr.enc ++ h.enc.take k := by
    unfold sent
    rw [List.flatMap_append, List.flatMap_cons, List.append_assoc, List.append_assoc, take_middle _ _ _ (by omega)]
  rw [e]
  obtain ⟨s, hs⟩ := field_cut (hdr_isField (hw h (by simp)) ha) h0 hk
  exact data_runtime as (fun x hx => hw x (by simp [hx])) _ hs

/-- C73: cut inside the Content-Type header: RuntimeError. -/
theorem C73_content_type (hs : List Hdr) (c : CType) (ps : List Part) (hw : ∀ h ∈ hs, h.WF) (hc : c.WF) (k : Nat)
    (h0 : 0 < k) (hk : k < 1 + c.enc.length) :
    decodeData ((sent hs c ps).take ((hs.flatMap Hdr.enc).length + k)) = .error .runtimeError := by
  have hk' : k < (0x84 :: c.enc).length := by rw [List.length_cons]; omega
  have e : (sent hs c ps).take ((hs.flatMap Hdr.enc).length + k) = hs.flatMap Hdr.enc ++ (0x84 :: c.enc).take k := by
    unfold sent
    rw [take_middle _ _ _ (le_of_lt hk')]
  rw [e]
  obtain ⟨s, hs'⟩ := field_cut (ctype_isField hc) h0 hk'
  exact data_runtime hs hw _ hs'

/-- C73: cut in front of the number of parts or inside it: accepted, with all headers and no parts. -/
theorem C73_count (hs : List Hdr) (c : CType) (ps : List Part) (hw : ∀ h ∈ hs, h.WF) (hc : c.WF) (k : Nat)
    (hk : k < (uintvar ps.length).length) :
    ∃ m, decodeData ((sent hs c ps).take ((hs.flatMap Hdr.enc).length + (1 + c.enc.length + k))) = .ok m ∧
      m.dataParts = [] ∧ m.headers.get (py! "Content-Type") = some (.ct c.media c.params) ∧
      ∀ n, n ≠ py! "Content-Type" → m.headers.get n = expected hs n := by
  have e : (sent hs c ps).take ((hs.flatMap Hdr.enc).length + (1 + c.enc.length + k)) =
      hs.flatMap Hdr.enc ++ (0x84 :: c.enc ++ (uintvar ps.length).take k) := by
    unfold sent multipart
    rw [List.take_length_add_append, show 1 + c.enc.length + k = (0x84 :: c.enc).length + k by rw [List.length_cons]; omega,
      take_middle _ _ _ (le_of_lt hk)]
  rw [e]
  have hu : ∃ s, decodeUintVar ⟨(uintvar ps.length).take k, 0⟩ = .err .stopIteration s := by
    have h1 := decodeUintVar_uintvar ps.length [] 0
    rw [List.append_nil] at h1
    have hb : (uintvar ps.length).take k ++ (uintvar ps.length).drop k = uintvar ps.length := List.take_append_drop _ _
    rcases (Trunc.uintVar (w := False)) ((uintvar ps.length).take k) ((uintvar ps.length).drop k) 0 with
      ⟨e, s, he, hs⟩ | ⟨a, r, i, _, h2⟩ | ⟨e, r, i, _, h2⟩
    · rcases hs with rfl | ⟨h, _⟩
      · exact ⟨s, he⟩
      · exact h.elim
    · rw [hb, h1] at h2
      injection h2 with _ h2
      injection h2 with h2 _
      have := congrArg List.length h2
      simp at this
      omega
    · rw [hb, h1] at h2
      cases h2
  obtain ⟨s, hu⟩ := hu
  have hb : decodeMessageBody ⟨(uintvar ps.length).take k, 0⟩ = .ok [] s := by
    unfold decodeMessageBody
    simp only [hu]
  refine ⟨{ Msg.new with headers := (setAll hs Msg.new.headers).set (py! "Content-Type") (.ct c.media c.params) }, ?_, rfl, ?_, ?_⟩
  · unfold decodeData It.new
    rw [M.bind_ok (messageHeader_ct hs hw hc _), M.bind_ok hb]
    rfl
  · simp only []
    rw [dict_get_set, if_pos rfl]
  · intro n hn
    simp only []
    rw [dict_get_set, if_neg (fun e => hn e.symm), setAll_get, defaults_eq]
    rfl

/-- where a cut in the headers is: between two of them, or inside one -/
theorem cut_place (hs : List Hdr) (n : Nat) (h : n ≤ (hs.flatMap Hdr.enc).length) :
    (∃ as bs, hs = as ++ bs ∧ n = (as.flatMap Hdr.enc).length) ∨
      ∃ as x bs k, hs = as ++ x :: bs ∧ n = (as.flatMap Hdr.enc).length + k ∧ 0 < k ∧ k < x.enc.length := by
  induction hs generalizing n with
  | nil => exact .inl ⟨[], [], rfl, by simpa using h⟩
  | cons x hs ih =>
    rw [List.flatMap_cons, List.length_append] at h
    by_cases h0 : n = 0
    · exact .inl ⟨[], x :: hs, rfl, by simpa using h0⟩
    by_cases h1 : n < x.enc.length
    · exact .inr ⟨[], x, hs, n, rfl, by simp, by omega, h1⟩
    rcases ih (n - x.enc.length) (by omega) with ⟨as, bs, rfl, h2⟩ | ⟨as, y, bs, k, rfl, h2, h3, h4⟩
    · exact .inl ⟨x :: as, bs, rfl, by rw [List.flatMap_cons, List.length_append]; omega⟩
    · exact .inr ⟨x :: as, y, bs, k, rfl, by rw [List.flatMap_cons, List.length_append]; omega, h3, h4⟩

/-- the cuts that go unnoticed: between two headers, inside an application header from its second octet on, and between the
content type and the end of the number of parts -/
def Unnoticed (hs : List Hdr) (c : CType) (ps : List Part) (n : Nat) : Prop :=
  (∃ as bs, hs = as ++ bs ∧ n = (as.flatMap Hdr.enc).length) ∨
  (∃ as name value bs k, hs = as ++ .app name value :: bs ∧ n = (as.flatMap Hdr.enc).length + k ∧ 2 ≤ k ∧
    k < (Hdr.app name value).enc.length) ∨
  ∃ k, k < (uintvar ps.length).length ∧ n = (hs.flatMap Hdr.enc).length + (1 + c.enc.length + k)

/-- C73: a conformant message of which the end is missing is accepted if and only if the cut is one of these. -/
theorem C73_iff (hs : List Hdr) (c : CType) (ps : List Part) (n : Nat) (hw : ∀ h ∈ hs, h.WF) (hc : c.WF)
    (hp : ∀ p ∈ ps, p.WF) (hl : ps.length < 2 ^ 63) (h : n < (sent hs c ps).length) :
    (∃ m, decodeData ((sent hs c ps).take n) = .ok m) ↔ Unnoticed hs c ps n := by
  constructor
  · rintro ⟨m, hm⟩
    by_cases h1 : n ≤ (hs.flatMap Hdr.enc).length
    · rcases cut_place hs n h1 with ⟨as, bs, e, hn⟩ | ⟨as, x, bs, k, e, hn, h0, hk⟩
      · exact .inl ⟨as, bs, e, hn⟩
      · by_cases ha : ∃ a b, x = .app a b
        · obtain ⟨a, b, rfl⟩ := ha
          by_cases hk2 : 2 ≤ k
          · exact .inr (.inl ⟨as, a, b, bs, k, e, hn, hk2, hk⟩)
          · exfalso
            have hk1 : k = 1 := by omega
            subst hk1 hn e
            rw [C73_first_octet as bs a b c ps hw] at hm
            cases hm
        · exfalso
          subst hn e
          rw [C73_inside as bs x c ps hw (fun a b e => ha ⟨a, b, e⟩) k h0 hk] at hm
          cases hm
    · by_cases h2 : n < (hs.flatMap Hdr.enc).length + (1 + c.enc.length)
      · exfalso
        obtain ⟨k, rfl⟩ : ∃ k, n = (hs.flatMap Hdr.enc).length + k := ⟨n - (hs.flatMap Hdr.enc).length, by omega⟩
        rw [C73_content_type hs c ps hw hc k (by omega) (by omega)] at hm
        cases hm
      · by_cases h3 : n < (hs.flatMap Hdr.enc).length + (1 + c.enc.length) + (uintvar ps.length).length
        · exact .inr (.inr ⟨n - (hs.flatMap Hdr.enc).length - (1 + c.enc.length), by omega, by omega⟩)
        · exfalso
          rw [C73_body_partial hs c ps n hw hc hp hl (by
            rw [List.length_append, List.length_append, List.length_cons]; omega) h] at hm
          cases hm
  · rintro (⟨as, bs, rfl, rfl⟩ | ⟨as, a, b, bs, k, rfl, rfl, h2, hk⟩ | ⟨k, hk, rfl⟩)
    · obtain ⟨m, hm, _⟩ := C73_between as bs c ps hw
      exact ⟨m, hm⟩
    · obtain ⟨m, hm, _⟩ := C73_application as bs a b c ps hw k h2 hk
      exact ⟨m, hm⟩
    · obtain ⟨m, hm, _⟩ := C73_count hs c ps hw hc k hk
      exact ⟨m, hm⟩

/-- a message with an application header between two others -/
def cutSample : List Hdr := [.transactionId (py! "t"), .app (py! "X-A") (py! "b"), .messageId (py! "m")]

example : (∀ h ∈ cutSample, h.WF) ∧
    (decodeData ((sent cutSample (.constrained (.text (py! "a/b"))) []).take 3)).isOk = true ∧
    decodeData ((sent cutSample (.constrained (.text (py! "a/b"))) []).take 4) = .error .stopIteration ∧
    (decodeData ((sent cutSample (.constrained (.text (py! "a/b"))) []).take 5)).isOk = true ∧
    decodeData ((sent cutSample (.constrained (.text (py! "a/b"))) []).take 10) = .error .runtimeError := by
  refine ⟨?_, by decide +kernel, by decide +kernel, by decide +kernel, by decide +kernel⟩
  intro h hh
  simp only [cutSample, List.mem_cons, List.not_mem_nil, or_false] at hh
  rcases hh with rfl | rfl | rfl
  · show (0 : Nat) ∉ _
    decide +kernel
  · exact ⟨⟨by decide, by decide +kernel⟩, by unfold IsText; decide +kernel, by decide +kernel⟩
  · show (0 : Nat) ∉ _
    decide +kernel

end Verif.Props

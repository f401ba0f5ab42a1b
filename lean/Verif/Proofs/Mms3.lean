import Verif.Proofs.Mms2
/-!
# Lemmas: whole messages, encoded strings, lost part headers
-/
set_option autoImplicit false

namespace Verif.Mms
open Verif.Spec.Wsp Verif.Spec.Mms

theorem setApps_get (hs : List PHdr) (d : Dict HVal) (n : Str) :
    (setApps hs d).get n = (match lastPartValue hs n with | some v => some (.v (.str v)) | none => d.get n) := by
  unfold setApps lastPartValue
  induction hs using List.reverseRecOn with
  | nil => rfl
  | append_singleton hs h ih =>
    rw [List.foldl_append, List.foldl_append]
    simp only [List.foldl_cons, List.foldl_nil]
    rw [dict_get_set, ih]
    by_cases hn : h.name = n
    · rw [if_pos hn, if_pos hn]
    · rw [if_neg hn, if_neg hn]

theorem messageHeader_ct (hs : List Hdr) (hw : ∀ h ∈ hs, h.WF) {c : CType} (hc : c.WF) (rest : List Nat) :
    decodeMessageHeader ⟨hs.flatMap Hdr.enc ++ (0x84 :: c.enc ++ rest), 0⟩
      = .ok ((setAll hs Msg.new.headers).set (py! "Content-Type") (.ct c.media c.params)) ⟨rest, 0⟩ := by
  unfold decodeMessageHeader
  have := hdrs_length_le hs
  apply headerLoop_ct hs hw hc
  simp only [List.length_append]
  omega

theorem messageHeader_end (hs : List Hdr) (hw : ∀ h ∈ hs, h.WF) :
    decodeMessageHeader ⟨hs.flatMap Hdr.enc, 0⟩ = .ok (setAll hs Msg.new.headers) ⟨[], 0⟩ := by
  unfold decodeMessageHeader
  have := hdrs_length_le hs
  apply headerLoop_end hs hw
  simp only []
  omega

theorem decodeData_ok (hs : List Hdr) (hw : ∀ h ∈ hs, h.WF) {c : CType} (hc : c.WF) (ps : List Part)
    (hp : ∀ p ∈ ps, p.WF) (hl : ps.length < 2 ^ 63) (rest : List Nat) :
    decodeData (hs.flatMap Hdr.enc ++ (0x84 :: c.enc ++ (multipart ps ++ rest)))
      = .ok { Msg.new with
          headers := (setAll hs Msg.new.headers).set (py! "Content-Type") (.ct c.media c.params)
          dataParts := ps.map partOf } := by
  unfold decodeData It.new
  rw [M.bind_ok (messageHeader_ct hs hw hc _), M.bind_ok (decodeMessageBody_ok ps hp hl rest)]
  rfl

theorem decodeData_end (hs : List Hdr) (hw : ∀ h ∈ hs, h.WF) :
    decodeData (hs.flatMap Hdr.enc) = .ok { Msg.new with headers := setAll hs Msg.new.headers } := by
  unfold decodeData It.new
  rw [M.bind_ok (messageHeader_end hs hw)]
  have : decodeMessageBody ⟨[], 0⟩ = .ok [] ⟨[], 0⟩ := rfl
  rw [M.bind_ok this]
  rfl

theorem decodeData_ct_only (hs : List Hdr) (hw : ∀ h ∈ hs, h.WF) {c : CType} (hc : c.WF) :
    decodeData (hs.flatMap Hdr.enc ++ (0x84 :: c.enc)) = .ok { Msg.new with
      headers := (setAll hs Msg.new.headers).set (py! "Content-Type") (.ct c.media c.params) } := by
  have h := messageHeader_ct hs hw hc []
  rw [List.append_nil] at h
  unfold decodeData It.new
  rw [M.bind_ok h]
  have : decodeMessageBody ⟨[], 0⟩ = .ok [] ⟨[], 0⟩ := rfl
  rw [M.bind_ok this]
  rfl

theorem encodedString_raw {s : List Nat} (h0 : 0 ∉ s) {c : Nat} (hc : s.head? = some c) (h1 : 32 ≤ c) (h2 : c ≠ 127)
    (rest : List Nat) : decodeEncodedStringValue ⟨s ++ [0] ++ rest, 0⟩ = .ok s ⟨rest, 0⟩ := by
  cases s with
  | nil => cases hc
  | cons d t =>
    injection hc with hc
    subst hc
    have ht := decodeTextString_plain (d :: t) h0 (by simpa using h2) rest 0
    rw [List.append_assoc, List.cons_append]
    unfold decodeEncodedStringValue
    rw [orDE_err (M.bind_err (decodeValueLength_err (by omega) _))]
    exact ht

/-- a Content-Location with its well-known number is taken for a Message-Size -/
theorem location_lost {t : List Nat} (h : IsToken t) :
    decodeHeader ⟨0x8e :: text t, 0⟩ = .err .stopIteration ⟨[], 0⟩ := by
  have hd := decodeTokenText_token h []
  obtain ⟨c, t', rfl, h1, h2, _⟩ := token_head h
  have htext : text (c :: t') = c :: (t' ++ [0]) := by
    unfold text
    simp only [if_neg (show ¬ c ≥ 127 by omega), List.nil_append, List.cons_append]
  rw [htext]
  rw [List.cons_append] at hd
  have hm : decodeMmsHeader ⟨0x8e :: c :: (t' ++ [0]), 0⟩ = .err .decodeError ⟨c :: (t' ++ [0]), 0⟩ := by
    unfold decodeMmsHeader
    have h14 : decodeShortIntegerFromByte 0x8e = .ok 14 := rfl
    rw [M.bind_ok (preview_zero _ _), h14, M.bind_ok (M.lift_ok _ _)]
    show (do let _ ← next; let v ← wrapFatal (decodeMmsValue .longInteger); pure (py! "Message-Size", v) : D _) _ = _
    rw [M.bind_ok (next_cons _ _ _)]
    apply M.bind_err
    unfold wrapFatal M.tryCatch
    have : decodeMmsValue .longInteger ⟨c :: (t' ++ [0]), 0⟩ = .err .decodeError ⟨c :: (t' ++ [0]), 0⟩ :=
      M.bind_err (decodeLongInteger_err (by omega) _)
    rw [this]
    rfl
  unfold decodeHeader
  rw [orDE_err hm]
  unfold decodeWspHeader
  have hw : decodeWellKnownHeader ⟨c :: (t' ++ [0]), 0⟩ = .err .decodeError ⟨c :: (t' ++ [0]), 0⟩ :=
    M.bind_err (decodeShortInteger_err (by omega) _)
  rw [orDE_err hw]
  unfold decodeApplicationHeader
  rw [M.bind_ok (orDE_ok hd)]
  rfl

theorem partLocation {c : CType} (hc : c.WF) {t : List Nat} (ht : IsToken t) (data rest : List Nat)
    (hl : (Part.mk c [.location t] data).head.length < 2 ^ 63) (hd : data.length < 2 ^ 63) :
    decodePart ⟨(Part.mk c [.location t] data).enc ++ rest, 0⟩ = .ok
      { ctParams := c.params, headers := [(py! "Content-Type", .ct c.media c.params)], filename := none,
        data := some data } ⟨rest, 0⟩ := by
  have hh : (Part.mk c [.location t] data).head = c.enc ++ 0x8e :: text t := by simp [Part.head, PHdr.enc]
  unfold decodePart Part.enc
  rw [hh] at hl ⊢
  simp only [List.append_assoc]
  have hinner : partHeaders (c.enc ++ 0x8e :: text t) (It.new (c.enc ++ 0x8e :: text t))
      = .ok (c.media, c.params, [(py! "Content-Type", .ct c.media c.params)]) ⟨[], 0⟩ := by
    unfold partHeaders It.new
    rw [M.bind_ok (ctype_ok hc _)]
    simp only []
    have : ∀ fuel, partHeaderLoop (fuel + 1) [(py! "Content-Type", .ct c.media c.params)] ⟨0x8e :: text t, 0⟩
        = .ok [(py! "Content-Type", .ct c.media c.params)] ⟨[], 0⟩ := by
      intro fuel
      simp only [partHeaderLoop, location_lost ht]
    rw [M.bind_ok (this _)]
    rfl
  have hf : onFresh (c.enc ++ 0x8e :: text t) (partHeaders (c.enc ++ 0x8e :: text t)) ⟨data ++ rest, 0⟩
      = .ok (c.media, c.params, [(py! "Content-Type", .ct c.media c.params)]) ⟨data ++ rest, 0⟩ := by
    unfold onFresh; rw [hinner]
  have hn := nextN_ok (c.enc ++ 0x8e :: text t) (data ++ rest)
  rw [List.append_assoc] at hn
  rw [M.bind_ok (decodeUintVar_uintvar _ _ _), M.bind_ok (decodeUintVar_uintvar _ _ _), M.bind_ok (xrangeCheck_ok hl _),
    M.bind_ok hn, M.bind_ok hf]
  simp only []
  rw [M.bind_ok (xrangeCheck_ok hd _), M.bind_ok (nextN_ok _ _)]
  rfl

theorem lastValue_none {hs : List Hdr} {n : List Nat} : lastValue hs n = none ↔ ∀ h ∈ hs, h.name ≠ n := by
  unfold lastValue
  induction hs using List.reverseRecOn with
  | nil => simp
  | append_singleton hs h ih =>
    rw [List.foldl_append]
    simp only [List.foldl_cons, List.foldl_nil]
    by_cases hn : h.name = n
    · rw [if_pos hn]
      constructor
      · intro e; cases e
      · intro e; exact absurd hn (e h (by simp))
    · rw [if_neg hn, ih]
      constructor
      · intro e x hx
        rcases List.mem_append.1 hx with hx | hx
        · exact e x hx
        · rw [List.mem_singleton] at hx; subst hx; exact hn
      · intro e x hx; exact e x (by simp [hx])

theorem lastValue_some {hs : List Hdr} {n : List Nat} {v : HVal} (h : lastValue hs n = some v) :
    ∃ x ∈ hs, x.name = n ∧ x.value = v := by
  unfold lastValue at h
  induction hs using List.reverseRecOn with
  | nil => cases h
  | append_singleton hs x ih =>
    rw [List.foldl_append] at h
    simp only [List.foldl_cons, List.foldl_nil] at h
    by_cases hn : x.name = n
    · rw [if_pos hn] at h
      injection h with h
      exact ⟨x, by simp, hn, h⟩
    · rw [if_neg hn] at h
      obtain ⟨y, hy, h⟩ := ih h
      exact ⟨y, by simp [hy], h⟩

theorem name_inj {hs : List Hdr} (hnd : (hs.map Hdr.name).Nodup) {x y : Hdr} (hx : x ∈ hs) (hy : y ∈ hs)
    (h : x.name = y.name) : x = y := by
  induction hs with
  | nil => cases hx
  | cons a hs ih =>
    simp only [List.map_cons, List.nodup_cons, List.mem_map, not_exists, not_and] at hnd
    rcases List.mem_cons.1 hx with hx' | hx'
    · rcases List.mem_cons.1 hy with hy' | hy'
      · rw [hx', hy']
      · subst hx'; exact absurd h.symm (hnd.1 y hy')
    · rcases List.mem_cons.1 hy with hy' | hy'
      · subst hy'; exact absurd h (hnd.1 x hx')
      · exact ih hnd.2 hx' hy'

theorem lastValue_perm {hs hs' : List Hdr} (hp : hs.Perm hs') (hnd : (hs.map Hdr.name).Nodup) (n : List Nat) :
    lastValue hs n = lastValue hs' n := by
  cases h : lastValue hs n with
  | none =>
    symm
    rw [lastValue_none] at h ⊢
    intro x hx
    exact h x (hp.mem_iff.2 hx)
  | some v =>
    obtain ⟨x, hx, hn, hv⟩ := lastValue_some h
    cases h' : lastValue hs' n with
    | none => exact absurd hn (lastValue_none.1 h' x (hp.mem_iff.1 hx))
    | some w =>
      obtain ⟨y, hy, hn', hv'⟩ := lastValue_some h'
      have := name_inj hnd hx (hp.mem_iff.2 hy) (hn.trans hn'.symm)
      subst this
      rw [← hv, ← hv']

end Verif.Mms

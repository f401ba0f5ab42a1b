import Verif.Props.Takeout
/-!
# C120: damage to a part stays in this part
-/
set_option autoImplicit false

namespace Verif.Props
open Verif.Mms Verif.Spec.Mms Verif.Spec.Wsp

/-- whatever takes the place of the headers `ct` and the data `d` of an entry, with the same lengths -/
theorem decodePart_damage {o : List Nat} {p : DataPart} (h : ReadAlone o p) :
    ∃ a ct d, o = a ++ ct ++ d ∧ p.data = some d ∧ p.filename = none ∧
      ∀ ct', ct'.length = ct.length →
        (∃ e, ∀ d' r, d'.length = d.length → ∃ s, decodePart ⟨a ++ ct' ++ d' ++ r, 0⟩ = .err e s) ∨
        ∃ ps hd, (ct' = ct → ps = p.ctParams ∧ hd = p.headers) ∧
          ∀ d' r, d'.length = d.length → decodePart ⟨a ++ ct' ++ d' ++ r, 0⟩ =
            .ok { ctParams := ps, headers := hd, filename := none, data := some d' } ⟨r, 0⟩ := by
  have h := h []
  rw [List.append_nil] at h
  unfold decodePart at h
  obtain ⟨hl, s1, h1, h⟩ := bind_ok_invM h
  obtain ⟨dl, s2, h2, h⟩ := bind_ok_invM h
  obtain ⟨_, s3, h3, h⟩ := bind_ok_invM h
  obtain ⟨ct, s4, h4, h⟩ := bind_ok_invM h
  obtain ⟨⟨m, ps, hd⟩, s5, h5, h⟩ := bind_ok_invM h
  obtain ⟨_, s6, h6, h⟩ := bind_ok_invM h
  obtain ⟨d, s7, h7, h⟩ := bind_ok_invM h
  injection h with hp hs
  subst hp hs
  obtain ⟨c1, _, e1, k1, f1⟩ := uintVarLoop_local _ _ _ _ h1
  obtain ⟨c2, _, e2, k2, f2⟩ := uintVarLoop_local _ _ _ _ h2
  obtain ⟨a3, b3⟩ := xrangeCheck_state h3
  subst a3
  obtain ⟨e4, k4, _⟩ := nextN_local _ _ _ _ h4
  have l4 := (nextN_count _ _ _ _ h4).1
  have a5 := onFresh_state h5
  subst a5
  obtain ⟨a6, b6⟩ := xrangeCheck_state h6
  subst a6
  obtain ⟨e7, k7, _⟩ := nextN_local _ _ _ _ h7
  have l7 := (nextN_count _ _ _ _ h7).1
  have e1 : o = c1 ++ s1.rem := e1
  refine ⟨c1 ++ c2, ct, d, ?_, rfl, rfl, ?_⟩
  · rw [e1, e2, e4, e7]; simp
  · intro ct' hct
    have g1 : ∀ d' r, decodeUintVar ⟨c1 ++ c2 ++ ct' ++ d' ++ r, 0⟩ = .ok hl ⟨c2 ++ (ct' ++ (d' ++ r)), 0⟩ := by
      intro d' r
      have := f1 (c2 ++ (ct' ++ (d' ++ r)))
      unfold decodeUintVar
      simpa using this
    have g2 : ∀ d' r, decodeUintVar ⟨c2 ++ (ct' ++ (d' ++ r)), 0⟩ = .ok dl ⟨ct' ++ (d' ++ r), 0⟩ := fun d' r => f2 _
    have g4 : ∀ r, nextN hl ⟨ct' ++ r, 0⟩ = .ok ct' ⟨r, 0⟩ := by
      intro r
      have := nextN_ok ct' r
      rwa [hct, l4] at this
    cases hf : partHeaders ct' (It.new ct') with
    | err e s =>
      refine .inl ⟨e, fun d' r hd' => ⟨⟨d' ++ r, 0⟩, ?_⟩⟩
      have g5 : onFresh ct' (partHeaders ct') ⟨d' ++ r, 0⟩ = .err e ⟨d' ++ r, 0⟩ := by
        unfold onFresh; rw [hf]
      unfold decodePart
      rw [M.bind_ok (g1 _ _), M.bind_ok (g2 _ _), M.bind_ok (xrangeCheck_ok b3 _), M.bind_ok (g4 _), M.bind_apply, g5]
    | ok x s =>
      obtain ⟨m', ps', hd'⟩ := x
      refine .inr ⟨ps', hd', ?_, fun d' r hl' => ?_⟩
      · rintro rfl
        unfold onFresh at h5
        rw [hf] at h5
        injection h5 with h5 _
        injection h5 with _ h5
        injection h5 with h5 h6
        exact ⟨h5, h6⟩
      · have g5 : onFresh ct' (partHeaders ct') ⟨d' ++ r, 0⟩ = .ok (m', ps', hd') ⟨d' ++ r, 0⟩ := by
          unfold onFresh; rw [hf]
        have g7 : nextN dl ⟨d' ++ r, 0⟩ = .ok d' ⟨r, 0⟩ := by
          have := nextN_ok d' r
          rwa [hl', l7] at this
        unfold decodePart
        rw [M.bind_ok (g1 _ _), M.bind_ok (g2 _ _), M.bind_ok (xrangeCheck_ok b3 _), M.bind_ok (g4 _), M.bind_ok g5]
        show (xrangeCheck dl >>= fun _ => nextN dl >>= fun data => pure _ : D DataPart) _ = _
        rw [M.bind_ok (xrangeCheck_ok b6 _), M.bind_ok g7]
        rfl

/-- a message with the parts `os`, `o` and `os'` -/
def between (hs : List Hdr) (c : CType) (n : Nat) (os : List (List Nat)) (o : List Nat) (os' : List (List Nat))
    (rest : List Nat) : List Nat :=
  hs.flatMap Hdr.enc ++ (0x84 :: c.enc ++ (uintvar n ++ (os.flatten ++ (o ++ (os'.flatten ++ rest)))))

theorem decodeData_between (hs : List Hdr) (c : CType) (os os' : List (List Nat)) (ps qs : List DataPart) (rest : List Nat)
    (hw : ∀ h ∈ hs, h.WF) (hc : c.WF) (he : List.Forall₂ ReadAlone os ps) (he' : List.Forall₂ ReadAlone os' qs)
    (hl : ps.length + 1 + qs.length < 2 ^ 63) (o : List Nat) :
    (∀ p, (∀ r, decodePart ⟨o ++ r, 0⟩ = .ok p ⟨r, 0⟩) →
      decodeData (between hs c (ps.length + 1 + qs.length) os o os' rest) = .ok { Msg.new with
          headers := (setAll hs Msg.new.headers).set (py! "Content-Type") (.ct c.media c.params),
          dataParts := ps ++ p :: qs }) ∧
    ∀ e, (∀ r, ∃ s, decodePart ⟨o ++ r, 0⟩ = .err e s) →
      decodeData (between hs c (ps.length + 1 + qs.length) os o os' rest) = .error e := by
  have hlen := he.length_eq
  have hlen' := he'.length_eq
  unfold between
  rw [decodeData_after hs hw hc _ hl, show ps.length + 1 + qs.length = os.length + (qs.length + 1) by omega,
    partLoop_chunks he, partLoop]
  refine ⟨fun p hp => ?_, fun e h => ?_⟩
  · have h1 := partLoop_chunks he' 0 ([] ++ ps ++ [p]) rest
    rw [Nat.add_zero, hlen'] at h1
    rw [M.bind_ok (hp _), h1]
    simp [partLoop, pure, M.pure]
  · obtain ⟨s, h⟩ := h (os'.flatten ++ rest)
    rw [M.bind_apply, h]

/-- C120: an entry of a part consists of two lengths, the headers and the data of the part.  Whatever the data are replaced
by, if there are as many octets, the message is the same with these data.  Whatever the headers are replaced by: there is an
exception, the same for all data and all other parts, or the message is the same but for the headers of this part. -/
theorem C120_damage (o : List Nat) (p : DataPart) (ho : Entry o p) :
    ∃ a ct d, o = a ++ ct ++ d ∧ p.data = some d ∧
      ∀ ct', ct'.length = ct.length →
        (ct' ≠ ct ∧ ∃ e, ∀ (d' : List Nat) (hs : List Hdr) (c : CType) (os os' : List (List Nat)) (ps qs : List DataPart)
            (rest : List Nat), d'.length = d.length → (∀ h ∈ hs, h.WF) → c.WF → List.Forall₂ Entry os ps →
            List.Forall₂ Entry os' qs → ps.length + 1 + qs.length < 2 ^ 63 →
            decodeData (between hs c (ps.length + 1 + qs.length) os (a ++ ct' ++ d') os' rest) = .error e) ∨
        ∃ p', (ct' = ct → p' = p) ∧ ∀ (d' : List Nat) (hs : List Hdr) (c : CType) (os os' : List (List Nat))
            (ps qs : List DataPart) (rest : List Nat), d'.length = d.length → (∀ h ∈ hs, h.WF) → c.WF →
            List.Forall₂ Entry os ps → List.Forall₂ Entry os' qs → ps.length + 1 + qs.length < 2 ^ 63 →
            ∃ m m', decodeData (between hs c (ps.length + 1 + qs.length) os o os' rest) = .ok m ∧
              m.dataParts = ps ++ p :: qs ∧
              decodeData (between hs c (ps.length + 1 + qs.length) os (a ++ ct' ++ d') os' rest) = .ok m' ∧
              m' = { m with dataParts := ps ++ { p' with data := some d' } :: qs } := by
  rw [entry_iff] at ho
  obtain ⟨a, ct, d, e, h1, h2, h3⟩ := decodePart_damage ho
  refine ⟨a, ct, d, e, h1, fun ct' hct => ?_⟩
  rcases h3 ct' hct with ⟨x, hx⟩ | ⟨pr, hd, g1, g2⟩
  · refine .inl ⟨?_, x, ?_⟩
    · rintro rfl
      obtain ⟨s, hx⟩ := hx d [] rfl
      have := ho []
      rw [e, hx] at this
      cases this
    · intro d' hs c os os' ps qs rest hd' hw hc he he' hl
      rw [entries_iff] at he he'
      exact (decodeData_between hs c os os' ps qs rest hw hc he he' hl _).2 x (fun r => hx d' r hd')
  · refine .inr ⟨{ ctParams := pr, headers := hd, filename := none, data := some d }, ?_, ?_⟩
    · intro he
      obtain ⟨rfl, rfl⟩ := g1 he
      cases p
      simp only at h1 h2
      rw [h1, h2]
    · intro d' hs c os os' ps qs rest hd' hw hc he he' hl
      rw [entries_iff] at he he'
      exact ⟨_, _, (decodeData_between hs c os os' ps qs rest hw hc he he' hl _).1 p ho, rfl,
        (decodeData_between hs c os os' ps qs rest hw hc he he' hl _).1 _ (fun r => g2 d' r hd'), rfl⟩

/-- C120: in particular the data: whatever they are replaced by, with the same length, the message is the same with these
data -/
theorem C120_data (o : List Nat) (p : DataPart) (ho : Entry o p) :
    ∃ a d, o = a ++ d ∧ p.data = some d ∧ ∀ d', d'.length = d.length →
      ∀ (hs : List Hdr) (c : CType) (os os' : List (List Nat)) (ps qs : List DataPart) (rest : List Nat),
        (∀ h ∈ hs, h.WF) → c.WF → List.Forall₂ Entry os ps → List.Forall₂ Entry os' qs → ps.length + 1 + qs.length < 2 ^ 63 →
        ∃ m, decodeData (between hs c (ps.length + 1 + qs.length) os o os' rest) = .ok m ∧ m.dataParts = ps ++ p :: qs ∧
          decodeData (between hs c (ps.length + 1 + qs.length) os (a ++ d') os' rest) =
            .ok { m with dataParts := ps ++ { p with data := some d' } :: qs } := by
  obtain ⟨a, ct, d, e, h1, h2⟩ := C120_damage o p ho
  refine ⟨a ++ ct, d, e, h1, fun d' hd hs c os os' ps qs rest hw hc he he' hl => ?_⟩
  rcases h2 ct rfl with ⟨h3, _⟩ | ⟨p', h3, h4⟩
  · exact absurd rfl h3
  · obtain ⟨m, m', g1, g2, g3, g4⟩ := h4 d' hs c os os' ps qs rest hd hw hc he he' hl
    rw [h3 rfl] at g4
    rw [g4] at g3
    exact ⟨m, g1, g2, g3⟩

example := C120_data hiEntry hiPart hi_entry

/-- other data, another content type, and a content type that cannot be read -/
example : (∃ m, decodeData ([0x84, 0xa3, 2] ++ hiEntry ++ hiEntry) = .ok m ∧ m.dataParts = [hiPart, hiPart]) ∧
    (∃ m, decodeData ([0x84, 0xa3, 2] ++ [1, 2, 0x83, 0, 255] ++ hiEntry) = .ok m ∧
      m.dataParts = [{ hiPart with data := some [0, 255] }, hiPart]) ∧
    (∃ m, decodeData ([0x84, 0xa3, 2] ++ [1, 2, 0x9e, 72, 105] ++ hiEntry) = .ok m ∧
      m.dataParts = [{ hiPart with headers := [(py! "Content-Type", .ct (py! "image/jpeg") [])] }, hiPart]) ∧
    decodeData ([0x84, 0xa3, 2] ++ [1, 2, 0x1f, 72, 105] ++ hiEntry) = .error .stopIteration := by
  refine ⟨⟨_, rfl, rfl⟩, ⟨_, rfl, rfl⟩, ⟨_, rfl, rfl⟩, rfl⟩

end Verif.Props

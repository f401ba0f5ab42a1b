import Verif.Proofs.Dicts4
/-!
# Received messages, and whole programs
-/
set_option autoImplicit false

namespace Verif.Mms
open Verif Verif.Spec.Dicts

/-! ### the decoder with marks and the decoder -/

/-- `m'` does what `m` does, with a result that says more and has a property -/
def Forgets {α β : Type} (g : β → α) (P : β → Prop) (m' : D β) (m : D α) : Prop :=
  ∀ s, (∃ b s', m' s = .ok b s' ∧ m s = .ok (g b) s' ∧ P b) ∨ (∃ e s', m' s = .err e s' ∧ m s = .err e s')

theorem Forgets.refl {α : Type} (m : D α) : Forgets id (fun _ => True) m m := by
  intro s
  cases h : m s with
  | ok a s' => exact .inl ⟨a, s', rfl, rfl, trivial⟩
  | err e s' => exact .inr ⟨e, s', rfl, rfl⟩

theorem Forgets.bind {α β γ δ : Type} {g : β → α} {P : β → Prop} {h : δ → γ} {Q : δ → Prop} {m' : D β} {m : D α} {f' : β → D δ}
    {f : α → D γ} (hm : Forgets g P m' m) (hf : ∀ b, P b → Forgets h Q (f' b) (f (g b))) : Forgets h Q (m' >>= f') (m >>= f) := by
  intro s
  rcases hm s with ⟨b, s', h1, h2, h3⟩ | ⟨e, s', h1, h2⟩
  · rw [M.bind_ok h1, M.bind_ok h2]
    exact hf b h3 s'
  · rw [M.bind_err h1, M.bind_err h2]
    exact .inr ⟨e, s', rfl, rfl⟩

theorem Forgets.pure {α β : Type} {g : β → α} {P : β → Prop} {b : β} {a : α} (ha : a = g b) (h : P b) :
    Forgets g P (Pure.pure b : D β) (Pure.pure a : D α) := fun s => .inl ⟨b, s, rfl, by rw [ha]; rfl, h⟩

theorem Forgets.onFresh {α β : Type} {g : β → α} {P : β → Prop} {m' : D β} {m : D α} (bytes : List Nat) (h : Forgets g P m' m) :
    Forgets g P (Mms.onFresh bytes m') (Mms.onFresh bytes m) := by
  intro s
  unfold Mms.onFresh
  rcases h (It.new bytes) with ⟨b, s', h1, h2, h3⟩ | ⟨e, s', h1, h2⟩
  · rw [h1, h2]; exact .inl ⟨b, s, rfl, rfl, h3⟩
  · rw [h1, h2]; exact .inr ⟨e, s, rfl, rfl⟩

theorem partHeaderLoopT_forgets (ct : HVal) : ∀ (fuel : Nat) (hdrs : Dict HVal) (b : Bool),
    (b = false → hdrs.get (py! "Content-Type") = some ct) →
    Forgets Prod.fst (fun x => x.2 = false → x.1.get (py! "Content-Type") = some ct) (partHeaderLoopT fuel hdrs b) (partHeaderLoop fuel hdrs) := by
  intro fuel
  induction fuel with
  | zero => intro hdrs b _ s; exact .inr ⟨_, s, rfl, rfl⟩
  | succ fuel ih =>
    intro hdrs b hb s
    simp only [partHeaderLoopT, partHeaderLoop]
    cases hd : decodeHeader s with
    | ok a s' =>
      obtain ⟨h, v⟩ := a
      refine ih _ _ ?_ s'
      intro hf
      simp only [Bool.or_eq_false_iff, decide_eq_false_iff_not] at hf
      rw [dict_get_set, if_neg hf.2]
      exact hb hf.1
    | err e s' =>
      cases e with
      | stopIteration => exact .inl ⟨_, s', rfl, rfl, hb⟩
      | _ => exact .inr ⟨_, s', rfl, rfl⟩

/-- what the mark of a received part says -/
def Marked (p : DataPart × Bool) : Prop := p.2 = true → ∃ c, p.1.headers.get (py! "Content-Type") = some (.ct c p.1.ctParams)

theorem decodePartT_forgets : Forgets Prod.fst Marked decodePartT decodePart := by
  unfold decodePartT decodePart
  refine (Forgets.refl _).bind fun hl _ => ?_
  refine (Forgets.refl _).bind fun dl _ => ?_
  refine (Forgets.refl _).bind fun _ _ => ?_
  refine (Forgets.refl _).bind fun bs _ => ?_
  refine Forgets.bind (g := fun x : Str × Dict Val × Dict HVal × Bool => (x.1, x.2.1, x.2.2.1))
    (P := fun x => x.2.2.2 = true → ∃ c, x.2.2.1.get (py! "Content-Type") = some (.ct c x.2.1)) (Forgets.onFresh _ ?_) fun x hx => ?_
  · unfold partHeadersT partHeaders
    refine (Forgets.refl _).bind fun y _ => ?_
    obtain ⟨c, ps⟩ := y
    refine (partHeaderLoopT_forgets (.ct c ps) _ _ false (fun _ => by simp [Dict.get])).bind fun z hz => ?_
    refine Forgets.pure rfl ?_
    intro h
    exact ⟨c, hz (by simpa using h)⟩
  · refine (Forgets.refl _).bind fun _ _ => ?_
    refine (Forgets.refl _).bind fun _ _ => ?_
    exact Forgets.pure rfl hx

theorem partLoopT_forgets : ∀ (n : Nat) (acc : List (DataPart × Bool)), (∀ p ∈ acc, Marked p) →
    Forgets (List.map Prod.fst) (fun l => ∀ p ∈ l, Marked p) (partLoopT n acc) (partLoop n (acc.map Prod.fst)) := by
  intro n
  induction n with
  | zero => intro acc h; exact Forgets.pure rfl h
  | succ n ih =>
    intro acc h
    refine decodePartT_forgets.bind fun p hp => ?_
    have := ih (acc ++ [p]) (fun q hq => by
      rcases List.mem_append.1 hq with hq | hq
      · exact h q hq
      · rw [List.mem_singleton.1 hq]; exact hp)
    simpa only [List.map_append, List.map_cons, List.map_nil] using this

theorem decodeMessageBodyT_forgets : Forgets (List.map Prod.fst) (fun l => ∀ p ∈ l, Marked p) decodeMessageBodyT decodeMessageBody := by
  intro s
  simp only [decodeMessageBodyT, decodeMessageBody]
  cases h : decodeUintVar s with
  | ok n s' => exact (Forgets.refl _).bind (fun _ _ => partLoopT_forgets n [] (by simp)) s'
  | err e s' =>
    cases e with
    | stopIteration => exact .inl ⟨[], s', rfl, rfl, by simp⟩
    | _ => exact .inr ⟨_, s', rfl, rfl⟩

/-- the decoder with marks reads what the decoder reads -/
theorem decodeDataT_forgets (data : List Nat) :
    (∃ h ps, decodeDataT data = .ok (h, ps) ∧ decodeData data = .ok { Msg.new with headers := h, dataParts := ps.map Prod.fst } ∧
      ∀ p ∈ ps, Marked p) ∨
    ∃ e, decodeDataT data = .error e ∧ decodeData data = .error e := by
  have : Forgets (fun x : Dict HVal × List (DataPart × Bool) => ({ Msg.new with headers := x.1, dataParts := x.2.map Prod.fst } : Msg))
      (fun x => ∀ p ∈ x.2, Marked p)
      (do let hdrs ← decodeMessageHeader; let parts ← decodeMessageBodyT; pure (hdrs, parts))
      (do let hdrs ← decodeMessageHeader; let parts ← decodeMessageBody; pure { Msg.new with headers := hdrs, dataParts := parts }) :=
    (Forgets.refl _).bind fun h _ => decodeMessageBodyT_forgets.bind fun ps hps => Forgets.pure rfl hps
  unfold decodeDataT decodeData
  rcases this (It.new data) with ⟨x, s', h1, h2, h3⟩ | ⟨e, s', h1, h2⟩
  · rw [h1, h2]
    exact .inl ⟨x.1, x.2, rfl, rfl, h3⟩
  · rw [h1, h2]
    exact .inr ⟨e, rfl, rfl⟩

/-! ### new parts and messages -/

theorem holds_newPart {s : Store} {w : World} (hh : Holds s w) :
    ∃ s', newPartD s = .ok s.nParts s' ∧ Holds s' { w with parts := w.parts ++ [⟨freshPart, false⟩] } := by
  refine ⟨(((s.addParams []).addParams []).addHeaders [(py! "Content-Type", .ct (py! "application/octet-stream") (s.nParams + 1))]).addPart
    { ctParams := s.nParams, headers := s.nHeaders, filename := none, data := none }, rfl, ?_⟩
  have he := (ext_params s []).trans (ext_params (s.addParams []) [])
  have hnp : ((s.addParams []).addParams []).nParams = s.nParams + 2 := rfl
  have hnp1 : (s.addParams []).nParams = s.nParams + 1 := rfl
  obtain ⟨h1, h2, h3, h4, h5⟩ := local_part (s := s) (s1 := (s.addParams []).addParams []) (r := s.nParts)
    (l := [(py! "Content-Type", .ct (py! "application/octet-stream") (s.nParams + 1))])
    (x := { ctParams := s.nParams, headers := s.nHeaders, filename := none, data := none }) he (Nat.le_refl _)
    (.inr ⟨rfl, rfl⟩) rfl (.inr ⟨Nat.le_refl _, by rw [hnp]; show s.nParams < _; omega⟩)
    (by intro d hd; simp only [refs, List.filterMap_cons, List.filterMap_nil, List.mem_singleton] at hd; rw [hnp]; omega) (by simp [refs])
  refine hh.addPart h1 rfl h2 ?_ ?_
  · unfold Store.part
    rw [h3, h4, h5]
    simp only [freshPart, DataPart.mk.injEq, and_true]
    refine ⟨?_, ?_⟩
    · rw [addParams_old _ _ _ (by rw [hnp1]; omega), addParams_new]
    · rw [dict_congr (s := (s.addParams []).addParams []) (fun d _ => by rw [h5])]
      simp only [Store.dict, Store.val, List.map_cons, List.map_nil, List.cons.injEq, Prod.mk.injEq, HVal.ct.injEq, and_true, true_and]
      exact addParams_new (s.addParams []) []
  · unfold Linked
    rw [h3, h4]
    simp [refs]

theorem holds_newMsg {s : Store} {w : World} {h : Dict HVal} (hh : Holds s w) :
    Holds (((s.newVals h).2.addHeaders (s.newVals h).1).addMsg s.nHeaders) { w with msgs := w.msgs ++ [h] } := by
  obtain ⟨h1, h2, h3, h4⟩ := local_msg (newVals_grown h s)
  exact hh.addMsg h1 h2 h3 h4

theorem Dict.set_get_self {α : Type} {d : Dict α} {n : Str} {v : α} (h : d.get n = some v) : d.set n v = d := by
  induction d with
  | nil => cases h
  | cons e r ih =>
    simp only [Dict.get] at h
    simp only [Dict.set]
    split at h
    · next he => injection h with h; subst h; subst he; rw [if_pos rfl]
    · next he => rw [if_neg he, ih h]

theorem holds_received {s : Store} {w : World} {p : DataPart × Bool} (hh : Holds s w) (hp : Marked p) :
    Holds (s.addReceived p) { w with parts := w.parts ++ [⟨p.1, p.2⟩] } := by
  obtain ⟨p, b⟩ := p
  obtain ⟨c0, h0, f0, d0⟩ := p
  have g := newVals_grown h0 (s.addParams c0)
  have he := (ext_params s c0).trans g.ext
  have hnp1 : (s.addParams c0).nParams = s.nParams + 1 := rfl
  have hnp := g.np
  have hfr := g.fresh
  rw [hnp1] at hnp hfr
  have hct : ((s.addParams c0).newVals h0).2.params s.nParams = c0 := by
    rw [g.old _ (by rw [hnp1]; omega), addParams_new]
  -- the dictionary of headers
  have key : ∃ l, s.addReceived (⟨c0, h0, f0, d0⟩, b) = (((s.addParams c0).newVals h0).2.addHeaders l).addPart
        { ctParams := s.nParams, headers := s.nHeaders, filename := f0, data := d0 } ∧
      (∀ d ∈ refs l, s.nParams ≤ d ∧ d < ((s.addParams c0).newVals h0).2.nParams) ∧ (refs l).Nodup ∧
      ((s.addParams c0).newVals h0).2.dict l = h0 ∧ LinkedTo l s.nParams b := by
    cases b with
    | false =>
      refine ⟨((s.addParams c0).newVals h0).1, rfl, fun d hd => ?_, g.nodup, g.view, fun hm => ?_⟩
      · have := hfr d hd; omega
      · have := hfr _ hm; omega
    | true =>
      obtain ⟨c, hc⟩ := hp rfl
      have hc : h0.get (py! "Content-Type") = some (.ct c c0) := hc
      have hg : ∃ d, ((s.addParams c0).newVals h0).1.get (py! "Content-Type") = some (.ct c d) := by
        have h1 := dict_get_map ((s.addParams c0).newVals h0).2 ((s.addParams c0).newVals h0).1 (py! "Content-Type")
        rw [g.view, hc] at h1
        cases hx : ((s.addParams c0).newVals h0).1.get (py! "Content-Type") with
        | none => rw [hx] at h1; cases h1
        | some x =>
          rw [hx] at h1
          cases x with
          | ct c' d' =>
            simp only [Option.map_some, Store.val, Option.some.injEq, HVal.ct.injEq] at h1
            exact ⟨d', by rw [h1.1]⟩
          | _ => cases h1
      obtain ⟨d, hd⟩ := hg
      refine ⟨((s.addParams c0).newVals h0).1.set (py! "Content-Type") (.ct c s.nParams), ?_, ?_, ?_, ?_, ?_⟩
      · simp only [Store.addReceived, if_true]
        rw [hd]
      · intro d' hd'
        rcases refs_set hd' with h | ⟨c', h⟩
        · have := hfr d' h; omega
        · injection h with _ h
          omega
      · refine refs_set_nodup g.nodup _ ?_
        intro c' d' h hm
        injection h with _ h
        have := hfr d' hm
        omega
      · rw [dict_set_map, g.view]
        simp only [Store.val, hct]
        exact Dict.set_get_self hc
      · exact ⟨c, by rw [dict_get_set, if_pos rfl]⟩
  obtain ⟨l, e1, e2, e3, e4, e5⟩ := key
  rw [e1]
  obtain ⟨h1, h2, h3, h4, h5⟩ := local_part (s := s) (s1 := ((s.addParams c0).newVals h0).2) (r := s.nParts) (l := l)
    (x := { ctParams := s.nParams, headers := s.nHeaders, filename := f0, data := d0 }) he (Nat.le_refl _)
    (.inr ⟨rfl, rfl⟩) rfl (.inr ⟨Nat.le_refl _, by show s.nParams < _; omega⟩) e2 e3
  refine hh.addPart h1 (by show ((s.addParams c0).newVals h0).2.nParts + 1 = _; rw [he.same.2.2.2.2.1]) h2 ?_ ?_
  · unfold Store.part
    rw [h3, h4, h5]
    simp only [DataPart.mk.injEq, and_true]
    exact ⟨hct, (dict_congr (s := ((s.addParams c0).newVals h0).2) (fun d _ => by rw [h5])).trans e4⟩
  · unfold Linked
    rw [h3, h4]
    exact e5

theorem holds_receivedAll : ∀ (ps : List (DataPart × Bool)) {s : Store} {w : World}, Holds s w → (∀ p ∈ ps, Marked p) →
    Holds (ps.foldl Store.addReceived s) { w with parts := w.parts ++ ps.map (fun p => ⟨p.1, p.2⟩) } := by
  intro ps
  induction ps with
  | nil => intro s w hh _; simpa using hh
  | cons p ps ih =>
    intro s w hh hp
    have h1 := ih (holds_received hh (hp p (by simp))) (fun q hq => hp q (by simp [hq]))
    simpa only [List.foldl_cons, List.map_cons, List.append_assoc, List.singleton_append] using h1

/-! ### programs -/

theorem holds_step {s : Store} {w : World} (hh : Holds s w) (d : Deed) :
    Holds (stepD s d).1 (act received w d).1 ∧ (stepD s d).2 = (act received w d).2 := by
  cases d with
  | newPart =>
    obtain ⟨s', h1, h2⟩ := holds_newPart hh
    simp only [stepD, h1, outcome]
    exact ⟨h2, rfl⟩
  | newPartFile env f =>
    simp only [stepD, newPartFileD, act, actPart]
    cases hf : env.files f with
    | none => exact ⟨hh, rfl⟩
    | some c =>
      obtain ⟨s', h1, h2⟩ := holds_newPart hh
      have h3 := part_act h2 (r := s.nParts) (o := ⟨freshPart, false⟩) (by simp [hh.nParts]) (.fromFile env f)
      simp only [stepPart, fromFileD, actPart, hf, Agrees] at h3
      simp only [M.bind_apply, h1, fromFileD, hf, M.pure_apply, outcome, and_true]
      rw [hh.nParts] at h3 ⊢
      simpa using h3
  | newMsg => exact ⟨holds_newMsg hh, rfl⟩
  | receive data =>
    simp only [stepD, receiveD, act, received]
    rcases decodeDataT_forgets data with ⟨h, ps, h1, _, h3⟩ | ⟨e, h1, _⟩
    · rw [h1]
      exact ⟨holds_receivedAll ps (holds_newMsg hh) h3, rfl⟩
    · rw [h1]
      exact ⟨hh, rfl⟩
  | part r a =>
    simp only [stepD, act]
    cases hw : w.parts[r]? with
    | none =>
      have := List.getElem?_eq_none_iff.1 hw
      rw [if_neg (by rw [hh.nParts]; omega)]
      exact ⟨hh, rfl⟩
    | some o =>
      have := (List.getElem?_eq_some_iff.1 hw).1
      rw [if_pos (by rw [hh.nParts]; omega)]
      have h := part_act hh hw a
      simp only
      cases ha : actPart o a with
      | error e =>
        rw [ha] at h
        cases hs : stepPart r a s with
        | ok u s' => rw [hs] at h; exact h.elim
        | err e' s' =>
          rw [hs] at h
          obtain ⟨rfl, rfl, h⟩ := h
          exact ⟨h, rfl⟩
      | ok o' =>
        rw [ha] at h
        cases hs : stepPart r a s with
        | ok u s' => rw [hs] at h; exact ⟨h, rfl⟩
        | err e' s' => rw [hs] at h; exact h.elim
  | msg m a =>
    simp only [stepD, act]
    cases hw : w.msgs[m]? with
    | none =>
      have := List.getElem?_eq_none_iff.1 hw
      rw [if_neg (by rw [hh.nMsgs]; omega)]
      exact ⟨hh, rfl⟩
    | some o =>
      have := (List.getElem?_eq_some_iff.1 hw).1
      rw [if_pos (by rw [hh.nMsgs]; omega)]
      have h := msg_act hh hw a
      simp only
      cases ha : actMsg o a with
      | error e =>
        rw [ha] at h
        cases hs : stepMsg m a s with
        | ok u s' => rw [hs] at h; exact h.elim
        | err e' s' =>
          rw [hs] at h
          obtain ⟨rfl, rfl, h⟩ := h
          exact ⟨h, rfl⟩
      | ok o' =>
        rw [ha] at h
        cases hs : stepMsg m a s with
        | ok u s' => rw [hs] at h; exact ⟨h, rfl⟩
        | err e' s' => rw [hs] at h; exact h.elim

theorem holds_empty : Holds Store.empty ⟨[], []⟩ := by
  refine ⟨?_, rfl, rfl, fun r o h => (by simp at h), fun m h hm => (by simp at hm)⟩
  have hl : ∀ o, ¬ Live Store.empty o := by intro o; cases o <;> exact Nat.not_lt_zero _
  constructor <;> intros <;> exact absurd ‹Live Store.empty _› (hl _)

theorem holds_run (deeds : List Deed) : ∀ {s : Store} {w : World}, Holds s w →
    Holds (deeds.foldl (fun s d => (stepD s d).1) s) (deeds.foldl (fun w d => (act received w d).1) w) := by
  induction deeds with
  | nil => exact fun h => h
  | cons d ds ih => exact fun h => ih (holds_step h d).1

end Verif.Mms

import Verif.Proofs.Dicts6
/-!
# C100, C101: parts and messages do not share dictionaries
-/
set_option autoImplicit false

namespace Verif.Props
open Verif Verif.Mms Verif.Spec.Dicts

/-- C100: after any program that makes parts and messages, receives messages, and works with them, but hands over no
dictionary that something else has, every part and every message shows what it would show with dictionaries of its own.  The
next deed raises the same exception, or none. -/
theorem C100_exact (deeds : List Deed) :
    (runD deeds).nParts = (worldAfter deeds).parts.length ∧
    (runD deeds).nMsgs = (worldAfter deeds).msgs.length ∧
    (∀ r o, (worldAfter deeds).parts[r]? = some o → (runD deeds).part r = o.part) ∧
    (∀ m h, (worldAfter deeds).msgs[m]? = some h → (runD deeds).msg m = h) ∧
    ∀ d, (stepD (runD deeds) d).2 = (act received (worldAfter deeds) d).2 := by
  have h : Holds (runD deeds) (worldAfter deeds) := holds_run deeds holds_empty
  exact ⟨h.nParts, h.nMsgs, fun r o ho => (h.parts r o ho).1, h.msgs, fun d => (holds_step h d).2⟩

/-- C100: whatever is done with one part or message, or with a new one, all other parts and messages show what they
showed. -/
theorem C100_apart (deeds : List Deed) (d : Deed) :
    (∀ r < (runD deeds).nParts, (∀ a, d ≠ .part r a) → (stepD (runD deeds) d).1.part r = (runD deeds).part r) ∧
    (∀ m < (runD deeds).nMsgs, (∀ a, d ≠ .msg m a) → (stepD (runD deeds) d).1.msg m = (runD deeds).msg m) := by
  have h : Holds (runD deeds) (worldAfter deeds) := holds_run deeds holds_empty
  have h' := (holds_step h d).1
  obtain ⟨a1, a2⟩ := act_others (worldAfter deeds) d
  constructor
  · intro r hr hd
    have hr' : r < (worldAfter deeds).parts.length := h.nParts ▸ hr
    have hg : (worldAfter deeds).parts[r]? = some (worldAfter deeds).parts[r] := List.getElem?_eq_getElem hr'
    exact (h'.parts r _ (a1 r _ hg hd)).1.trans (h.parts r _ hg).1.symm
  · intro m hm hd
    have hm' : m < (worldAfter deeds).msgs.length := h.nMsgs ▸ hm
    have hg : (worldAfter deeds).msgs[m]? = some (worldAfter deeds).msgs[m] := List.getElem?_eq_getElem hm'
    exact (h'.msgs m _ (a2 m _ hg hd)).trans (h.msgs m _ hg).symm

/-- C100: a received message and its parts show what `from_data` decodes, and nothing that was there before changes. -/
theorem C100_received (deeds : List Deed) (data : List Nat) :
    (∀ e, decodeData data = .error e → stepD (runD deeds) (.receive data) = (runD deeds, some e)) ∧
    ∀ msg, decodeData data = .ok msg → ∃ s', stepD (runD deeds) (.receive data) = (s', none) ∧
      s'.nMsgs = (runD deeds).nMsgs + 1 ∧ s'.msg (runD deeds).nMsgs = msg.headers ∧
      s'.nParts = (runD deeds).nParts + msg.dataParts.length ∧
      ∀ i p, msg.dataParts[i]? = some p → s'.part ((runD deeds).nParts + i) = p := by
  have h : Holds (runD deeds) (worldAfter deeds) := holds_run deeds holds_empty
  have hs := holds_step h (.receive data)
  rcases decodeDataT_forgets data with ⟨hd, ps, h1, h2, _⟩ | ⟨e, h1, h2⟩
  · rw [h2]
    refine ⟨fun e he => (by cases he), fun msg hm => ?_⟩
    injection hm with hm
    subst hm
    simp only [act, received, h1] at hs
    obtain ⟨hs1, hs2⟩ := hs
    refine ⟨(stepD (runD deeds) (.receive data)).1, Prod.ext rfl hs2, ?_, ?_, ?_, ?_⟩
    · have e1 := hs1.nMsgs
      have e2 := h.nMsgs
      rw [List.length_append] at e1
      exact e1.trans (by rw [← e2]; rfl)
    · refine hs1.msgs _ _ ?_
      have e2 : (runD deeds).nMsgs = _ := h.nMsgs
      rw [e2]
      simp
    · have e1 := hs1.nParts
      have e2 := h.nParts
      rw [List.length_append, List.length_map] at e1
      refine e1.trans ?_
      rw [← e2, List.length_map]
    · intro i p hp
      rw [List.getElem?_map] at hp
      cases hq : ps[i]? with
      | none => rw [hq] at hp; cases hp
      | some q =>
        rw [hq] at hp
        injection hp with hp
        have e2 : (runD deeds).nParts = _ := h.nParts
        have := (hs1.parts ((runD deeds).nParts + i) ⟨q.1, q.2⟩ (by
          simp only
          rw [e2, List.getElem?_append_right (Nat.le_add_right _ _), Nat.add_sub_cancel_left, List.getElem?_map, hq]
          rfl)).1
        rw [← hp]
        exact this
  · rw [h2]
    refine ⟨fun e' he => ?_, fun msg hm => (by cases hm)⟩
    injection he with he
    subst he
    simp only [stepD, receiveD, h1, outcome]

/-- C100: with a dictionary handed over twice it is otherwise: after `part.headers = other.headers`, a header set in either
is a header of both. -/
theorem C100_shared (deeds : List Deed) (r r' : Nat) (n : Str) (x : Val) :
    ∃ s', (do takeHeadersD r r'; fun s => setItemD (s.parts r).headers n (.v x) s : M Store Unit) (runD deeds) = .ok () s' ∧
      (s'.part r).headers = ((runD deeds).part r').headers.set n (.v x) ∧
      (s'.part r').headers = ((runD deeds).part r').headers.set n (.v x) := by
  refine ⟨_, rfl, ?_, ?_⟩
  · simp only [Store.part, Store.setHeaders, Store.setPart, Store.newVal, if_true]
    exact dict_set_map _ _ _ _
  · by_cases he : r' = r
    · subst he
      simp only [Store.part, Store.setHeaders, Store.setPart, Store.newVal, if_true]
      exact dict_set_map _ _ _ _
    · simp only [Store.part, Store.setHeaders, Store.setPart, Store.newVal, if_true, if_neg he]
      exact dict_set_map _ _ _ _

/-- beside the theorems: a new part, a received message with one part (text/plain, with a charset), and another new part.
The received part gets a parameter through `content_type_parameters`, the last one a header and a parameter. -/
def someDeeds : List Deed :=
  [.newPart, .receive [0x8c, 0x84, 0x84, 0xa3, 1, 4, 1, 3, 0x83, 0x81, 0xea, 7], .newPart,
   .part 1 (.ctParam (py! "Name") (.str (py! "n"))), .part 2 (.setHeader (py! "Content-ID") (.v (.str (py! "a")))),
   .part 2 (.headerParam (py! "Content-Type") (py! "Charset") (.str (py! "utf-8"))), .part 0 (.delHeader (py! "Date"))]

example :
    (runD someDeeds).nParts = 3 ∧ (runD someDeeds).nMsgs = 1 ∧ (runD someDeeds).part 0 = freshPart ∧
    (runD someDeeds).part 1 = {
        ctParams := [(py! "Charset", .str (py! "utf-8")), (py! "Name", .str (py! "n"))]
        headers := [(py! "Content-Type", .ct (py! "text/plain") [(py! "Charset", .str (py! "utf-8")), (py! "Name", .str (py! "n"))])]
        filename := none
        data := some [7] } ∧
    (runD someDeeds).part 2 = { freshPart with headers :=
      [(py! "Content-Type", .ct (py! "application/octet-stream") [(py! "Charset", .str (py! "utf-8"))]),
       (py! "Content-ID", .v (.str (py! "a")))] } := by decide +kernel

example : (stepD (runD someDeeds) (.part 0 (.delHeader (py! "Date")))).2 = some .keyError := by decide +kernel

/-- C101: the attribute `content_type_parameters` of a part shows the parameters of its Content-Type header -/
def ParametersShown (deeds : List Deed) : Prop :=
  ∀ r < (runD deeds).nParts, ∃ c, ((runD deeds).part r).headers.get (py! "Content-Type") = some (.ct c ((runD deeds).part r).ctParams)

/-- C101: not of a part whose data was set with parameters -/
theorem C101_refuted : ¬ ∀ deeds, ParametersShown deeds := by
  intro h
  obtain ⟨c, hc⟩ := h [.newPart, .part 0 (.setData (py! "x") (py! "text/plain") (some [(py! "Charset", .str (py! "utf-8"))]))] 0
    (by decide +kernel)
  have : ((runD [.newPart, .part 0 (.setData (py! "x") (py! "text/plain") (some [(py! "Charset", .str (py! "utf-8"))]))]).part 0) =
      { freshPart with headers := [(py! "Content-Type", .ct (py! "text/plain") [(py! "Charset", .str (py! "utf-8"))])], data := some (py! "x") } := by
    decide +kernel
  rw [this] at hc
  simp [freshPart, Dict.get] at hc

/-- C101, for the parts that have one dictionary for both (`same`): received parts, without another Content-Type header
among their headers, until data, file, content type, Content-Type header or the attribute are replaced.  Missing: all other
parts, for which it is false (`C101_refuted`). -/
theorem C101_partial (deeds : List Deed) (r : Nat) (p : DataPart) (h : (worldAfter deeds).parts[r]? = some ⟨p, true⟩) :
    (runD deeds).part r = p ∧ ∃ c, p.headers.get (py! "Content-Type") = some (.ct c p.ctParams) := by
  have hh : Holds (runD deeds) (worldAfter deeds) := holds_run deeds holds_empty
  obtain ⟨h1, c, h2⟩ := hh.parts r _ h
  refine ⟨h1, c, ?_⟩
  dsimp only at h1
  rw [← h1]
  simp only [Store.part]
  rw [dict_get_map, h2]
  rfl

/-- the received part of `someDeeds` is one of them -/
example : ((worldAfter someDeeds).parts[1]?.map Own.same) = some true := by decide +kernel

/-- C101: `content_type_parameters` is never sent: `encode` gives the same octets, or raises the same exception, whatever the
attribute is on the parts of the message. -/
theorem C101_unsent (env : Env) (ord : Dict HVal → Dict HVal) (rnd : Nat) (m m' : Msg) (h : bare m = bare m') :
    (match encode env ord rnd m with | .ok l _ => Except.ok l | .err e _ => .error e) =
    (match encode env ord rnd m' with | .ok l _ => Except.ok l | .err e _ => .error e) := by
  have key : ∀ m, encode env ord rnd (bare m) = after bare (encode env ord rnd m) := by
    intro m
    unfold encode
    rw [M.bind_apply, M.bind_apply, bare_header]
    cases encodeMessageHeader ord rnd m with
    | err e m1 => rfl
    | ok a m1 =>
      simp only [after, M.bind_apply, M.get_apply, bare_body]
      cases encodeMessageBody env ord m1 <;> rfl
  have k1 := key m
  have k2 := key m'
  rw [h, k2] at k1
  cases h1 : encode env ord rnd m with
  | ok a m1 =>
    rw [h1] at k1
    cases h2 : encode env ord rnd m' with
    | ok b m2 => rw [h2] at k1; injection k1 with k1; rw [k1]
    | err e m2 => rw [h2] at k1; cases k1
  | err e m1 =>
    rw [h1] at k1
    cases h2 : encode env ord rnd m' with
    | ok b m2 => rw [h2] at k1; cases k1
    | err e m2 => rw [h2] at k1; injection k1 with k1; rw [k1]

/-- a message with a slide whose text part was given `content_type_parameters`, and one without -/
example :
    let page (c : Dict Val) : Page :=
      { Page.new with text := some ({ ctParams := c, headers := [(py! "Content-Type", .ct (py! "text/plain") [])], filename := none, data := some (py! "hi") }, 0, 0) }
    bare { Msg.new with pages := [page []] } = bare { Msg.new with pages := [page [(py! "Charset", .str (py! "utf-8"))]] } ∧
    page [] ≠ page [(py! "Charset", .str (py! "utf-8"))] := by decide +kernel

end Verif.Props

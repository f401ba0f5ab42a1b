import Verif.Props.MmsEnc
/-!
# Properties of encoding whole messages: message type, the message afterwards, which headers can be sent, round trip
(C47, C48, C49, C61)
-/
set_option autoImplicit false

namespace Verif.Props
open Verif Verif.Mms
open Verif.Spec.Wsp Verif.Spec.Mms Verif.Spec.MmsEnc

/-- did encoding succeed -/
def encodes (env : Env) (ord : Dict HVal → Dict HVal) (rnd : Nat) (m : Msg) : Bool :=
  match encode env ord rnd m with
  | .ok _ _ => true
  | .err _ _ => false

theorem encodes_iff (env : Env) (ord : Dict HVal → Dict HVal) (rnd : Nat) (m : Msg) :
    encodes env ord rnd m = true ↔ ∃ o m', encode env ord rnd m = .ok o m' := by
  unfold encodes
  cases h : encode env ord rnd m with
  | ok o m' => simp
  | err e m' => simp

theorem encode_inv {env : Env} {ord : Dict HVal → Dict HVal} {rnd : Nat} {m m' : Msg} {o : List Nat}
    (h : encode env ord rnd m = .ok o m') : ∃ hd b, encodeMessageHeader ord rnd m = .ok hd m' ∧
      encodeMessageBody env ord m' = .ok b ∧ o = hd ++ b := by
  obtain ⟨hd, m1, h1, h2⟩ : ∃ hd m1, encodeMessageHeader ord rnd m = .ok hd m1 ∧
      (do let m ← M.get; let b ← M.lift (encodeMessageBody env ord m); pure (hd ++ b) : M Msg (List Nat)) m1 = .ok o m' := by
    unfold encode at h
    rw [M.bind_apply] at h
    cases hh : encodeMessageHeader ord rnd m with
    | ok hd m1 => rw [hh] at h; exact ⟨hd, m1, rfl, h⟩
    | err e m1 => rw [hh] at h; cases h
  simp only [bind, M.bind, M.get, M.lift, pure, M.pure] at h2
  cases hb : encodeMessageBody env ord m1 with
  | error e => rw [hb] at h2; cases h2
  | ok b =>
    rw [hb] at h2
    injection h2 with e1 e2
    subst e1 e2
    exact ⟨hd, b, h1, hb, rfl⟩

theorem encode_of {env : Env} {ord : Dict HVal → Dict HVal} {rnd : Nat} {m m' : Msg} {hd b : List Nat}
    (h1 : encodeMessageHeader ord rnd m = .ok hd m') (h2 : encodeMessageBody env ord m' = .ok b) :
    encode env ord rnd m = .ok (hd ++ b) m' := by
  unfold encode
  rw [M.bind_ok h1]
  simp only [bind, M.bind, M.get, M.lift, pure, M.pure, h2]

/-! ### C49 the message type that is sent -/

/-- the message has this header -/
def Has (m : Msg) (n : Str) : Prop := ∃ v, m.headers.get n = some v

/-- m-send-req is kept with a recipient and becomes m-retrieve-conf without; the other types are kept -/
def C49_full : Prop := ∀ (env : Env) (ord : Dict HVal → Dict HVal) (rnd : Nat) (m : Msg) (o : List Nat) (m' : Msg) (s : Str),
  (∀ d, (ord d).Perm d) → m.headers.Ok → encode env ord rnd m = .ok o m' → ¬ Has m XT →
  m.headers.get MT = some (.v (.str s)) → s ∈ typeNames →
  (s ≠ py! "m-send-req" ∨ Has m (py! "To") ∨ Has m (py! "Cc") ∨ Has m (py! "Bcc") →
    ∃ tail, o = 0x8c :: (0x80 + typeNames.idxOf s) :: tail) ∧
  (s = py! "m-send-req" → ¬ (Has m (py! "To") ∨ Has m (py! "Cc") ∨ Has m (py! "Bcc")) →
    ∃ tail, o = 0x8c :: (0x80 + typeNames.idxOf (py! "m-retrieve-conf")) :: tail)

theorem type_octet {s : Str} (h : s ∈ typeNames) : headerOctets MT (.v (.str s)) = .ok [0x8c, 0x80 + typeNames.idxOf s] := by
  revert s
  decide +kernel

theorem sent_octets {env : Env} {ord : Dict HVal → Dict HVal} {rnd : Nat} {m m' : Msg} {o : List Nat}
    (h : encode env ord rnd m = .ok o m') : ∃ a tail, headerOctets MT (sentType m.headers) = .ok a ∧ o = a ++ tail := by
  obtain ⟨hd, b, h1, _, rfl⟩ := encode_inv h
  obtain ⟨vt, vi, vv, a, b', c, r, t, g1, _, _, ga, _, _, _, _, rfl, _⟩ := emh_inv h1
  rw [prepare_get rnd _ MT ⟨by decide, by decide, by decide⟩, if_pos rfl] at g1
  injection g1 with g1
  subst g1
  exact ⟨a, b' ++ c ++ r ++ t ++ b, ga, by simp⟩

theorem has_iff {m : Msg} {n : Str} : m.headers.has n = true ↔ Has m n := by
  unfold Dict.has Has
  cases m.headers.get n <;> simp

theorem sent_known {env : Env} {ord : Dict HVal → Dict HVal} {rnd : Nat} {m m' : Msg} {o : List Nat}
    (h : encode env ord rnd m = .ok o m') {s : Str} (hs : s ∈ typeNames) (ht : sentType m.headers = .v (.str s)) :
    ∃ tail, o = 0x8c :: (0x80 + typeNames.idxOf s) :: tail := by
  obtain ⟨a, tail, ha, rfl⟩ := sent_octets h
  rw [ht, type_octet hs] at ha
  injection ha with ha
  subst ha
  exact ⟨tail, rfl⟩

theorem retrieve_known : py! "m-retrieve-conf" ∈ typeNames := by decide

/-- The type is kept if it is not m-send-req, or if there is a To or Cc header; m-send-req without To, Cc and Bcc (and
without a header called "Bc") is sent as m-retrieve-conf.  Missing: Bcc counts as a recipient (`C49_bcc`). -/
theorem C49_partial (env : Env) (ord : Dict HVal → Dict HVal) (rnd : Nat) (m : Msg) (o : List Nat) (m' : Msg) (s : Str)
    (h : encode env ord rnd m = .ok o m') (hx : ¬ Has m XT) (ht : m.headers.get MT = some (.v (.str s))) (hs : s ∈ typeNames) :
    (s ≠ py! "m-send-req" ∨ Has m (py! "To") ∨ Has m (py! "Cc") → ∃ tail, o = 0x8c :: (0x80 + typeNames.idxOf s) :: tail) ∧
    (s = py! "m-send-req" → ¬ (Has m (py! "To") ∨ Has m (py! "Cc") ∨ Has m (py! "Bc")) →
      ∃ tail, o = 0x8c :: (0x80 + typeNames.idxOf (py! "m-retrieve-conf")) :: tail) := by
  have hX : m.headers.get XT = none := by
    cases hg : m.headers.get XT with
    | none => rfl
    | some v => exact absurd ⟨v, hg⟩ hx
  have e : sentType m.headers = if isStr (some (.v (.str s))) (py! "m-send-req") &&
      !(m.headers.has (py! "To") || m.headers.has (py! "Cc") || m.headers.has (py! "Bc")) then
      .v (.str (py! "m-retrieve-conf")) else .v (.str s) := by
    unfold sentType
    rw [hX, ht]
    rfl
  have his : isStr (some (.v (.str s))) (py! "m-send-req") = true ↔ s = py! "m-send-req" := by
    unfold isStr
    simp
  refine ⟨fun hk => sent_known h hs ?_, fun h1 h2 => sent_known h retrieve_known ?_⟩
  · rw [e, if_neg]
    intro hc
    simp only [Bool.and_eq_true, Bool.not_eq_true', Bool.or_eq_false_iff] at hc
    rcases hk with hk | hk | hk
    · exact hk (his.1 hc.1)
    · rw [has_iff.2 hk] at hc
      cases hc.2.1.1
    · rw [has_iff.2 hk] at hc
      cases hc.2.1.2
  · rw [e, if_pos]
    simp only [not_or, ← has_iff, Bool.not_eq_true] at h2
    rw [his.2 h1, h2.1, h2.2.1, h2.2.2]
    rfl

/-- a new message with one more header -/
def withHeader (n : Str) (v : HVal) : Msg := { Msg.new with headers := Msg.new.headers.set n v }

theorem encodes_to : encodes sampleEnv id 1234 (withHeader (py! "To") (.v (.str (py! "+34600000000")))) = true := by decide +kernel

example : encodes sampleEnv id 1234 (withHeader (py! "To") (.v (.str (py! "+34600000000")))) = true ∧
    ¬ Has (withHeader (py! "To") (.v (.str (py! "+34600000000")))) XT ∧
    (withHeader (py! "To") (.v (.str (py! "+34600000000")))).headers.get MT = some (.v (.str (py! "m-send-req"))) :=
  ⟨encodes_to, by rintro ⟨v, h⟩; revert h; exact fun h => (by cases h), rfl⟩

/-- A message of type m-send-req whose only recipients are Bcc ones is sent as m-retrieve-conf. -/
theorem C49_bcc (env : Env) (ord : Dict HVal → Dict HVal) (rnd : Nat) (m : Msg) (o : List Nat) (m' : Msg)
    (h : encode env ord rnd m = .ok o m') (hx : ¬ Has m XT) (ht : m.headers.get MT = some (.v (.str (py! "m-send-req"))))
    (hr : ¬ Has m (py! "To") ∧ ¬ Has m (py! "Cc") ∧ ¬ Has m (py! "Bc")) : ∃ tail, o = 0x8c :: 0x84 :: tail :=
  (C49_partial env ord rnd m o m' _ h hx ht (by decide)).2 rfl (by simpa using hr)

theorem encodes_bcc : encodes sampleEnv id 1234 (withHeader (py! "Bcc") (.v (.str (py! "+34600000000")))) = true := by decide +kernel

theorem C49_refuted : ¬ C49_full := by
  intro hf
  obtain ⟨o, m', h⟩ := (encodes_iff _ _ _ _).1 encodes_bcc
  have hx : ∀ n, (withHeader (py! "Bcc") (.v (.str (py! "+34600000000")))).headers.get n = none →
      ¬ Has (withHeader (py! "Bcc") (.v (.str (py! "+34600000000")))) n := by
    rintro n hn ⟨v, hv⟩
    rw [hn] at hv
    cases hv
  obtain ⟨t1, h1⟩ := C49_bcc _ _ _ _ _ _ h (hx _ rfl) rfl ⟨hx _ rfl, hx _ rfl, hx _ rfl⟩
  obtain ⟨t2, h2⟩ := (hf _ _ _ _ _ _ (py! "m-send-req") (fun d => List.Perm.refl d) (by unfold Dict.Ok; decide) h (hx _ rfl) rfl
    (by decide)).1 (.inr (.inr (.inr ⟨_, rfl⟩)))
  rw [h1] at h2
  injection h2 with _ h2
  injection h2 with h2 _
  revert h2
  decide

/-- a message without type is sent as m-retrieve-conf -/
theorem C49_missing (env : Env) (ord : Dict HVal → Dict HVal) (rnd : Nat) (m : Msg) (o : List Nat) (m' : Msg)
    (h : encode env ord rnd m = .ok o m') (hx : ¬ Has m XT) (ht : ¬ Has m MT) : ∃ tail, o = 0x8c :: 0x84 :: tail := by
  have hn : ∀ n, ¬ Has m n → m.headers.get n = none := by
    intro n hn
    cases hg : m.headers.get n with
    | none => rfl
    | some v => exact absurd ⟨v, hg⟩ hn
  refine sent_known h (s := py! "m-retrieve-conf") (by decide) ?_
  unfold sentType
  rw [hn _ hx, hn _ ht]
  rfl

example : ∃ m : Msg, ¬ Has m XT ∧ ¬ Has m MT ∧ ∃ o m', encode sampleEnv id 1234 m = .ok o m' := by
  refine ⟨{ Msg.new with headers := [(CT, .ct (py! "application/vnd.wap.multipart.related") [])] }, ?_, ?_, (encodes_iff _ _ _ _).1 (by decide +kernel)⟩ <;>
    (rintro ⟨v, h⟩; cases h)

/-- a type that is not one of the seven is sent as m-send-req, whatever the recipients -/
theorem C49_unknown (env : Env) (ord : Dict HVal → Dict HVal) (rnd : Nat) (m : Msg) (o : List Nat) (m' : Msg) (s : Str)
    (h : encode env ord rnd m = .ok o m') (hx : ¬ Has m XT) (ht : m.headers.get MT = some (.v (.str s))) (hs : s ∉ typeNames) :
    ∃ tail, o = 0x8c :: 0x80 :: tail := by
  obtain ⟨a, tail, ha, rfl⟩ := sent_octets h
  have hX : m.headers.get XT = none := by
    cases hg : m.headers.get XT with
    | none => rfl
    | some v => exact absurd ⟨v, hg⟩ hx
  have hne : isStr (some (.v (.str s))) (py! "m-send-req") = false := by
    unfold isStr
    have : s ≠ py! "m-send-req" := by rintro rfl; exact hs (by decide)
    simp [this]
  have e : sentType m.headers = .v (.str s) := by
    unfold sentType
    rw [hX, ht]
    show (if isStr (some (.v (.str s))) (py! "m-send-req") && _ then _ else HVal.v (.str s)) = _
    rw [hne]
    rfl
  rw [e] at ha
  have := (C44_unknown_type s hs).1
  rw [show headerOctets MT (.v (.str s)) = _ from this] at ha
  injection ha with ha
  subst ha
  exact ⟨tail, rfl⟩

example : (py! "m-notification") ∉ typeNames := by decide +kernel

/-! ### C48 the message after encoding -/

/-- encoding leaves the message as it was, so encoding again gives the same -/
def C48_full : Prop := ∀ (env : Env) (ord : Dict HVal → Dict HVal) (rnd rnd' : Nat) (m : Msg) (o : List Nat) (m' : Msg),
  (∀ d, (ord d).Perm d) → m.headers.Ok → encode env ord rnd m = .ok o m' → m' = m ∧ encode env ord rnd' m' = .ok o m'

/-- After encoding, Message-Type, Transaction-Id and MMS-Version (and their aliases) are gone from the message. -/
theorem C48_deleted (env : Env) (ord : Dict HVal → Dict HVal) (rnd : Nat) (m : Msg) (o : List Nat) (m' : Msg)
    (hk : m.headers.Ok) (h : encode env ord rnd m = .ok o m') :
    ¬ Has m' MT ∧ ¬ Has m' TI ∧ ¬ Has m' MV ∧ ¬ Has m' XT ∧ ¬ Has m' XI ∧ ¬ Has m' XV := by
  obtain ⟨hd, b, h1, _, _⟩ := encode_inv h
  obtain ⟨_, _, _, _, _, _, _, _, _, _, _, _, _, _, _, _, _, rfl⟩ := emh_inv h1
  have key : ∀ n, (restHeaders (prepareHeaders rnd m.headers)).get n = none →
      ¬ Has { m with headers := restHeaders (prepareHeaders rnd m.headers) } n := by
    rintro n hn ⟨v, hv⟩
    simp only [hn] at hv
    cases hv
  have hP := prepare_ok hk rnd
  have hx : ∀ n, n = XT ∨ n = XI ∨ n = XV → (restHeaders (prepareHeaders rnd m.headers)).get n = none := by
    intro n hn
    rw [rest_get hP, prepare_gone hk rnd hn]
    split <;> rfl
  refine ⟨key _ ?_, key _ ?_, key _ ?_, key _ (hx _ (.inl rfl)), key _ (hx _ (.inr (.inl rfl))), key _ (hx _ (.inr (.inr rfl)))⟩
  · rw [rest_get hP, if_pos (.inl rfl)]
  · rw [rest_get hP, if_pos (.inr (.inl rfl))]
  · rw [rest_get hP, if_pos (.inr (.inr rfl))]

example : Msg.new.headers.Ok ∧ ∃ o m', encode sampleEnv id 1234 Msg.new = .ok o m' := ⟨by unfold Dict.Ok; decide, (encodes_iff _ _ _ _).1 (by decide +kernel)⟩

theorem C48_refuted : ¬ C48_full := by
  intro hf
  obtain ⟨o, m', h⟩ := (encodes_iff _ _ _ _).1 encodes_to
  have hk : (withHeader (py! "To") (.v (.str (py! "+34600000000")))).headers.Ok := by unfold Dict.Ok; decide
  have h1 := (hf _ _ _ 1234 _ _ _ (fun d => List.Perm.refl d) hk h).1
  have h2 := (C48_deleted _ _ _ _ _ _ hk h).1
  rw [h1] at h2
  exact h2 ⟨_, rfl⟩

/-- The slides, data parts, meta tags and size of the message and its other headers are left as they were.  Missing: the
six headers of `C48_deleted`. -/
theorem C48_partial (env : Env) (ord : Dict HVal → Dict HVal) (rnd : Nat) (m : Msg) (o : List Nat) (m' : Msg)
    (h : encode env ord rnd m = .ok o m') : m'.pages = m.pages ∧ m'.dataParts = m.dataParts ∧ m'.metaTags = m.metaTags ∧
      m'.width = m.width ∧ m'.height = m.height ∧
      ∀ n, n ∉ [MT, TI, MV, XT, XI, XV] → m'.headers.get n = m.headers.get n := by
  obtain ⟨hd, b, h1, _, _⟩ := encode_inv h
  obtain ⟨_, _, _, _, _, _, _, _, _, _, _, _, _, _, _, _, _, rfl⟩ := emh_inv h1
  refine ⟨rfl, rfl, rfl, rfl, rfl, fun n hn => ?_⟩
  simp only [List.mem_cons, List.not_mem_nil, or_false, not_or] at hn
  obtain ⟨n1, n2, n3, n4, n5, n6⟩ := hn
  show (restHeaders _).get n = _
  rw [rest_get' ⟨n1, n2, n3⟩, prepare_get rnd _ n ⟨n4, n5, n6⟩, if_neg n1, if_neg n2, if_neg n3]

example : ∃ o m', encode sampleEnv id 1234 Msg.new = .ok o m' := (encodes_iff _ _ _ _).1 (by decide +kernel)

/-- the octets of Message-Type m-retrieve-conf, a Transaction-Id and MMS-Version 1.0 -/
def preamble (id : Nat) : List Nat := [0x8c, 0x84, 0x98] ++ Verif.Spec.Slides.digits id ++ [0, 0x8d, 0x90]

theorem digits_chars (n : Nat) : ∀ c ∈ Verif.Spec.Slides.digits n, 48 ≤ c ∧ c ≤ 57 := by
  induction n using Nat.strongRecOn with
  | ind n ih =>
    intro c hc
    rw [Verif.Spec.Slides.digits] at hc
    split at hc
    · simp only [List.mem_singleton] at hc
      omega
    · rcases List.mem_append.1 hc with hc | hc
      · exact ih (n / 10) (by omega) c hc
      · simp only [List.mem_singleton] at hc
        omega

theorem id_octets (n : Nat) : headerOctets TI (.v (.str (natStr n))) = .ok ([0x98] ++ Verif.Spec.Slides.digits n ++ [0]) := by
  rw [natStr_decimal]
  have hc := digits_chars n
  refine (field_plain (name := TI) (n := 0x18) rfl rfl (by decide) (by decide) ⟨fun h0 => ?_, fun c h => ?_, fun h => ?_⟩).1
  · have := hc 0 h0
    omega
  · have := hc c h
    omega
  · have := hc 127 (List.mem_of_mem_head? h)
    omega

theorem prepare_again {R : Dict HVal} (h : ∀ n ∈ [MT, TI, MV, XT, XI, XV], R.get n = none) (rnd : Nat) :
    prepareHeaders rnd R = R ++ [(MT, .v (.str (py! "m-retrieve-conf"))), (TI, .v (.str (natStr rnd))),
      (MV, .v (.str (py! "1.0")))] := by
  have hn : ∀ n v, R.get n = none → renameHeader R n v = R := by
    intro n v hn
    unfold renameHeader
    rw [hn]
  have hr : renamed R = R := by
    unfold renamed
    rw [hn XT MT (h _ (by simp)), hn XI TI (h _ (by simp)), hn XV MV (h _ (by simp))]
  have hc : chooseMessageType R = R ++ [(MT, .v (.str (py! "m-retrieve-conf")))] := by
    unfold chooseMessageType
    have h1 : R.has (py! "Message-Type") = false := by
      unfold Dict.has
      rw [show R.get (py! "Message-Type") = none from h MT (by simp)]
      rfl
    rw [h1]
    simp only [Bool.false_eq_true, if_false]
    rw [if_neg]
    · exact Dict.set_new (h MT (by simp)) _
    · rw [dict_get_set, if_pos rfl]
      decide
  have hg : ∀ (d : Dict HVal) (e : Dict HVal) n, d.get n = none → Dict.get (d ++ e) n = Dict.get e n := by
    intro d e n hd
    rw [Dict.get_append, hd]
  rw [prepare_eq, hr, hc]
  have h2 : Dict.get (R ++ [(MT, .v (.str (py! "m-retrieve-conf")))]) TI = none := by
    rw [hg _ _ _ (h TI (by simp))]
    rfl
  have h3 : Dict.get (R ++ [(MT, .v (.str (py! "m-retrieve-conf")))] ++ [(TI, .v (.str (natStr rnd)))]) MV = none := by
    rw [List.append_assoc, hg _ _ _ (h MV (by simp))]
    rfl
  simp only [Dict.has, h2, Option.isSome_none, Bool.false_eq_true, if_false]
  rw [Dict.set_new h2]
  rw [h3]
  simp only [Option.isSome_none, Bool.false_eq_true, if_false]
  rw [Dict.set_new h3]
  simp

/-- Encoding again: the message no longer changes, and the same octets come out behind a new beginning, with type
m-retrieve-conf, a new random transaction id and version 1.0, whatever they were the first time. -/
theorem C48_second (env : Env) (ord : Dict HVal → Dict HVal) (rnd : Nat) (m : Msg) (o : List Nat) (m' : Msg)
    (hk : m.headers.Ok) (h : encode env ord rnd m = .ok o m') : ∃ first tail, o = first ++ tail ∧
      (∃ a b c t i v, first = a ++ b ++ c ∧ headerOctets MT t = .ok a ∧ headerOctets TI i = .ok b ∧ headerOctets MV v = .ok c) ∧
      ∀ rnd', encode env ord rnd' m' = .ok (preamble rnd' ++ tail) m' := by
  have hdel := C48_deleted env ord rnd m o m' hk h
  obtain ⟨hd, b, h1, h2, rfl⟩ := encode_inv h
  obtain ⟨vt, vi, vv, ba, bb, bc, r, t, _, _, _, ga, gb, gc, gr, gt, rfl, hm⟩ := emh_inv h1
  refine ⟨ba ++ bb ++ bc, r ++ t ++ b, by simp, ⟨ba, bb, bc, vt, vi, vv, rfl, ga, gb, gc⟩, fun rnd' => ?_⟩
  have hR : m'.headers = restHeaders (prepareHeaders rnd m.headers) := by rw [hm]
  have hnone : ∀ n ∈ [MT, TI, MV, XT, XI, XV], m'.headers.get n = none := by
    have key : ∀ n, ¬ Has m' n → m'.headers.get n = none := by
      intro n hn
      cases hg : m'.headers.get n with
      | none => rfl
      | some v => exact absurd ⟨v, hg⟩ hn
    obtain ⟨d1, d2, d3, d4, d5, d6⟩ := hdel
    intro n hn
    simp only [List.mem_cons, List.not_mem_nil, or_false] at hn
    rcases hn with rfl | rfl | rfl | rfl | rfl | rfl <;> exact key _ (by assumption)
  have hP := prepare_again hnone rnd'
  have hget : ∀ n, m'.headers.get n = none → (prepareHeaders rnd' m'.headers).get n = Dict.get
      [(MT, .v (.str (py! "m-retrieve-conf"))), (TI, .v (.str (natStr rnd'))), (MV, .v (.str (py! "1.0")))] n := by
    intro n hn
    rw [hP, Dict.get_append, hn]
  have hrest : restHeaders (prepareHeaders rnd' m'.headers) = m'.headers := by
    rw [hP]
    unfold restHeaders
    rw [Dict.del_append (hnone MT (by simp))]
    show Dict.del (Dict.del (m'.headers ++ [(TI, _), (MV, _)]) TI) MV = _
    rw [Dict.del_append (hnone TI (by simp))]
    show Dict.del (m'.headers ++ [(MV, _)]) MV = _
    rw [Dict.del_append (hnone MV (by simp))]
    show m'.headers ++ [] = _
    simp
  have hh := emh_ok (ord := ord) (rnd := rnd') (m := m') rfl
    (vt := .v (.str (py! "m-retrieve-conf"))) (vi := .v (.str (natStr rnd'))) (vv := .v (.str (py! "1.0")))
    (by rw [hget _ (hnone MT (by simp))]; rfl) (by rw [hget _ (hnone TI (by simp))]; rfl)
    (by rw [hget _ (hnone MV (by simp))]; rfl) (type_octet (by decide)) (id_octets rnd')
    (show headerOctets MV (.v (.str (py! "1.0"))) = .ok [0x8d, 0x90] from rfl)
    (by rw [hrest, hR]; exact gr) (by rw [hrest, hR]; exact gt)
  rw [hrest] at hh
  have e : ({ m' with headers := m'.headers } : Msg) = m' := rfl
  rw [e] at hh
  have := encode_of hh h2
  rw [this]
  have hi : typeNames.idxOf (py! "m-retrieve-conf") = 4 := by decide
  simp [preamble, hi]

example : Msg.new.headers.Ok ∧ ∃ o m', encode sampleEnv id 1234 Msg.new = .ok o m' := ⟨by unfold Dict.Ok; decide, (encodes_iff _ _ _ _).1 (by decide +kernel)⟩

/-- the octets, if any, and the message left by a call -/
def outcome : Res Msg (List Nat) → Option (List Nat) × Msg
  | .ok o m => (some o, m)
  | .err _ m => (none, m)

/-- repeated calls of some `f : random number → message → ...`: what each gave, and the message left at the end -/
def callAll (f : Nat → M Msg (List Nat)) : List Nat → Msg → List (Option (List Nat)) × Msg
  | [], m => ([], m)
  | r :: rs, m => ((outcome (f r m)).1 :: (callAll f rs (outcome (f r m)).2).1, (callAll f rs (outcome (f r m)).2).2)

theorem callAll_ok {f : Nat → M Msg (List Nat)} {r : Nat} {rs : List Nat} {m m' : Msg} {o : List Nat}
    (h : f r m = .ok o m') : callAll f (r :: rs) m = (some o :: (callAll f rs m').1, (callAll f rs m').2) := by
  rw [callAll, h]
  rfl

/-- Any number of encodings after a successful one succeed, leave the message as the first one did, and give the same
octets but for the beginning. -/
theorem C48_history (env : Env) (ord : Dict HVal → Dict HVal) (rnd : Nat) (m : Msg) (o : List Nat) (m' : Msg)
    (hk : m.headers.Ok) (h : encode env ord rnd m = .ok o m') : ∃ first tail, o = first ++ tail ∧
      ∀ rnds, callAll (encode env ord) (rnd :: rnds) m = (some o :: rnds.map (fun r => some (preamble r ++ tail)), m') := by
  obtain ⟨first, tail, h1, _, h2⟩ := C48_second env ord rnd m o m' hk h
  refine ⟨first, tail, h1, fun rnds => ?_⟩
  have key : callAll (encode env ord) rnds m' = (rnds.map (fun r => some (preamble r ++ tail)), m') := by
    induction rnds with
    | nil => rfl
    | cons r rs ih =>
      rw [callAll_ok (h2 r), ih]
      rfl
  rw [callAll_ok h, key]

example : Msg.new.headers.Ok ∧ ∃ o m', encode sampleEnv id 1234 Msg.new = .ok o m' := ⟨by unfold Dict.Ok; decide, (encodes_iff _ _ _ _).1 (by decide +kernel)⟩

/-! ### C61 which headers can be sent -/

/-- the header names no value of which can be encoded -/
def unsendable : List Str := [py! "Content-Location", py! "Date", py! "Delivery-Report", py! "Delivery-Time", py! "Expiry",
  py! "Message-Class", py! "Priority", py! "Read-Reply", py! "Report-Allowed", py! "Response-Status", py! "Sender-Visibility"]

/-- for every header of WAP-209 there is a value with which a message can be encoded -/
def C61_full : Prop := ∀ n ∈ fieldNames, ∃ (env : Env) (ord : Dict HVal → Dict HVal) (rnd : Nat) (m : Msg) (o : List Nat) (m' : Msg),
  (∀ d, (ord d).Perm d) ∧ Has m n ∧ encode env ord rnd m = .ok o m'

/-- These eleven headers cannot be encoded, whatever their value. -/
theorem C61_octets (n : Str) (hn : n ∈ unsendable) (v : HVal) : headerOctets n v = .error .attributeError := by
  have key : ∀ x ∈ unsendable, ∃ k ty, findField mmsFieldNames x = some (k, ty) ∧ k < 128 ∧
      ty ∈ [MType.uriValue, .dateValue, .booleanValue, .deliveryTimeValue, .expiryValue, .messageClassValue,
        .priorityValue, .responseStatusValue, .senderVisibilityValue] := by
    intro x hx
    have : ∀ x ∈ unsendable, (match findField mmsFieldNames x with
      | some (k, ty) => decide (k < 128) && decide (ty ∈ [MType.uriValue, .dateValue, .booleanValue, .deliveryTimeValue, .expiryValue,
          .messageClassValue, .priorityValue, .responseStatusValue, .senderVisibilityValue])
      | none => false) = true := by decide +kernel
    have := this x hx
    split at this
    · rename_i k ty hf
      simp only [Bool.and_eq_true, decide_eq_true_eq] at this
      exact ⟨k, ty, hf, this⟩
    · cases this
  obtain ⟨k, ty, hf, hk, ht⟩ := key n hn
  unfold headerOctets encodeHeader
  rw [hf]
  have hs : ∃ l, encodeShortInteger (k : Int) = .ok l := by
    unfold encodeShortInteger
    split
    · omega
    · exact ⟨_, rfl⟩
  obtain ⟨l, hs⟩ := hs
  have hv : encodeMmsValue ty v = .error .attributeError := by
    simp only [List.mem_cons, List.not_mem_nil, or_false] at ht
    rcases ht with rfl | rfl | rfl | rfl | rfl | rfl | rfl | rfl | rfl <;> rfl
  simp only [hs, hv, bind, Except.bind]

example (v : HVal) := C61_octets (py! "Delivery-Time") (by decide +kernel) v

/-- A message that has one of them cannot be encoded. -/
theorem C61_never (env : Env) (ord : Dict HVal → Dict HVal) (rnd : Nat) (m : Msg) (o : List Nat) (m' : Msg)
    (ho : ∀ d, (ord d).Perm d) (n : Str) (hn : n ∈ unsendable) (hm : Has m n) : encode env ord rnd m ≠ .ok o m' := by
  intro h
  obtain ⟨hd, b, h1, h2, rfl⟩ := encode_inv h
  obtain ⟨vt, vi, vv, ba, bb, bc, r, t, _, _, _, ga, gb, gc, gr, gt, rfl, hm'⟩ := emh_inv h1
  obtain ⟨v, hv⟩ := hm
  have hall := encodeRest_iff.1 ⟨r, gr⟩
  have hne : ∀ x ∈ unsendable, x ≠ MT ∧ x ≠ TI ∧ x ≠ MV ∧ x ≠ XT ∧ x ≠ XI ∧ x ≠ XV ∧ x ≠ CT := by decide +kernel
  obtain ⟨n1, n2, n3, n4, n5, n6, n7⟩ := hne n hn
  have hg : (restHeaders (prepareHeaders rnd m.headers)).get n = some v := by
    rw [rest_get' ⟨n1, n2, n3⟩, prepare_get rnd _ n ⟨n4, n5, n6⟩, if_neg n1, if_neg n2, if_neg n3, hv]
  obtain ⟨x, hx⟩ := hall (n, v) ((ho _).mem_iff.2 (Dict.mem_of_get hg)) n7
  rw [show headerOctets (n, v).1 (n, v).2 = _ from C61_octets n hn v] at hx
  cases hx

example : Has (withHeader (py! "Priority") (.v (.str (py! "High")))) (py! "Priority") := ⟨_, rfl⟩

theorem C61_refuted : ¬ C61_full := by
  intro h
  obtain ⟨env, ord, rnd, m, o, m', ho, hm, he⟩ := h (py! "Priority") (by decide)
  exact C61_never env ord rnd m o m' ho (py! "Priority") (by decide) hm he

theorem ct_get {d e : Dict HVal} (h : d.get CT = e.get CT) : encodeCtHeader d = encodeCtHeader e := by
  unfold encodeCtHeader Dict.index
  rw [show d.get (py! "Content-Type") = e.get (py! "Content-Type") from h]

theorem encodable_iff {env : Env} {ord : Dict HVal → Dict HVal} (ho : ∀ d, (ord d).Perm d) {rnd : Nat} {m : Msg}
    (hk : m.headers.Ok) : (∃ o m', encode env ord rnd m = .ok o m') ↔
      (∀ k v, (prepareHeaders rnd m.headers).get k = some v → k ≠ CT → ∃ o, headerOctets k v = .ok o) ∧
      (∃ t, encodeCtHeader (prepareHeaders rnd m.headers) = .ok t) ∧ ∃ b, encodeMessageBody env ord m = .ok b := by
  have hP := prepare_ok hk rnd
  have hct : encodeCtHeader (restHeaders (prepareHeaders rnd m.headers)) = encodeCtHeader (prepareHeaders rnd m.headers) :=
    ct_get (rest_get' ⟨by decide, by decide, by decide⟩)
  constructor
  · rintro ⟨o, m', h⟩
    obtain ⟨hd, b, h1, h2, rfl⟩ := encode_inv h
    obtain ⟨vt, vi, vv, ba, bb, bc, r, t, g1, g2, g3, ga, gb, gc, gr, gt, rfl, rfl⟩ := emh_inv h1
    refine ⟨fun k v hg hc => ?_, ⟨t, by rw [← hct]; exact gt⟩, ⟨b, h2⟩⟩
    by_cases k1 : k = MT
    · subst k1; rw [g1] at hg; injection hg with hg; subst hg; exact ⟨_, ga⟩
    by_cases k2 : k = TI
    · subst k2; rw [g2] at hg; injection hg with hg; subst hg; exact ⟨_, gb⟩
    by_cases k3 : k = MV
    · subst k3; rw [g3] at hg; injection hg with hg; subst hg; exact ⟨_, gc⟩
    have hg' : (restHeaders (prepareHeaders rnd m.headers)).get k = some v := by rw [rest_get' ⟨k1, k2, k3⟩, hg]
    exact encodeRest_iff.1 ⟨r, gr⟩ (k, v) ((ho _).mem_iff.2 (Dict.mem_of_get hg')) hc
  · rintro ⟨h1, ⟨t, h2⟩, ⟨b, h3⟩⟩
    have g1 := prepare_get rnd m.headers MT ⟨by decide, by decide, by decide⟩
    have g2 := prepare_get rnd m.headers TI ⟨by decide, by decide, by decide⟩
    have g3 := prepare_get rnd m.headers MV ⟨by decide, by decide, by decide⟩
    rw [if_pos rfl] at g1
    rw [if_neg (by decide), if_pos rfl] at g2
    rw [if_neg (by decide), if_neg (by decide), if_pos rfl] at g3
    obtain ⟨a, ha⟩ := h1 _ _ g1 (by decide)
    obtain ⟨i, hi⟩ := h1 _ _ g2 (by decide)
    obtain ⟨c, hc⟩ := h1 _ _ g3 (by decide)
    obtain ⟨r, hr⟩ := (encodeRest_iff (d := ord (restHeaders (prepareHeaders rnd m.headers)))).2 (by
      rintro ⟨k, v⟩ hm hkc
      have hg := (rest_ok hP).get ((ho _).mem_iff.1 hm)
      rw [rest_get hP] at hg
      split at hg
      · cases hg
      · exact h1 k v hg hkc)
    have hh := emh_ok (ord := ord) (rnd := rnd) (m := m) rfl g1 g2 g3 ha hi hc hr (by rw [hct]; exact h2)
    exact ⟨_, _, encode_of hh h3⟩

theorem type_ok {v : HVal} : (∃ o, headerOctets MT v = .ok o) ↔ ∀ a b, v ≠ .ct a b := by
  cases v with
  | v x =>
    refine ⟨fun _ a b h => (by cases h), fun _ => ?_⟩
    have hs : ∀ s : Str, ∃ o, headerOctets MT (.v (.str s)) = .ok o := by
      intro s
      by_cases h : s ∈ typeNames
      · exact ⟨_, type_octet h⟩
      · exact ⟨_, (C44_unknown_type s h).1⟩
    cases x with
    | str s => exact hs s
    | uni s =>
      rw [C44_unicode MT s (by decide)]
      exact hs s
    | int n => exact ⟨[0x8c, 0x80], rfl⟩
    | bool n => exact ⟨[0x8c, 0x80], rfl⟩
    | flt a b => exact ⟨[0x8c, 0x80], rfl⟩
    | dt a => exact ⟨[0x8c, 0x80], rfl⟩
    | none => exact ⟨[0x8c, 0x80], rfl⟩
  | tup a b => exact ⟨fun _ a b h => (by cases h), fun _ => ⟨[0x8c, 0x80], rfl⟩⟩
  | ct a b =>
    refine ⟨fun ⟨o, h⟩ => ?_, fun h => absurd rfl (h a b)⟩
    have : headerOctets MT (.ct a b) = .error .typeError := rfl
    rw [this] at h
    cases h

theorem sentType_ok {d : Dict HVal} : (∃ o, headerOctets MT (sentType d) = .ok o) ↔
    ∀ a b, (d.get XT).or (d.get MT) ≠ some (.ct a b) := by
  rw [type_ok]
  have e : ∀ t, ((d.get XT).or (d.get MT)).getD (.v (.str (py! "m-retrieve-conf"))) = t →
    sentType d = if isStr (some t) (py! "m-send-req") && !(d.has (py! "To") || d.has (py! "Cc") || d.has (py! "Bc")) then
    .v (.str (py! "m-retrieve-conf")) else t := by rintro t rfl; rfl
  cases h : (d.get XT).or (d.get MT) with
  | none =>
    rw [h] at e
    rw [e _ rfl]
    refine ⟨fun _ a b h => (by cases h), fun _ a b => ?_⟩
    simp only [Option.getD_none]
    split <;> (intro h; cases h)
  | some t =>
    rw [h] at e
    rw [e _ rfl]
    simp only [Option.getD_some]
    constructor
    · rintro h1 a b h2
      injection h2 with h2
      subst h2
      rw [if_neg (by simp [isStr])] at h1
      exact h1 a b rfl
    · rintro h1 a b h2
      split at h2
      · cases h2
      · exact h1 a b (by rw [h2])

/-- a value for a header that is not in the way of encoding -/
inductive Settable : Str → HVal → Prop
  | header (n : Str) (v : HVal) (h : Faithful n v) : Settable n v
  | type (media : Str) (h : Sends media) : Settable CT (.ct media [])

theorem set_ok (env : Env) (ord : Dict HVal → Dict HVal) (rnd : Nat) (m : Msg) (ho : ∀ d, (ord d).Perm d) (hk : m.headers.Ok)
    (h : ∃ o m', encode env ord rnd m = .ok o m') (n : Str) (v : HVal)
    (hfv : n ≠ CT → ∃ o, headerOctets n v = .ok o)
    (hct : n = CT → ∃ t, encodeCtHeader (prepareHeaders rnd (m.headers.set n v)) = .ok t) (hn : n ≠ XT ∧ n ≠ XI ∧ n ≠ XV) :
    ∃ o m', encode env ord rnd { m with headers := m.headers.set n v } = .ok o m' := by
  have hk' : ({ m with headers := m.headers.set n v } : Msg).headers.Ok := hk.set n v
  rw [encodable_iff ho hk] at h
  rw [encodable_iff ho hk']
  obtain ⟨h1, h2, h3⟩ := h
  have hget : ∀ k, (m.headers.set n v).get k = if n = k then some v else m.headers.get k := fun k => dict_get_set ..
  have halias : ∀ k, k = XT ∨ k = XI ∨ k = XV → (m.headers.set n v).get k = m.headers.get k := by
    intro k hk
    rw [hget, if_neg]
    rintro rfl
    rcases hk with h | h | h
    · exact hn.1 h
    · exact hn.2.1 h
    · exact hn.2.2 h
  have hor : ∀ x k dflt, (x = XT ∨ x = XI ∨ x = XV) → k ≠ CT →
      (∃ o, headerOctets k (((m.headers.get x).or (m.headers.get k)).getD dflt) = .ok o) →
      ∃ o, headerOctets k ((((m.headers.set n v).get x).or ((m.headers.set n v).get k)).getD dflt) = .ok o := by
    intro x k dflt hx hkc ho
    rw [halias x hx, hget]
    by_cases e : n = k
    · subst e
      rw [if_pos rfl]
      cases hg : m.headers.get x with
      | none => exact hfv hkc
      | some w => rw [hg] at ho; exact ho
    · rw [if_neg e]; exact ho
  refine ⟨fun k w hg hc => ?_, ?_, h3⟩
  · by_cases ka : k = XT ∨ k = XI ∨ k = XV
    · rw [show (prepareHeaders rnd ({ m with headers := m.headers.set n v } : Msg).headers).get k = none from
        prepare_gone hk' rnd ka] at hg
      cases hg
    simp only [not_or] at ka
    have hp := fun k hk => prepare_get rnd m.headers k hk
    rw [show (prepareHeaders rnd ({ m with headers := m.headers.set n v } : Msg).headers).get k = _ from
      prepare_get rnd (m.headers.set n v) k ka] at hg
    by_cases k1 : k = MT
    · subst k1
      rw [if_pos rfl] at hg
      injection hg with hg
      subst hg
      have := h1 MT _ (by rw [hp MT ka, if_pos rfl]) hc
      rw [sentType_ok] at this ⊢
      rw [halias XT (.inl rfl), hget]
      by_cases e : n = MT
      · subst e
        rw [if_pos rfl]
        cases hx : m.headers.get XT with
        | some w => rw [hx] at this; exact this
        | none =>
          have := type_ok.1 (hfv (by decide))
          intro a b h
          injection h with h
          exact this a b h
      · rw [if_neg e]; exact this
    rw [if_neg k1] at hg
    by_cases k2 : k = TI
    · subst k2
      rw [if_pos rfl] at hg
      injection hg with hg
      subst hg
      exact hor XI TI _ (.inr (.inl rfl)) hc (h1 TI _ (by rw [hp TI ka, if_neg k1, if_pos rfl]) hc)
    rw [if_neg k2] at hg
    by_cases k3 : k = MV
    · subst k3
      rw [if_pos rfl] at hg
      injection hg with hg
      subst hg
      exact hor XV MV _ (.inr (.inr rfl)) hc (h1 MV _ (by rw [hp MV ka, if_neg k1, if_neg k2, if_pos rfl]) hc)
    rw [if_neg k3, hget] at hg
    by_cases e : n = k
    · subst e
      rw [if_pos rfl] at hg
      injection hg with hg
      subst hg
      exact hfv hc
    · rw [if_neg e] at hg
      exact h1 k w (by rw [hp k ka, if_neg k1, if_neg k2, if_neg k3]; exact hg) hc
  · have hpc : ∀ d, (prepareHeaders rnd d).get CT = d.get CT := by
      intro d
      rw [prepare_get rnd d CT ⟨by decide, by decide, by decide⟩, if_neg (by decide), if_neg (by decide), if_neg (by decide)]
    by_cases e : n = CT
    · exact hct e
    · obtain ⟨t, ht⟩ := h2
      refine ⟨t, ?_⟩
      rw [← ht]
      apply ct_get
      rw [hpc, hpc]
      show (m.headers.set n v).get CT = _
      rw [hget, if_neg e]

/-- Setting a header (other than the three X-Mms aliases) to one of these values keeps a message encodable. -/
theorem C61_set (env : Env) (ord : Dict HVal → Dict HVal) (rnd : Nat) (m : Msg) (ho : ∀ d, (ord d).Perm d) (hk : m.headers.Ok)
    (h : ∃ o m', encode env ord rnd m = .ok o m') (n : Str) (v : HVal) (hv : Settable n v) (hn : n ≠ XT ∧ n ≠ XI ∧ n ≠ XV) :
    ∃ o m', encode env ord rnd { m with headers := m.headers.set n v } = .ok o m' := by
  refine set_ok env ord rnd m ho hk h n v (fun hc => ?_) (fun e => ?_) hn
  · cases hv with
    | header _ _ hf => obtain ⟨o, h, _⟩ := faithful_ok hf; exact ⟨o, h⟩
    | type media _ => exact absurd rfl hc
  · cases hv with
    | header _ _ hf =>
      obtain ⟨_, _, hd⟩ := faithful_ok hf
      exact absurd e hd.name
    | type media hs =>
      obtain ⟨o, ho, _⟩ := ctHeader_ok (d := prepareHeaders rnd (m.headers.set CT (.ct media []))) (m := media)
        (by rw [prepare_get rnd _ CT ⟨by decide, by decide, by decide⟩, if_neg (by decide), if_neg (by decide),
          if_neg (by decide), dict_get_set, if_pos rfl]) hs
      exact ⟨o, ho⟩

example : Settable CT (.ct (py! "application/vnd.wap.multipart.mixed") []) ∧ CT ≠ XT := ⟨.type _ ⟨⟨by decide, 97, rfl, by decide, by decide⟩, by decide⟩, by decide⟩

/-- Every other header of WAP-209 has a value that keeps encodable messages encodable.  Missing: the eleven of
`C61_never`. -/
theorem C61_partial (n : Str) (hn : n ∈ fieldNames) (hu : n ∉ unsendable) : ∃ v, ∀ (env : Env) (ord : Dict HVal → Dict HVal)
    (rnd : Nat) (m : Msg), (∀ d, (ord d).Perm d) → m.headers.Ok → (∃ o m', encode env ord rnd m = .ok o m') →
      ∃ o m', encode env ord rnd { m with headers := m.headers.set n v } = .ok o m' := by
  have hs : Sendable (py! "a") := ⟨by decide, by decide, 97, rfl, by decide, by decide⟩
  have hq : Unquoted (py! "a") := ⟨by decide, by decide, by decide⟩
  have key : ∃ v, Settable n v := by
    simp only [fieldNames, List.mem_cons, List.not_mem_nil, or_false] at hn
    rcases hn with rfl | rfl | rfl | rfl | rfl | rfl | rfl | rfl | rfl | rfl | rfl | rfl | rfl | rfl | rfl | rfl | rfl |
      rfl | rfl | rfl | rfl | rfl | rfl | rfl
    all_goals first
      | exact absurd (by decide) hu
      | exact ⟨_, .header _ _ (.text .bcc _ hs)⟩
      | exact ⟨_, .header _ _ (.text .cc _ hs)⟩
      | exact ⟨_, .header _ _ (.text .responseText _ hs)⟩
      | exact ⟨_, .header _ _ (.text .subject _ hs)⟩
      | exact ⟨_, .header _ _ (.text .to _ hs)⟩
      | exact ⟨_, .type (py! "text/plain") ⟨⟨by decide, 116, rfl, by decide, by decide⟩, by decide⟩⟩
      | exact ⟨_, .header _ _ (.sender _ hs)⟩
      | exact ⟨_, .header _ _ (.messageId _ hq)⟩
      | exact ⟨_, .header _ _ (.transactionId _ hq)⟩
      | exact ⟨_, .header _ _ (.type (py! "m-send-req") (by decide))⟩
      | exact ⟨_, .header _ _ (.version 1 0 (by decide))⟩
      | exact ⟨_, .header _ _ (.size [1] ⟨by decide, by decide, rfl, by decide⟩)⟩
      | exact ⟨_, .header _ _ (.status (py! "Retrieved") (by decide))⟩
  obtain ⟨v, hv⟩ := key
  refine ⟨v, fun env ord rnd m ho hk h => C61_set env ord rnd m ho hk h n v hv ?_⟩
  have : ∀ x ∈ fieldNames, x ≠ XT ∧ x ≠ XI ∧ x ≠ XV := by decide +kernel
  exact this n hn

example : (fieldNames.filter (fun n => n ∉ unsendable)).length = 13 ∧ encodes sampleEnv id 1234 Msg.new = true := by decide +kernel

end Verif.Props

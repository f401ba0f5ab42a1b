import Verif.Props.ForwardParams
import Verif.Props.RefusedValue
import Verif.Proofs.Trunc
/-!
# C43: messages whose content type has parameters, sent and read
-/
set_option autoImplicit false

namespace Verif.Props
open Verif Verif.Mms
open Verif.Spec.Wsp Verif.Spec.Mms Verif.Spec.MmsEnc

theorem paramLoop_prefix (ps : List Param) (hw : ∀ p ∈ ps, p.WF) (r suf : List Nat) (h : r ++ suf = ps.flatMap Param.enc)
    (fuel : Nat) (d : Dict Val) (s' : It) : paramLoop fuel d ⟨r, 0⟩ ≠ .err .decodeError s' := by
  induction ps generalizing r fuel d with
  | nil =>
    have hr : r = [] := (List.append_eq_nil_iff.1 h).1
    subst hr
    cases fuel with
    | zero => intro h; cases h
    | succ f => simp only [paramLoop, decodeParameter_nil]; intro h; cases h
  | cons p ps ih =>
    cases fuel with
    | zero => intro h; cases h
    | succ f =>
      have hp := decodeParameter_param (hw p (by simp)) (ps.flatMap Param.enc)
      rw [← List.flatMap_cons, ← h] at hp
      rcases Trunc.parameter (w := False) r suf 0 with ⟨e, s1, h1, h2⟩ | ⟨a, r1, j, h1, h2⟩ | ⟨e, r1, j, h1, h2⟩
      · rcases h2 with rfl | ⟨h2, _⟩
        · simp only [paramLoop, h1]; intro h; cases h
        · exact h2.elim
      · rw [hp] at h2
        injection h2 with h2 h3
        injection h3 with h3 h4
        subst h2 h4
        simp only [paramLoop, h1]
        exact ih (fun p hp => hw p (List.mem_cons_of_mem _ hp)) r1 h3.symm f _
      · rw [hp] at h2
        cases h2

/-- the length counts the parameters, so the octets are cut; but they are not refused -/
theorem ctype_cut (m : Media) (ps : List Param) (hm : m.WF) (hp : ∀ p ∈ ps, p.WF) (n : Nat)
    (hn : n ≤ (m.enc ++ ps.flatMap Param.enc).length) (rest : List Nat) (s' : It) :
    decodeContentTypeValue ⟨valueLength n ++ (m.enc ++ ps.flatMap Param.enc) ++ rest, 0⟩ ≠ .err .decodeError s' := by
  intro h
  unfold decodeContentTypeValue at h
  obtain ⟨b, t, hb, hb'⟩ := valueLength_head n
  have h1 := decodeValueLength_ok n ((m.enc ++ ps.flatMap Param.enc) ++ rest)
  rw [← List.append_assoc] at h1
  have h0 : (do let m ← decodeConstrainedMedia; pure (m, []) : D (Str × Dict Val))
      ⟨valueLength n ++ (m.enc ++ ps.flatMap Param.enc) ++ rest, 0⟩ =
      .err .decodeError ⟨valueLength n ++ (m.enc ++ ps.flatMap Param.enc) ++ rest, 0⟩ := by
    rw [hb]
    exact M.bind_err (constrainedMedia_length hb' _)
  rw [orDE_err h0] at h
  unfold decodeContentGeneralForm at h
  rw [M.bind_ok h1] at h
  rcases bind_refused h with h | ⟨_, s1, h2, h⟩
  · have := ((xrangeCheck_safe n _).2 _ _ h).1
    simp at this
  · obtain ⟨rfl, _⟩ := xrangeCheck_state h2
    rcases bind_refused h with h | ⟨bytes, s2, h3, h⟩
    · have := ((nextN_safe n _).2 _ _ h).1
      simp at this
    · obtain ⟨h4, h5⟩ := nextN_count _ _ _ _ h3
      have h5 : bytes ++ s2.rem = (m.enc ++ ps.flatMap Param.enc) ++ rest := h5
      obtain ⟨suf, hs⟩ : bytes <+: m.enc ++ ps.flatMap Param.enc :=
        List.prefix_of_prefix_length_le ⟨_, h5⟩ (List.prefix_append _ _) (by omega)
      have hi : ∃ s3, generalFormInner bytes ⟨bytes, 0⟩ = .err .decodeError s3 := by
        unfold onFresh It.new at h
        split at h
        · cases h
        · rename_i e s3 he
          injection h with h _
          subst h
          exact ⟨s3, he⟩
      obtain ⟨s3, hi⟩ := hi
      have hmt := mediaType_ok hm (ps.flatMap Param.enc)
      rw [← hs] at hmt
      unfold generalFormInner at hi
      rcases Trunc.mediaType (w := False) bytes suf 0 with ⟨e, s4, g1, g2⟩ | ⟨a, r, j, g1, g2⟩ | ⟨e, r, j, g1, g2⟩
      · rw [M.bind_err g1] at hi
        injection hi with hi _
        subst hi
        rcases g2 with g2 | ⟨g2, _⟩
        · cases g2
        · exact g2
      · rw [hmt] at g2
        injection g2 with g2 g3
        injection g3 with g3 g4
        subst g2 g4
        rw [M.bind_ok g1] at hi
        rcases bind_refused hi with hi | ⟨_, _, _, hi⟩
        · exact paramLoop_prefix ps hp r suf g3.symm _ _ _ hi
        · cases hi
      · rw [hmt] at g2
        cases g2

theorem header_ct {x : List Nat} (hn : ∀ s', decodeContentTypeValue ⟨x, 0⟩ ≠ .err .decodeError s') :
    (∃ t d s1, decodeContentTypeValue ⟨x, 0⟩ = .ok (t, d) s1 ∧ decodeHeader ⟨0x84 :: x, 0⟩ = .ok (CT, .ct t d) s1) ∨
    ∃ e s1, decodeHeader ⟨0x84 :: x, 0⟩ = .err e s1 ∧ e ≠ .stopIteration := by
  have hm : decodeMmsHeader ⟨0x84 :: x, 0⟩ = (do
      let v ← wrapFatal (decodeMmsValue .contentTypeValue)
      pure (CT, v) : D (Str × HVal)) ⟨x, 0⟩ := by
    unfold decodeMmsHeader
    rw [M.bind_ok (preview_zero _ _), fromByte_ok (by omega) (by omega), M.bind_ok (M.lift_ok _ _),
      show lookupNum mmsFieldNames (0x84 - 128) = some (CT, .contentTypeValue) from rfl]
    simp only []
    rw [M.bind_ok (next_cons _ _ _)]
  cases hc : decodeContentTypeValue ⟨x, 0⟩ with
  | ok a s1 =>
    obtain ⟨t, d⟩ := a
    refine .inl ⟨t, d, s1, rfl, ?_⟩
    unfold decodeHeader
    apply orDE_ok
    have hv : decodeMmsValue .contentTypeValue ⟨x, 0⟩ = .ok (.ct t d) s1 := by
      show (do let (m, p) ← decodeContentTypeValue; pure (HVal.ct m p) : D HVal) _ = _
      rw [M.bind_ok hc]
      rfl
    rw [hm, M.bind_ok (wrapFatal_ok hv)]
    rfl
  | err e s1 =>
    have he : e ≠ .decodeError := by
      rintro rfl
      exact hn _ hc
    have hv : decodeMmsValue .contentTypeValue ⟨x, 0⟩ = .err e s1 := by
      show (do let (m, p) ← decodeContentTypeValue; pure (HVal.ct m p) : D HVal) _ = _
      exact M.bind_err hc
    by_cases hd : e = .diverge
    · subst hd
      refine .inr ⟨.diverge, s1, ?_, by decide⟩
      unfold decodeHeader
      refine orDE_other (x := .diverge) (s' := s1) ?_ (by decide)
      rw [hm]
      apply M.bind_err
      unfold wrapFatal M.tryCatch
      rw [hv]
      rfl
    · refine .inr ⟨.runtimeError, s1, ?_, by decide⟩
      unfold decodeHeader
      refine orDE_other (x := .runtimeError) (s' := s1) ?_ (by decide)
      rw [hm]
      apply M.bind_err
      unfold wrapFatal M.tryCatch
      rw [hv]
      simp [he, hd, M.throw]

theorem headerLoop_instep (os : List (List Nat × Str × HVal)) (hd : ∀ e ∈ os, DecH e.1 e.2.1 e.2.2) (rest : List Nat)
    (d : Dict HVal) (fuel : Nat) :
    headerLoop (os.length + fuel) d ⟨os.flatMap (fun e => e.1) ++ rest, 0⟩
      = headerLoop fuel (storeAll (os.map (fun e => e.2)) d) ⟨rest, 0⟩ := by
  induction os generalizing d with
  | nil => simp [storeAll]
  | cons e os ih =>
    have he := hd e (List.mem_cons_self ..)
    rw [show (e :: os).length + fuel = (os.length + fuel) + 1 by simp; omega]
    simp only [headerLoop, List.flatMap_cons, List.append_assoc]
    rw [he.dec]
    simp only [if_neg he.name]
    rw [ih (fun x hx => hd x (List.mem_cons_of_mem _ hx))]
    rfl

/-- the octets of the headers: those before the content type are read in step -/
theorem encode_instep {env : Env} {ord : Dict HVal → Dict HVal} (ho : ∀ d, (ord d).Perm d) {rnd : Nat} {m m' : Msg}
    {o : List Nat} {media : Str} {params : Dict Val} (hk : m.headers.Ok)
    (hct : m.headers.get CT = some (.ct media params))
    (hf : ∀ n v, (prepareHeaders rnd m.headers).get n = some v → n ≠ CT → Comes n v)
    (h : encode env ord rnd m = .ok o m') :
    ∃ (os : List (List Nat × Str × HVal)) (c b : List Nat), o = os.flatMap (fun e => e.1) ++ (0x84 :: (c ++ b)) ∧
      (∀ e ∈ os, DecH e.1 e.2.1 e.2.2) ∧ Carries media params c := by
  obtain ⟨hd, b, h1, h2, rfl⟩ := encode_inv h
  obtain ⟨vt, vi, vv, x, y, z, r, t, g1, g2, g3, hx, hy, hz, hr, ht, rfl, rfl⟩ := emh_inv h1
  obtain ⟨c, rfl, hc⟩ := ctHeader_inv (by rw [rest_get' (by decide), prepare_get _ _ _ (by decide), if_neg (by decide),
    if_neg (by decide), if_neg (by decide), hct]) ht
  obtain ⟨x', hx', dx⟩ := hf _ _ g1 (by decide)
  obtain ⟨y', hy', dy⟩ := hf _ _ g2 (by decide)
  obtain ⟨z', hz', dz⟩ := hf _ _ g3 (by decide)
  cases hx.symm.trans hx'
  cases hy.symm.trans hy'
  cases hz.symm.trans hz'
  have hP := prepare_ok hk rnd
  have hord : (ord (restHeaders (prepareHeaders rnd m.headers))).Ok := ((ho _).map Prod.fst).nodup_iff.2 (rest_ok hP)
  have hog := Dict.get_perm (ho (restHeaders (prepareHeaders rnd m.headers))) hord
  obtain ⟨os, e1, e2, e3⟩ := encodeRest_faithful (d := ord (restHeaders (prepareHeaders rnd m.headers))) (by
    rintro ⟨n, v⟩ hmem hn
    have := hord.get hmem
    rw [hog, rest_get hP] at this
    split at this
    · cases this
    · exact hf n v this hn)
  cases hr.symm.trans e1
  refine ⟨(x, MT, vt) :: (y, TI, vi) :: (z, MV, vv) :: os, c, b, ?_, ?_, hc⟩
  · simp [List.flatMap_cons, List.append_assoc]
  · intro e he
    simp only [List.mem_cons] at he
    rcases he with rfl | rfl | rfl | he
    · exact dx
    · exact dy
    · exact dz
    · exact e3 e he

theorem params_enc_length (ps : List Param) : ps.length ≤ (ps.flatMap Param.enc).length := by
  induction ps with
  | nil => simp
  | cons p ps ih =>
    have : 1 ≤ p.enc.length := by cases p <;> simp [Param.enc] <;> omega
    simp only [List.flatMap_cons, List.length_append, List.length_cons]
    omega

/-- C43 for messages: a message with faithful headers whose content type has parameters is encoded so that, if the octets
can be decoded at all, the content type that is read has at most half of the parameters.  (What follows the content type is
then read from the wrong octet on.) -/
theorem C43_lost (env : Env) (ord : Dict HVal → Dict HVal) (rnd : Nat) (m m' m2 : Msg) (md : Media) (ps : List Param)
    (o : List Nat) (ho : ∀ d, (ord d).Perm d) (hk : m.headers.Ok) (hset : Settled m.headers)
    (hct : m.headers.get CT = some (.ct md.value (ps.map fun p => (p.key, p.value)))) (hm : SentMedia md)
    (hp : ∀ p ∈ ps, SentParam p) (hne : ps ≠ []) (hpk : Dict.Ok (ps.map fun p => (p.key, p.value)))
    (hl : (CType.general md ps).body.length < 2 ^ 63)
    (hf : ∀ n v, m.headers.get n = some v → n ≠ CT → Faithful n v)
    (h : encode env ord rnd m = .ok o m') (hd : decodeData o = .ok m2) :
    ∃ t d, m2.headers.get CT = some (.ct t d) ∧ 2 * d.length ≤ ps.length ∧
      ¬ ∀ n, d.get n = Dict.get (ps.map fun p => (p.key, p.value)) n := by
  have hP := prepare_settled hk hset rnd
  obtain ⟨os, c, b, rfl, h2, h3⟩ := encode_instep ho hk hct
    (fun n v hg hc => faithful_ok (hf n v (by rw [← hP n]; exact hg) hc)) h
  have hc : c = valueLength (1 + ps.length) ++ (md.enc ++ ps.flatMap Param.enc) := by
    obtain ⟨items, a1, a2⟩ := h3
    obtain ⟨items', a3, a4⟩ := (C43_partial md ps hm hp hne hl).1
    cases a1.symm.trans a3
    cases a2.symm.trans a4
    rfl
  have hlen : 1 + ps.length ≤ (md.enc ++ ps.flatMap Param.enc).length := by
    have h1 : 1 ≤ md.enc.length := by
      cases md with
      | known i s => simp [Media.enc, shortInt]
      | text s => simp [Media.enc]
    have h2 := params_enc_length ps
    rw [List.length_append]
    omega
  have hno : ∀ s', decodeContentTypeValue ⟨c ++ b, 0⟩ ≠ .err .decodeError s' := by
    rw [hc]
    exact ctype_cut md ps (sent_media hm).2.1 (fun p hpm => (sent_wf (hp p hpm)).1) _ hlen b
  obtain ⟨hdrs, parts, s1, s2, h4, _, rfl⟩ := decodeData_inv hd
  have hol := decH_length h2
  unfold decodeMessageHeader It.new at h4
  obtain ⟨f, hfu⟩ : ∃ f, (os.flatMap (fun e => e.1) ++ (0x84 :: (c ++ b))).length + 1 = os.length + (f + 1) := by
    refine ⟨(os.flatMap (fun e => e.1) ++ (0x84 :: (c ++ b))).length - os.length, ?_⟩
    rw [List.length_append]
    omega
  simp only [hfu] at h4
  rw [headerLoop_instep os h2] at h4
  unfold headerLoop at h4
  rcases header_ct hno with ⟨t, d, s3, h5, h6⟩ | ⟨e, s3, h6, h7⟩
  · rw [h6] at h4
    simp only [if_pos (show CT = py! "Content-Type" from rfl)] at h4
    injection h4 with h4 _
    refine ⟨t, d, by rw [← h4, dict_get_set, if_pos rfl], ?_⟩
    have := C43_never _ _ c hpk (by simpa using hne) h3 b t d s3 h5
    simpa using this
  · rw [h6] at h4
    cases e <;> first | exact absurd rfl h7 | cases h4

/-! a message with the parameter Name -/

def namedMsg : Msg := { Msg.new with
  headers := [(MT, .v (.str (py! "m-retrieve-conf"))), (TI, .v (.str (py! "t1"))), (MV, .v (.str (py! "1.0"))),
    (CT, .ct (py! "application/vnd.wap.multipart.related") [(py! "Name", .str [])])] }

example : ∃ o m' m2, encode sampleEnv id 1 namedMsg = .ok o m' ∧ decodeData o = .ok m2 ∧
    m2.headers.get CT = some (.ct (py! "application/vnd.wap.multipart.related") []) ∧ m2.dataParts = [] := by
  have h : (match encode sampleEnv id 1 namedMsg with
    | .ok o _ => match decodeData o with
      | .ok m2 => decide (m2.headers.get CT = some (.ct (py! "application/vnd.wap.multipart.related") [])) && m2.dataParts.isEmpty
      | .error _ => false
    | .err _ _ => false) = true := by decide +kernel
  split at h
  · rename_i o m' ho
    split at h
    · rename_i m2 hm
      rw [Bool.and_eq_true] at h
      exact ⟨o, m', m2, ho, hm, of_decide_eq_true h.1, List.isEmpty_iff.1 h.2⟩
    · cases h
  · cases h

/-- the other hypotheses of `C43_lost` hold for it -/
example (o : List Nat) (m' m2 : Msg) (h : encode sampleEnv id 1 namedMsg = .ok o m') (hd : decodeData o = .ok m2) :
    ∃ t d, m2.headers.get CT = some (.ct t d) ∧ 2 * d.length ≤ 1 ∧ ¬ ∀ n, d.get n = Dict.get [(py! "Name", .str [])] n := by
  refine C43_lost sampleEnv id 1 namedMsg m' m2 (.known 0x33 (py! "application/vnd.wap.multipart.related")) [.name []] o
    (fun d => List.Perm.refl d) (by unfold Dict.Ok; decide)
    ⟨⟨_, rfl⟩, ⟨_, rfl⟩, ⟨_, rfl⟩, ⟨rfl, rfl, rfl⟩, fun h => ?_⟩ rfl ⟨by decide, by decide +kernel⟩ ?_ (by decide)
    (by unfold Dict.Ok; decide) (by decide) ?_ h hd
  · have h : namedMsg.headers.get MT = some (.v (.str (py! "m-send-req"))) ∨
      namedMsg.headers.get MT = some (.v (.uni (py! "m-send-req"))) := h
    exact absurd h (by decide)
  · intro p hp
    rw [List.mem_singleton.1 hp]
    exact ⟨by decide, by decide, fun c hc => by cases hc⟩
  · intro n v hg hn
    have hm := Dict.mem_of_get hg
    simp only [namedMsg, List.mem_cons, List.not_mem_nil, or_false, Prod.mk.injEq] at hm
    rcases hm with ⟨rfl, rfl⟩ | ⟨rfl, rfl⟩ | ⟨rfl, rfl⟩ | ⟨rfl, rfl⟩
    · exact .type _ (by decide)
    · exact .transactionId _ ⟨by decide, by decide, by decide⟩
    · have := Faithful.version 1 0 (by decide)
      have e : dotted 1 0 = py! "1.0" := by decide +kernel
      rwa [e] at this
    · exact absurd rfl hn

end Verif.Props

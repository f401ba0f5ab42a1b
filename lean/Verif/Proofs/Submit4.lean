import Verif.Proofs.Submit3
import Verif.Props.Gsm
/-!
# `to_pdu`: summary lemmas, histories, repetition
-/
set_option autoImplicit false

namespace Verif.Submit
open Verif Verif.Spec Verif.Spec.Sms Verif.Spec.Gsm Verif.Spec.Submit Verif.Spec.Time

theorem gsmText_iff (t : PyStr) : Gsm.isGsmText t = true ↔ GsmText t := by
  rw [Props.C02_is_gsm_text]
  unfold GsmText
  cases t.uni <;> simp

theorem gsmText_encode {t : PyStr} (h : GsmText t) : ∃ g, Gsm.encode t = .ok g := by
  obtain ⟨g, hg⟩ := Gsm.spells_exists h.1
  exact ⟨g, encode_iff.2 ⟨hg, h.2⟩⟩

theorem forall₂_mem {α β : Type} {R : α → β → Prop} {l : List α} {m : List β} (h : List.Forall₂ R l m) :
    ∀ x ∈ l, ∃ y ∈ m, R x y := by
  induction h with
  | nil => simp
  | cons h _ ih =>
    intro x hx
    rcases List.mem_cons.1 hx with rfl | hx
    · exact ⟨_, by simp, h⟩
    · obtain ⟨y, hy, hr⟩ := ih x hx
      exact ⟨y, by simp [hy], hr⟩

theorem gsmCut_division {t g : List Nat} {ts : List Str} (hg : Spells t g) (h : GsmCut t g ts) :
    Division .gsm t ts := by
  obtain ⟨h1, h2⟩ := h
  refine ⟨h1, g, hg, ?_⟩
  rcases h2 with h2 | ⟨h2, parts, hp, hf⟩
  · exact .inl h2
  · right
    have hl := hf.length_eq
    obtain ⟨c1, c2⟩ := chunks_count_le (by omega) hp
    have h22 := chunks_two (by omega) hp (by omega)
    have hne : parts ≠ [] := by intro h0; rw [h0] at h22; simp at h22
    refine ⟨h2, by omega, ?_, by rw [hl]; exact c1, by rw [hl]; exact c2 hne, ?_⟩
    · intro u hu
      obtain ⟨p, hp1, hp2⟩ := forall₂_mem hf u hu
      obtain ⟨b1, b2⟩ := chunks_bound (by omega) hp p hp1
      refine ⟨?_, p, hp2, b1, b2⟩
      rintro rfl
      exact b1 (spells_nil hp2)
    · intro hesc
      rw [hl]
      exact chunks_count (by decide) hp hesc

theorem ucsCut_division {t : List Nat} {ts : List Str} (h : UcsCut t ts) : Division .ucs2 t ts := by
  refine ⟨ucsCut_flatten h, t, rfl, ?_⟩
  rcases h with h | ⟨h2, hp⟩
  · exact .inl h
  · right
    obtain ⟨c1, c2⟩ := chunks_count_le (by omega) hp
    have h22 := chunks_two (by omega) hp (by omega)
    have hne : ts ≠ [] := by intro h0; rw [h0] at h22; simp at h22
    refine ⟨h2, by omega, ?_, c1, c2 hne, ?_⟩
    · intro u hu
      obtain ⟨b1, b2⟩ := chunks_bound (by omega) hp u hu
      exact ⟨b1, u, rfl, b1, b2⟩
    · intro hesc
      exact chunks_count (by decide) hp hesc

theorem division_singleton {t : List Nat} (al : Alphabet) (h : t.length ≤ single al) (ha : al ≠ .gsm) :
    Division al t [t] := by
  refine ⟨by simp, t, ?_, .inl ⟨h, rfl⟩⟩
  cases al with
  | gsm => exact absurd rfl ha
  | bin => rfl
  | ucs2 => rfl

/-- what the object looks like after `to_pdu` -/
structure After (s s' : State) : Prop where
  number : s'.number = s.number
  csca : s'.csca = s.csca
  klass : s'.klass = s.klass
  validity : s'.validity = s.validity
  requestStatus : s'.requestStatus = s.requestStatus
  randId : s'.randId = s.randId
  pid : s'.pid = s.pid
  text : s'.text = s.text
  ref : s'.ref = some (mrOf s : Int)
  fmt : s'.fmt = some (effFmt s)

theorem effFmt_afterRef (s : State) : effFmt (afterRef s) = effFmt s := by
  obtain ⟨e1, _, _, e4, _⟩ := afterRef_fields s
  unfold effFmt; rw [e1, e4]

theorem after_withDcs (s : State) : After s (withDcs (afterRef s)) := by
  obtain ⟨e1, e2, e3, e4, e5, e6, e7, e8, e9⟩ := afterRef_fields s
  have er : (afterRef s).ref = some (mrOf s : Int) := by unfold afterRef; split <;> rfl
  exact ⟨e6, e5, e3, e2, e7, e9, e8, e1, er, congrArg some (effFmt_afterRef s)⟩

theorem After.afterBody {s s' : State} (h : After s s') (b : Bool) : After s (afterBody s' b) := by
  unfold Submit.afterBody
  split
  · unfold afterSplit
    split
    · exact ⟨h.1, h.2, h.3, h.4, h.5, h.6, h.7, h.8, h.9, h.10⟩
    · exact h
  · exact h

/-- the three codings together -/
theorem toPdu_uses {s : State} {al : Alphabet} (hr : Ready s) (hu : Uses s al) :
    ∃ ts s', Division al s.text.s ts ∧ After s s' ∧
      (ts.length ≤ 255 → ∃ ps, toPdu s = .ok ps s' ∧ AllConform s al (mrOf s) (crOf (afterRef s)) ts ps) ∧
      (255 < ts.length → toPdu s = .err .valueError s') := by
  cases al with
  | gsm =>
    obtain ⟨hf, ht⟩ := hu
    have he : effFmt s = 0 := by
      unfold effFmt
      rcases hf with h | h
      · rw [h]
      · rw [h]; simp only; rw [if_pos ((gsmText_iff _).2 ht)]
    obtain ⟨g, hg⟩ := gsmText_encode ht
    obtain ⟨ts, h1, h2, h3⟩ := toPdu_gsm hr he hg
    refine ⟨ts, _, gsmCut_division (encode_iff.1 hg).1 h1, After.afterBody ?_ _, h2, h3⟩
    have := after_withDcs s
    exact ⟨this.1, this.2, this.3, this.4, this.5, this.6, this.7, this.8, this.9, this.10⟩
  | ucs2 =>
    obtain ⟨hf, hc, hu⟩ := hu
    have he : effFmt s = 8 := by
      unfold effFmt
      rcases hf with h | ⟨h, ht⟩
      · rw [h]
      · rw [h]; simp only; rw [if_neg (fun h => ht ((gsmText_iff _).1 h))]
    obtain ⟨ts, h1, h2, h3⟩ := toPdu_ucs2 hr he hc hu
    exact ⟨ts, _, ucsCut_division h1, (after_withDcs s).afterBody _, h2, h3⟩
  | bin =>
    obtain ⟨hf, hc, hl, hu⟩ := hu
    have he : effFmt s = 4 := by unfold effFmt; rw [hf]
    obtain ⟨ps, h1, h2⟩ := toPdu_bin hr he hc hl hu
    exact ⟨[s.text.s], _, division_singleton .bin hl (by decide), after_withDcs s, fun _ => ⟨ps, h1, h2⟩, by simp⟩

/-! ## Failures -/

/-- all parts pack or raise ValueError, and one raises -/
theorem packParts_err_any {c : Coding} {uni : Bool} {ref total : Nat} : ∀ (msgs : List Str) (k : Nat),
    (∀ i m, m ∈ msgs → (∃ b, packPart c uni ref total i m = .ok b) ∨ packPart c uni ref total i m = .error .valueError) →
    (∃ m ∈ msgs, ∀ i, packPart c uni ref total i m = .error .valueError) →
    packParts c uni ref total k msgs = .error .valueError
  | [], _, _, h => by simp at h
  | m :: ms, k, h1, h2 => by
    simp only [packParts, bind, Except.bind]
    rcases h1 (k + 1) m (by simp) with ⟨b, hb⟩ | hb
    · rw [hb]
      have : ∃ m ∈ ms, ∀ i, packPart c uni ref total i m = .error .valueError := by
        obtain ⟨m', hm, he⟩ := h2
        rcases List.mem_cons.1 hm with rfl | hm
        · rw [he] at hb; cases hb
        · exact ⟨m', hm, he⟩
      simp only [packParts_err_any ms (k + 1) (fun i m hm => h1 i m (by simp [hm])) this]
    · rw [hb]

/-- packing a UCS2 part of a unicode text either works or raises ValueError; it raises for characters above U+FFFF -/
theorem packPart_ucs2_cases {ref total i : Nat} {m : Str} :
    ((∃ b, packPart .ucs2 true ref total i m = .ok b) ∨ packPart .ucs2 true ref total i m = .error .valueError) ∧
    ((∃ c ∈ m, 65536 ≤ c) → packPart .ucs2 true ref total i m = .error .valueError) := by
  have hb : ∀ l, (∃ b, ucs2Bytes l = .ok b) ∨ ucs2Bytes l = .error .valueError := by
    intro l
    by_cases hl : ∀ c ∈ l, c < 65536
    · exact .inl ⟨_, ucs2Bytes_ok hl⟩
    · right; apply ucs2Bytes_err
      simp only [not_forall, not_lt] at hl
      obtain ⟨c, hc, h⟩ := hl
      exact ⟨c, hc, h⟩
  have hu : (∃ u, udh16 ref total i = .ok u) ∨ udh16 ref total i = .error .valueError := by
    unfold udh16 pyUnichr
    simp only [bind, Except.bind]
    rw [if_pos (by decide)]
    by_cases h1 : 3 <<< 8 ||| ref < 1114112
    · by_cases h2 : total <<< 8 ||| i < 1114112
      · left; exact ⟨_, by simp only [h1, h2, if_true]; rfl⟩
      · right; simp only [h1, h2, if_true, if_false]
    · right; simp only [h1, if_false]
  rcases hu with ⟨u, hu⟩ | hu
  · have hc : concatUni u ⟨true, m⟩ = .ok (u ++ m) := rfl
    simp only [packPart, hu, packUcs2, hc, bind, Except.bind]
    rcases hb (u ++ m) with ⟨b, hb'⟩ | hb'
    · rw [hb']
      constructor
      · unfold pyChr
        by_cases hl : (u ++ m).length * 2 < 256
        · left; exact ⟨_, by simp only [hl, if_true]; rfl⟩
        · right; simp only [hl, if_false]
      · rintro ⟨c, hc1, hc2⟩
        rw [ucs2Bytes_err ⟨c, by simp [hc1], hc2⟩] at hb'
        cases hb'
    · rw [hb']; simp
  · simp only [packPart, hu, bind, Except.bind]; simp

theorem bodyM_ucs2_big {t : PyStr} (s : State) (hu : t.uni = true) (h : ∃ c ∈ t.s, 65536 ≤ c) :
    ∃ s', bodyM 8 t s = .err .valueError s' := by
  have hbody : bodyM 8 t s = (if t.s.length ≤ UCS2_SIZE then do
        let m ← M.lift (packUcs2 t none)
        pure [m]
      else splitSmsMessage .ucs2 t : M State (List Str)) s := by
    unfold bodyM
    rw [if_neg (by decide), if_neg (by decide), if_pos rfl]
  rw [hbody]
  by_cases hl : t.s.length ≤ 70
  · rw [if_pos (by exact hl)]
    have : packUcs2 t none = .error .valueError := by
      simp only [packUcs2, bind, Except.bind, ucs2Bytes_err h]
    rw [this, M.bind_err (M.lift_error _ _)]
    exact ⟨_, rfl⟩
  · obtain ⟨parts, hp1, hp2⟩ := splitLoop_ok t.s 67 (by omega)
    rw [if_neg (by exact hl), splitSmsMessage_eq .ucs2 t _ hp1, hu]
    obtain ⟨c, hc1, hc2⟩ := h
    rw [← chunks_flatten hp2, List.mem_flatten] at hc1
    obtain ⟨p, hp, hcp⟩ := hc1
    rw [packParts_err_any parts 0 (fun i m _ => packPart_ucs2_cases.1)
      ⟨p, hp, fun i => packPart_ucs2_cases.2 ⟨c, hcp, hc2⟩⟩, M.lift_error]
    exact ⟨_, rfl⟩

/-- characters above U+FFFF are refused -/
theorem toPdu_ucs2_big {s : State} (hr : Ready s) (hf : effFmt s = 8) (hu : s.text.uni = true)
    (h : ∃ c ∈ s.text.s, 65536 ≤ c) : ∃ s', toPdu s = .err .valueError s' := by
  obtain ⟨s', hs⟩ := bodyM_ucs2_big (withDcs (afterRef s)) hu h
  exact ⟨s', toPdu_err hr (.inr (.inr hf)) (by rw [hf]; exact hs)⟩

/-! ## 8-bit data in several parts: the header is announced but not sent -/

theorem packPart_bin {ref total i : Nat} {m : Str} (hr : ref < 256) (ht : (total <<< 8) ||| i < 1114112)
    (hm : ∀ x ∈ m, x < 128) (hl : m.length ≤ 134) :
    packPart .bin8 false ref total i m = .ok (encodeStr ((m.length + 3) :: m)) := by
  have h2 : udh16 ref total i = .ok [0x500, 0x300 + ref, (total <<< 8) ||| i] := by
    unfold udh16
    rw [or_shift8 hr]
    simp only [pyUnichr, bind, Except.bind]
    rw [if_pos (by decide), if_pos (by omega), if_pos ht]
    simp
  have hcat : concatUni [0x500, 0x300 + ref, (total <<< 8) ||| i] ⟨false, m⟩ =
      .ok ([0x500, 0x300 + ref, (total <<< 8) ||| i] ++ m) := by
    unfold concatUni
    rw [if_neg]
    simp only [Bool.and_eq_true, List.any_eq_true, decide_eq_true_eq, not_and, not_exists]
    intro _ x hx; have := hm x hx; omega
  simp only [packPart, h2, pack8, hcat, bind, Except.bind, pyChr]
  have hlen : ([0x500, 0x300 + ref, (total <<< 8) ||| i] ++ m).length = m.length + 3 := by
    simp only [List.length_append, List.length_cons, List.length_nil]; omega
  rw [hlen, if_pos (by omega)]
  rfl

/-- what the bodies are for 8-bit data in several parts -/
theorem bodyM_bin_multi {t : PyStr} (s : State) (hu : t.uni = false) (ht : ∀ x ∈ t.s, x < 128)
    (hl : 140 < t.s.length) :
    ∃ parts, Chunks 134 t.s parts ∧ ((∀ i < parts.length, (parts.length <<< 8) ||| (i + 1) < 1114112) → bodyM 4 t s =
      .ok ((parts.map fun m => (m.length + 3) :: m).map encodeStr) (afterSplit s)) := by
  obtain ⟨parts, hp1, hp2⟩ := splitLoop_ok t.s 134 (by omega)
  refine ⟨parts, hp2, fun hn => ?_⟩
  unfold bodyM
  rw [if_neg (by decide), if_pos rfl, if_neg (by exact Nat.not_le.2 hl), splitSmsMessage_eq .bin8 t _ hp1, hu]
  obtain ⟨bodies, hb1, hb2, hb3⟩ := packParts_ok (c := .bin8) (uni := false) (ref := crOf s)
    (total := parts.length) (P := fun _ m b => b = (m.length + 3) :: m) parts 0 (by
      intro i hi
      have hm := chunks_bound (by omega) hp2 parts[i] (List.getElem_mem _)
      have hor := hn i hi
      rw [← Nat.zero_add i] at hor
      refine ⟨_, packPart_bin (crOf_lt s) hor (fun x hx => ht x ?_) hm.2, rfl⟩
      rw [← chunks_flatten hp2]
      exact List.mem_flatten_of_mem (List.getElem_mem hi) hx)
  have : bodies = parts.map fun m => (m.length + 3) :: m := by
    apply List.ext_getElem
    · simp [hb2]
    · intro i h1 h2
      rw [hb3 i (by omega) h1, List.getElem_map]
  rw [hb1, M.lift_ok, this]

/-! ## Ids over a history -/

/-- the object has generated `c` ids so far -/
def Drawn (s : State) (c : Nat) : Prop :=
  (s.idList = [] ∧ c % 255 = 0) ∨ s.idList = (List.range 255).drop (c % 255)

theorem nextId_drawn {s : State} {c : Nat} (h : Drawn s c) :
    (nextId s.idList).1 = c % 255 ∧ ∀ s' : State, s'.idList = (nextId s.idList).2 → Drawn s' (c + 1) := by
  have hc : c % 255 < 255 := Nat.mod_lt _ (by decide)
  have hcons : (List.range 255).drop (c % 255) = (c % 255) :: (List.range 255).drop (c % 255 + 1) := by
    rw [List.drop_eq_getElem_cons (by simpa using hc)]
    simp
  have hnext : nextId s.idList = (c % 255, (List.range 255).drop (c % 255 + 1)) := by
    rcases h with ⟨h1, h2⟩ | h
    · rw [h1, h2]; decide +kernel
    · rw [h, hcons]; rfl
  refine ⟨by rw [hnext], fun s' hs => ?_⟩
  rw [hnext] at hs
  simp only at hs
  by_cases h254 : c % 255 = 254
  · left
    refine ⟨?_, by omega⟩
    rw [hs, h254]; decide +kernel
  · right
    rw [hs]
    congr 1; omega

/-- final state of a call, whether it raised or not -/
def _root_.Verif.Res.state {σ α : Type} : Res σ α → σ
  | .ok _ s => s
  | .err _ s => s

/-- `m` draws at most `n` ids -/
def DrawsAtMost {α : Type} (m : M State α) (n : Nat) : Prop :=
  ∀ s c, Drawn s c → ∃ j, j ≤ n ∧ Drawn (m s).state (c + j)

theorem DrawsAtMost.bind {α β : Type} {m : M State α} {f : α → M State β} {a b : Nat} (hm : DrawsAtMost m a)
    (hf : ∀ x, DrawsAtMost (f x) b) : DrawsAtMost (m >>= f) (a + b) := by
  intro s c h
  obtain ⟨j, hj, hd⟩ := hm s c h
  rw [M.bind_apply]
  cases hms : m s with
  | ok x s' =>
    rw [hms] at hd
    obtain ⟨k, hk, hd'⟩ := hf x s' (c + j) hd
    exact ⟨j + k, by omega, by rw [← Nat.add_assoc]; exact hd'⟩
  | err e s' =>
    rw [hms] at hd
    exact ⟨j, by omega, hd⟩

theorem DrawsAtMost.of_keep {α : Type} {m : M State α} (h : ∀ s, (m s).state.idList = s.idList) : DrawsAtMost m 0 := by
  intro s c hd
  refine ⟨0, le_refl _, ?_⟩
  unfold Drawn at hd ⊢
  rw [h s]
  exact hd

theorem draws_lift {α : Type} (x : Py α) : DrawsAtMost (M.lift x : M State α) 0 :=
  .of_keep fun s => by cases x <;> rfl

theorem draws_pure {α : Type} (x : α) : DrawsAtMost (pure x : M State α) 0 := .of_keep fun _ => rfl

theorem draws_randId : DrawsAtMost getRandId 1 := by
  intro s c h
  rw [getRandId_eq]
  exact ⟨1, le_refl _, (nextId_drawn h).2 _ rfl⟩

theorem draws_tpmessref : DrawsAtMost getTpmessrefPdu 1 := by
  intro s c h
  rw [getTpmessrefPdu_eq]
  simp only [Res.state]
  unfold afterRef
  split
  · exact ⟨1, le_refl _, (nextId_drawn h).2 _ rfl⟩
  · exact ⟨0, by omega, h⟩

theorem draws_split (c : Coding) (t : PyStr) : DrawsAtMost (splitSmsMessage c t) 1 := by
  intro s k h
  obtain ⟨parts, hp, _⟩ := splitLoop_ok t.s c.mpSize (by cases c <;> decide)
  rw [splitSmsMessage_eq c t s hp]
  have : (M.lift (packParts c t.uni (crOf s) parts.length 0 parts) (afterSplit s)).state = afterSplit s := by
    cases packParts c t.uni (crOf s) parts.length 0 parts <;> rfl
  rw [this]
  unfold afterSplit
  split
  · exact ⟨1, le_refl _, (nextId_drawn h).2 _ rfl⟩
  · exact ⟨0, by omega, h⟩

theorem DrawsAtMost.mono {α : Type} {m : M State α} {a b : Nat} (h : DrawsAtMost m a) (hab : a ≤ b) : DrawsAtMost m b := by
  intro s c hd
  obtain ⟨j, hj, h'⟩ := h s c hd
  exact ⟨j, by omega, h'⟩

theorem draws_body (f : Nat) (t : PyStr) : DrawsAtMost (bodyM f t) 1 := by
  have hp : ∀ x : Py Str, DrawsAtMost (M.lift x >>= fun m => (pure [m] : M State (List Str))) 1 := fun x =>
    ((draws_lift x).bind (fun _ => draws_pure _)).mono (by omega)
  unfold bodyM
  split
  · refine DrawsAtMost.mono (a := 0 + (0 + 1)) ?_ (by omega)
    refine (draws_lift _).bind fun g => (DrawsAtMost.of_keep fun _ => rfl).bind fun _ => ?_
    split
    · exact hp _
    · exact draws_split _ _
  · split
    · split
      · exact hp _
      · exact draws_split _ _
    · split
      · split
        · exact hp _
        · exact draws_split _ _
      · exact (DrawsAtMost.of_keep fun _ => rfl).mono (by omega)

theorem draws_msg : DrawsAtMost getMsgPdu 1 := by
  intro s c h
  rw [getMsgPdu_eq]
  have hw : Drawn (withDcs s) c := h
  have : DrawsAtMost ((M.lift (pyChr (dcsOf (effFmt s) s.klass)) : M State Nat) >>= fun d =>
      (M.lift (vpPdu s.validity) : M State Str) >>= fun vp =>
      bodyM (effFmt s) s.text >>= fun msgs => pure (msgs.map (fun m => encodeStr [d] ++ vp ++ m))) (0 + (0 + (1 + 0))) :=
    (draws_lift _).bind fun d => (draws_lift _).bind fun vp => (draws_body _ _).bind fun msgs => draws_pure _
  exact this _ c hw

theorem draws_toPdu : DrawsAtMost toPdu 2 := by
  unfold toPdu
  refine DrawsAtMost.mono (a := 0 + (0 + (0 + (1 + (0 + (0 + (1 + 0))))))) ?_ (by omega)
  refine (DrawsAtMost.of_keep fun _ => rfl).bind fun s => (draws_lift _).bind fun _ => (draws_lift _).bind fun _ =>
    draws_tpmessref.bind fun _ => (draws_lift _).bind fun _ => (draws_lift _).bind fun _ => draws_msg.bind fun msgs => ?_
  have hms : ∀ (pre : Str → Str) (l n : Nat) (ms : List Str), DrawsAtMost
      (M.lift (getSmsSubmitPdu s.validity s.requestStatus true) >>= fun submit =>
        (pure (mkPdus (pre submit) l n 0 ms) : M State (List Pdu))) 0 := fun pre l n ms =>
    (draws_lift _).bind fun _ => draws_pure _
  rcases msgs with _ | ⟨m, _ | ⟨m2, r⟩⟩
  · exact hms (fun x => _ ++ x ++ _ ++ _ ++ _) _ _ _
  · exact draws_pure _
  · exact hms (fun x => _ ++ x ++ _ ++ _ ++ _) _ _ _

end Verif.Submit

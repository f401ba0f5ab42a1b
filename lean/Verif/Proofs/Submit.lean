import Verif.Proofs.Number
import Verif.Proofs.Split
import Verif.Proofs.Pack
import Verif.Proofs.Validity
/-!
# Lemmas about building SUBMIT PDUs
-/
set_option autoImplicit false

namespace Verif.Submit
open Verif Verif.Spec Verif.Spec.Sms Verif.Spec.Gsm

/-! ## Ids -/

/-- the next id and the remaining ids -/
def nextId (l : List Nat) : Nat × List Nat :=
  match l with
  | [] => (0, (List.range 255).tail)
  | x :: xs => (x, xs)

theorem range255 : List.range 255 = 0 :: (List.range 255).tail := by decide +kernel

theorem getRandId_eq (s : State) :
    getRandId s = .ok (nextId s.idList).1 { s with idList := (nextId s.idList).2 } := by
  unfold getRandId nextId
  cases h : s.idList with
  | nil => rfl
  | cons x xs => simp

/-- message reference octet -/
def mrOf (s : State) : Nat :=
  match s.ref with
  | none => (((nextId s.idList).1 : Int) % 256).toNat
  | some r => (r % 256).toNat

theorem mrOf_lt (s : State) : mrOf s < 256 := by
  unfold mrOf; split <;> omega

/-- the object after the message reference has been chosen -/
def afterRef (s : State) : State :=
  match s.ref with
  | none => { s with idList := (nextId s.idList).2, ref := some (mrOf s) }
  | some _ => { s with ref := some (mrOf s) }

theorem getTpmessrefPdu_eq (s : State) : getTpmessrefPdu s = .ok (encodeStr [mrOf s]) (afterRef s) := by
  unfold getTpmessrefPdu
  have hm := mrOf_lt s
  rw [M.bind_ok (M.get_apply s)]
  cases h : s.ref with
  | none =>
    simp only []
    rw [M.bind_ok (getRandId_eq s), M.bind_ok (M.pure_apply _ _), M.bind_ok (M.modify_apply _ _)]
    have e1 : (((nextId s.idList).1 : Int) % 256) = (mrOf s : Int) := by simp only [mrOf, h]; omega
    simp only [e1, Int.toNat_natCast, pyChr, hm, if_true]
    simp [afterRef, h, M.bind_apply]
  | some r =>
    simp only []
    rw [M.bind_ok (M.pure_apply _ _), M.bind_ok (M.modify_apply _ _)]
    have e1 : r % 256 = (mrOf s : Int) := by simp only [mrOf, h]; omega
    simp only [e1, Int.toNat_natCast, pyChr, hm, if_true]
    simp [afterRef, h, M.bind_apply]

/-- concatenation reference -/
def crOf (s : State) : Nat :=
  match s.randId with
  | none => (((nextId s.idList).1 : Int) % 256).toNat
  | some r => (r % 256).toNat

theorem crOf_lt (s : State) : crOf s < 256 := by
  unfold crOf; split <;> omega

/-- the object after the concatenation reference has been chosen -/
def afterSplit (s : State) : State :=
  match s.randId with
  | none => { s with idList := (nextId s.idList).2 }
  | some _ => s

theorem splitSmsMessage_eq (c : Coding) (text : PyStr) (s : State) {parts : List Str}
    (h : splitLoop text.s text.s.length c.mpSize (text.s.length + 1) 0 c.mpSize = .ok parts) :
    splitSmsMessage c text s = M.lift (packParts c text.uni (crOf s) parts.length 0 parts) (afterSplit s) := by
  unfold splitSmsMessage
  simp only [h]
  rw [M.bind_ok (M.lift_ok _ _), M.bind_ok (M.get_apply s)]
  cases hr : s.randId with
  | none =>
    simp only []
    rw [M.bind_ok (getRandId_eq s), M.bind_ok (M.pure_apply _ _)]
    simp [crOf, afterSplit, hr]
  | some r =>
    simp only []
    rw [M.bind_ok (M.pure_apply _ _)]
    simp [crOf, afterSplit, hr]

/-! ## Packing parts -/

theorem packParts_ok {c : Coding} {uni : Bool} {ref total : Nat} {P : Nat → Str → List Nat → Prop} :
    ∀ (msgs : List Str) (k : Nat),
    (∀ i (h : i < msgs.length), ∃ b, packPart c uni ref total (k + i + 1) msgs[i] = .ok (encodeStr b) ∧
      P (k + i + 1) msgs[i] b) →
    ∃ bodies : List (List Nat), packParts c uni ref total k msgs = .ok (bodies.map encodeStr) ∧
      bodies.length = msgs.length ∧
      ∀ i (h : i < msgs.length) (h' : i < bodies.length), P (k + i + 1) msgs[i] bodies[i] := by
  intro msgs
  induction msgs with
  | nil => intro k _; exact ⟨[], rfl, rfl, by simp⟩
  | cons m ms ih =>
    intro k h
    obtain ⟨b, hb1, hb2⟩ := h 0 (by simp)
    obtain ⟨bs, h1, h2, h3⟩ := ih (k + 1) (by
      intro i hi
      obtain ⟨b, hb⟩ := h (i + 1) (by simpa using hi)
      refine ⟨b, ?_⟩
      have e : k + 1 + i + 1 = k + (i + 1) + 1 := by omega
      rw [e]; simpa using hb)
    refine ⟨b :: bs, ?_, by simp [h2], ?_⟩
    · simp only [List.getElem_cons_zero, Nat.add_zero] at hb1
      simp only [packParts, hb1, h1, bind, Except.bind, List.map_cons]
    · intro i hi hi'
      cases i with
      | zero => simpa using hb2
      | succ i =>
        have := h3 i (by simpa using hi) (by simpa using hi')
        have e : k + 1 + i + 1 = k + (i + 1) + 1 := by omega
        rw [e] at this
        simpa using this

theorem udh7_ok {ref total i : Nat} (h1 : ref < 256) (h2 : total < 256) (h3 : i < 256) :
    udh7 ref total i = .ok (concatUdh ref total i) := by
  simp [udh7, pyChr, h1, h2, h3, concatUdh, bind, Except.bind]

theorem packPart_gsm {uni : Bool} {ref total i : Nat} {g : Str} (h1 : ref < 256) (h2 : total < 256) (h3 : i < 256)
    (hg : ∀ x ∈ g, x < 128) (hl : g.length ≤ 153) :
    ∃ ud, packPart .gsm7 uni ref total i g = .ok (encodeStr ((g.length + 7) :: ud)) ∧
      PackedWithHeader (concatUdh ref total i) g ud := by
  have hu : ∀ x ∈ concatUdh ref total i, x < 256 := by
    intro x hx
    simp only [concatUdh, List.mem_cons, List.not_mem_nil, or_false] at hx
    rcases hx with rfl | rfl | rfl | rfl | rfl | rfl <;> omega
  obtain ⟨o, ho1, ho2⟩ := pack7_udh hg hu rfl (by omega)
  refine ⟨o, ?_, ho1⟩
  simp only [packPart, udh7_ok h1 h2 h3, bind, Except.bind, ho2]

theorem ucs2Bytes_ok : ∀ {t : Str}, (∀ c ∈ t, c < 65536) → ucs2Bytes t = .ok (ucs2Octets t)
  | [], _ => rfl
  | c :: t, h => by
    have hc := h c (by simp)
    have e1 : c >>> 8 = c / 256 := Nat.shiftRight_eq_div_pow c 8
    have e2 : c &&& 255 = c % 256 := Nat.and_two_pow_sub_one_eq_mod c 8
    have ih := ucs2Bytes_ok (t := t) (fun c' h' => h c' (by simp [h']))
    simp only [ucs2Bytes, e1, e2, pyChr, ih, bind, Except.bind]
    rw [if_pos (by omega), if_pos (by omega)]
    simp [ucs2Octets]

theorem ucs2Bytes_err : ∀ {t : Str}, (∃ c ∈ t, 65536 ≤ c) → ucs2Bytes t = .error .valueError
  | [], h => by simp at h
  | c :: t, h => by
    have e1 : c >>> 8 = c / 256 := Nat.shiftRight_eq_div_pow c 8
    have e2 : c &&& 255 = c % 256 := Nat.and_two_pow_sub_one_eq_mod c 8
    simp only [ucs2Bytes, e1, e2, pyChr, bind, Except.bind]
    by_cases hc : c < 65536
    · rw [if_pos (by omega), if_pos (by omega)]
      have : ∃ c ∈ t, 65536 ≤ c := by
        obtain ⟨c', h1, h2⟩ := h
        rcases List.mem_cons.1 h1 with rfl | h1
        · omega
        · exact ⟨c', h1, h2⟩
      simp only [ucs2Bytes_err this]
    · rw [if_neg (by omega)]

theorem ucs2Octets_length (t : List Nat) : (ucs2Octets t).length = 2 * t.length := by
  induction t with
  | nil => rfl
  | cons c t ih => simp only [ucs2Octets, List.flatMap_cons] at ih ⊢; simp [ih]; omega

theorem ucs2Octets_lt {t : List Nat} (h : ∀ c ∈ t, c < 65536) : ∀ x ∈ ucs2Octets t, x < 256 := by
  intro x hx
  simp only [ucs2Octets, List.mem_flatMap] at hx
  obtain ⟨c, hc, hx⟩ := hx
  have := h c hc
  simp only [List.mem_cons, List.not_mem_nil, or_false] at hx
  rcases hx with rfl | rfl <;> omega

theorem or_shift8 {a b : Nat} (h : b < 256) : (a <<< 8) ||| b = a * 256 + b := by
  rw [Nat.shiftLeft_eq]
  have := Nat.two_pow_add_eq_or_of_lt (i := 8) (b := b) (by simpa using h) a
  rw [Nat.mul_comm] 
  exact this.symm

theorem udh16_ok {ref total i : Nat} (h1 : ref < 256) (h2 : total < 256) (h3 : i < 256) :
    udh16 ref total i = .ok [0x500, 0x300 + ref, total * 256 + i] := by
  unfold udh16
  rw [or_shift8 h1, or_shift8 h3]
  simp only [pyUnichr, bind, Except.bind]
  rw [if_pos (by decide), if_pos (by omega), if_pos (by omega)]
  simp

theorem packUcs2_ok {t : PyStr} (h : ∀ c ∈ t.s, c < 65536) (hl : t.s.length ≤ 127) :
    packUcs2 t none = .ok (encodeStr ((2 * t.s.length) :: ucs2Octets t.s)) := by
  simp only [packUcs2, bind, Except.bind, ucs2Bytes_ok h, pyChr]
  rw [if_pos (by omega), Nat.mul_comm]

theorem packPart_ucs2 {uni : Bool} {ref total i : Nat} {t : Str} (h1 : ref < 256) (h2 : total < 256) (h3 : i < 256)
    (ht : ∀ x ∈ t, x < 65536) (hu : uni = true ∨ ∀ x ∈ t, x < 128) (hl : t.length ≤ 67) :
    packPart .ucs2 uni ref total i t =
      .ok (encodeStr ((2 * t.length + 6) :: (concatUdh ref total i ++ ucs2Octets t))) := by
  have hcat : concatUni [0x500, 0x300 + ref, total * 256 + i] ⟨uni, t⟩ =
      .ok ([0x500, 0x300 + ref, total * 256 + i] ++ t) := by
    unfold concatUni
    rw [if_neg]
    rcases hu with rfl | hu
    · simp
    · simp only [Bool.and_eq_true, List.any_eq_true, decide_eq_true_eq, not_and, not_exists]
      intro _ x hx; have := hu x hx; omega
  have hb : ucs2Bytes ([0x500, 0x300 + ref, total * 256 + i] ++ t) = .ok (concatUdh ref total i ++ ucs2Octets t) := by
    rw [ucs2Bytes_ok]
    · have e1 : (768 + ref) / 256 = 3 := by omega
      have e2 : (768 + ref) % 256 = ref := by omega
      have e3 : (total * 256 + i) / 256 = total := by omega
      have e4 : (total * 256 + i) % 256 = i := by omega
      simp [ucs2Octets, concatUdh, e1, e2, e3, e4]
    · intro c hc
      rcases List.mem_append.1 hc with hc | hc
      · simp only [List.mem_cons, List.not_mem_nil, or_false] at hc
        rcases hc with rfl | rfl | rfl <;> omega
      · exact ht c hc
  simp only [packPart, udh16_ok h1 h2 h3, packUcs2, hcat, hb, bind, Except.bind, pyChr]
  have hlen : ([0x500, 0x300 + ref, total * 256 + i] ++ t).length * 2 = 2 * t.length + 6 := by
    simp only [List.length_append, List.length_cons, List.length_nil]; omega
  rw [hlen, if_pos (by omega)]

/-! ## The message part -/

/-- object with coding and DCS filled in -/
def withDcs (s : State) : State := { s with fmt := some (effFmt s), dcs := some (dcsOf (effFmt s) s.klass) }

theorem getMsgPdu_eq (s : State) : getMsgPdu s =
    ((M.lift (pyChr (dcsOf (effFmt s) s.klass)) : M State Nat) >>= fun d =>
      (M.lift (vpPdu s.validity) : M State Str) >>= fun vp =>
      bodyM (effFmt s) s.text >>= fun msgs => pure (msgs.map (fun m => encodeStr [d] ++ vp ++ m))) (withDcs s) := by
  unfold getMsgPdu
  rw [M.bind_ok (M.get_apply s), M.bind_ok (M.modify_apply _ _)]
  rfl

theorem dcsOf_lt {f : Nat} (k : Option Nat) (hf : f = 0 ∨ f = 4 ∨ f = 8) : dcsOf f k < 256 := by
  unfold dcsOf
  rcases hf with rfl | rfl | rfl <;> split <;> decide

theorem getMsgPdu_ok {s s' : State} {vp : List Nat} {bodies : List (List Nat)}
    (hf : effFmt s = 0 ∨ effFmt s = 4 ∨ effFmt s = 8)
    (hvp : vpPdu s.validity = .ok (encodeStr vp))
    (hb : bodyM (effFmt s) s.text (withDcs s) = .ok (bodies.map encodeStr) s') :
    getMsgPdu s = .ok (bodies.map fun b => encodeStr (dcsOf (effFmt s) s.klass :: vp ++ b)) s' := by
  rw [getMsgPdu_eq]
  simp only [pyChr, dcsOf_lt s.klass hf, if_true, hvp]
  rw [M.bind_ok (M.lift_ok _ _), M.bind_ok (M.lift_ok _ _), M.bind_ok hb]
  rw [M.pure_apply, List.map_map]
  congr 1
  apply List.map_congr_left
  intro b _
  simp [encodeStr]

theorem getMsgPdu_err {s s' : State} {vp : List Nat} {e : PyErr}
    (hf : effFmt s = 0 ∨ effFmt s = 4 ∨ effFmt s = 8)
    (hvp : vpPdu s.validity = .ok (encodeStr vp))
    (hb : bodyM (effFmt s) s.text (withDcs s) = .err e s') :
    getMsgPdu s = .err e s' := by
  rw [getMsgPdu_eq]
  simp only [pyChr, dcsOf_lt s.klass hf, if_true, hvp]
  rw [M.bind_ok (M.lift_ok _ _), M.bind_ok (M.lift_ok _ _), M.bind_err hb]

/-! ## Framing -/

/-- octets of the TPDU -/
def tpdu (fo mr : Nat) (a : Address) (pid dcs : Nat) (vp body : List Nat) : List Nat :=
  fo :: mr :: (addrBytes a ++ pid :: dcs :: (vp ++ body))

theorem mkPdus_length (pre : Str) (l c : Nat) : ∀ (ms : List Str) (k : Nat), (mkPdus pre l c k ms).length = ms.length
  | [], _ => rfl
  | _ :: ms, k => by simp [mkPdus, mkPdus_length pre l c ms]

theorem mkPdus_get (pre : Str) (l c : Nat) : ∀ (ms : List Str) (k i : Nat) (h : i < ms.length)
    (h' : i < (mkPdus pre l c k ms).length), (mkPdus pre l c k ms)[i] = mkPdu (pre ++ ms[i]) l c (k + i + 1)
  | [], _, _, h, _ => by simp at h
  | m :: ms, k, 0, _, _ => by simp [mkPdus]
  | m :: ms, k, i + 1, h, h' => by
    simp only [mkPdus, List.getElem_cons_succ]
    rw [mkPdus_get pre l c ms (k + 1) i (by simpa using h)]
    congr 1; omega

theorem submitOctet_lt (v : Validity) (a b : Bool) : submitOctet v a b < 256 := by
  unfold submitOctet
  cases v <;> cases a <;> cases b <;> simp

theorem getSmsSubmitPdu_ok (v : Validity) (a b : Bool) :
    getSmsSubmitPdu v a b = .ok (encodeStr [submitOctet v a b]) := by
  simp [getSmsSubmitPdu, pyChr, submitOctet_lt, bind, Except.bind]

theorem getTppidPdu_ok {pid : Nat} (h : pid < 256) : getTppidPdu (pid : Int) = .ok (encodeStr [pid]) := by
  unfold getTppidPdu
  rw [if_neg (by omega)]
  simp [pyChr, h, bind, Except.bind]

/-- the address part of the settings is well formed -/
structure Addressed (s : State) (sm : Option Address) (a : Address) (pid : Nat) : Prop where
  smsc : getSmscPdu s.csca = .ok (encodeStr (smscBytes sm))
  smscLt : ∀ x ∈ smscBytes sm, x < 256
  smscRead : ∀ rest, readSmsc (smscBytes sm ++ rest) = some (sm, rest)
  phone : getPhonePdu s.number = .ok (encodeStr (addrBytes a))
  phoneLt : ∀ x ∈ addrBytes a, x < 256
  phoneRead : ∀ rest, readAddress (addrBytes a ++ rest) = some (a, rest)
  pidEq : s.pid = (pid : Int)
  pidLt : pid < 256

theorem mkPdu_eq {sm t : List Nat} (h1 : ∀ x ∈ sm, x < 256) (h2 : ∀ x ∈ t, x < 256) (cnt seq : Nat) :
    mkPdu (encodeStr (sm ++ t)) ((encodeStr sm).length / 2) cnt seq = ⟨hexUpper (sm ++ t), t.length, cnt, seq⟩ := by
  have h : ∀ x ∈ sm ++ t, x < 256 := by
    intro x hx
    rcases List.mem_append.1 hx with hx | hx
    · exact h1 x hx
    · exact h2 x hx
  unfold mkPdu
  rw [pyUpper_encodeStr h, encodeStr_length h, encodeStr_length h1, List.length_append]
  congr 1; omega

theorem afterRef_fields (s : State) : (afterRef s).text = s.text ∧ (afterRef s).validity = s.validity ∧
    (afterRef s).klass = s.klass ∧ (afterRef s).fmt = s.fmt ∧ (afterRef s).csca = s.csca ∧
    (afterRef s).number = s.number ∧ (afterRef s).requestStatus = s.requestStatus ∧ (afterRef s).pid = s.pid ∧
    (afterRef s).randId = s.randId := by
  unfold afterRef; split <;> simp

theorem toPdu_eq {s : State} {sm : Option Address} {a : Address} {pid : Nat} (h : Addressed s sm a pid) :
    toPdu s = (getMsgPdu >>= fun msgs => match msgs with
      | [m] => pure [mkPdu (encodeStr (smscBytes sm) ++ encodeStr [submitOctet s.validity s.requestStatus false] ++
          encodeStr [mrOf s] ++ encodeStr (addrBytes a) ++ encodeStr [pid] ++ m)
          ((encodeStr (smscBytes sm)).length / 2) 1 1]
      | ms => pure (mkPdus (encodeStr (smscBytes sm) ++ encodeStr [submitOctet s.validity s.requestStatus true] ++
          encodeStr [mrOf s] ++ encodeStr (addrBytes a) ++ encodeStr [pid])
          ((encodeStr (smscBytes sm)).length / 2) ms.length 0 ms)) (afterRef s) := by
  unfold toPdu
  rw [M.bind_ok (M.get_apply s), h.smsc, M.bind_ok (M.lift_ok _ _), getSmsSubmitPdu_ok, M.bind_ok (M.lift_ok _ _),
    M.bind_ok (getTpmessrefPdu_eq s), h.phone, M.bind_ok (M.lift_ok _ _), h.pidEq, getTppidPdu_ok h.pidLt,
    M.bind_ok (M.lift_ok _ _), M.bind_apply, M.bind_apply]
  cases hm : getMsgPdu (afterRef s) with
  | err e s' => rfl
  | ok ms s' =>
    rcases ms with _ | ⟨m, _ | ⟨m2, r⟩⟩
    · simp only [getSmsSubmitPdu_ok, M.bind_ok (M.lift_ok _ _)]
    · rfl
    · simp only [getSmsSubmitPdu_ok, M.bind_ok (M.lift_ok _ _)]

theorem toPdu_ok {s s' : State} {sm : Option Address} {a : Address} {pid : Nat} (h : Addressed s sm a pid)
    {dcs : Nat} {vp : List Nat} {bodies : List (List Nat)}
    (hm : getMsgPdu (afterRef s) = .ok (bodies.map fun b => encodeStr (dcs :: vp ++ b)) s')
    (hd : dcs < 256) (hv : ∀ x ∈ vp, x < 256) (hb : ∀ b ∈ bodies, ∀ x ∈ b, x < 256) :
    ∃ pdus, toPdu s = .ok pdus s' ∧ pdus.length = bodies.length ∧
      ∀ i (h : i < pdus.length) (h' : i < bodies.length), pdus[i] =
        (let t := tpdu (submitOctet s.validity s.requestStatus (decide (bodies.length ≠ 1))) (mrOf s) a pid dcs vp
            bodies[i]
         ⟨hexUpper (smscBytes sm ++ t), t.length, bodies.length, i + 1⟩) := by
  have hmr := mrOf_lt s
  have hcat : ∀ (fo : Nat) (b : List Nat), encodeStr (smscBytes sm) ++ encodeStr [fo] ++ encodeStr [mrOf s] ++
      encodeStr (addrBytes a) ++ encodeStr [pid] ++ encodeStr (dcs :: vp ++ b) =
      encodeStr (smscBytes sm ++ tpdu fo (mrOf s) a pid dcs vp b) := by
    intro fo b
    simp only [← encodeStr_append]
    congr 1
    simp [tpdu]
  have hlt : ∀ (fo : Nat) (b : List Nat), fo < 256 → (∀ x ∈ b, x < 256) →
      ∀ x ∈ tpdu fo (mrOf s) a pid dcs vp b, x < 256 := by
    intro fo b hfo hb x hx
    simp only [tpdu, List.mem_cons, List.mem_append] at hx
    rcases hx with rfl | rfl | hx | rfl | rfl | hx | hx
    · exact hfo
    · exact hmr
    · exact h.phoneLt x hx
    · exact h.pidLt
    · exact hd
    · exact hv x hx
    · exact hb x hx
  rw [toPdu_eq h, M.bind_ok hm]
  by_cases h1 : bodies.length = 1
  · obtain ⟨b, rfl⟩ := List.length_eq_one_iff.1 h1
    refine ⟨_, rfl, rfl, ?_⟩
    intro i hi hi'
    have hi0 : i = 0 := by simp at hi'; exact hi'
    subst hi0
    simp only [List.getElem_cons_zero, List.length_singleton, ne_eq, not_true_eq_false,
      decide_false]
    rw [hcat, mkPdu_eq h.smscLt (hlt _ _ (submitOctet_lt _ _ _) (hb b (by simp)))]
  · have hd1 : decide (bodies.length ≠ 1) = true := by simpa using h1
    refine ⟨mkPdus (encodeStr (smscBytes sm) ++ encodeStr [submitOctet s.validity s.requestStatus true] ++
          encodeStr [mrOf s] ++ encodeStr (addrBytes a) ++ encodeStr [pid])
          ((encodeStr (smscBytes sm)).length / 2) (bodies.map fun b => encodeStr (dcs :: vp ++ b)).length 0
          (bodies.map fun b => encodeStr (dcs :: vp ++ b)), ?_, ?_, ?_⟩
    · rcases bodies with _ | ⟨b, _ | ⟨b2, r⟩⟩
      · rfl
      · exact absurd rfl h1
      · rfl
    · rw [mkPdus_length, List.length_map]
    · intro i hi hi'
      rw [mkPdus_get _ _ _ _ _ _ (by simpa using hi'), List.getElem_map, hcat, hd1,
          mkPdu_eq h.smscLt (hlt _ _ (submitOctet_lt _ _ _) (hb _ (List.getElem_mem _)))]
      simp only [List.length_map, Nat.zero_add]

/-- first octet read back -/
theorem submitOctet_read (v : Validity) (srr udhi : Bool) :
    submitOctet v srr udhi % 4 = 1 ∧ submitOctet v srr udhi / 4 % 2 = 0 ∧
    submitOctet v srr udhi / 8 % 4 = (match v with | .none => 0 | .relative _ => 2 | .absolute _ => 3) ∧
    (submitOctet v srr udhi / 32 % 2 = 1 ↔ srr = true) ∧ (submitOctet v srr udhi / 64 % 2 = 1 ↔ udhi = true) ∧
    submitOctet v srr udhi / 128 % 2 = 0 := by
  unfold submitOctet
  cases v <;> cases srr <;> cases udhi <;> simp

/-- validity period format -/
def vpfOf : Validity → Nat
  | .none => 0
  | .relative _ => 2
  | .absolute _ => 3

theorem readSubmit_tpdu {v : Validity} {srr udhi : Bool} {mr : Nat} {a : Address} {pid dcs udl : Nat} {vp ud : List Nat}
    (hr : ∀ rest, readAddress (addrBytes a ++ rest) = some (a, rest)) (hv : vp.length = vpSize (vpfOf v)) :
    readSubmit (tpdu (submitOctet v srr udhi) mr a pid dcs vp (udl :: ud)) =
      some { mti := 1, rd := false, vpf := vpfOf v, srr := srr, udhi := udhi, rp := false, mr := mr, da := a, pid := pid,
             dcs := dcs, vp := vp, udl := udl, ud := ud } := by
  obtain ⟨h1, h2, h3, h4, h5, h6⟩ := submitOctet_read v srr udhi
  have h3' : submitOctet v srr udhi / 8 % 4 = vpfOf v := by rw [h3]; cases v <;> rfl
  simp only [readSubmit, tpdu, hr, h3', ← hv]
  rw [if_neg (by simp), List.drop_left, List.take_left]
  simp only [h1, h2, h4, h5, h6]
  simp

end Verif.Submit

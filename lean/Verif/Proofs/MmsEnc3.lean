import Verif.Proofs.MmsEnc2
import Mathlib.Data.List.Forall2
/-!
# Lemmas on the MMS encoder: preparation of the headers, parts, whole messages
-/
set_option autoImplicit false

namespace Verif.Mms
open Verif.Spec.Wsp Verif.Spec.Mms Verif.Spec.MmsEnc

/-! ## Preparation of the headers -/


theorem rename_get {d : Dict HVal} {x c n : Str} (hn : n ≠ x) :
    (renameHeader d x c).get n = if n = c then (match d.get x with | some v => some v | none => d.get c) else d.get n := by
  unfold renameHeader
  cases h : d.get x with
  | none =>
    by_cases hc : n = c
    · simp [hc]
    · simp [hc]
  | some v =>
    simp only []
    rw [Dict.get_del_ne (fun e => hn e.symm), dict_get_set]
    by_cases hc : n = c
    · simp [hc]
    · rw [if_neg (fun e => hc e.symm), if_neg hc]

theorem rename_ok {d : Dict HVal} (h : d.Ok) (x c : Str) : (renameHeader d x c).Ok := by
  unfold renameHeader
  split
  · exact (h.set _ _).del _
  · exact h

theorem rename_gone {d : Dict HVal} (h : d.Ok) (x c : Str) : (renameHeader d x c).get x = none := by
  unfold renameHeader
  split
  · exact (h.set _ _).get_del _
  · assumption

/-- the Message-Type sent -/
def sentType (d : Dict HVal) : HVal :=
  let t := ((d.get XT).or (d.get MT)).getD (.v (.str (py! "m-retrieve-conf")))
  if isStr (some t) (py! "m-send-req") && !(d.has (py! "To") || d.has (py! "Cc") || d.has (py! "Bc")) then
    .v (.str (py! "m-retrieve-conf"))
  else t

/-- after the three renames -/
def renamed (d : Dict HVal) : Dict HVal := renameHeader (renameHeader (renameHeader d XT MT) XI TI) XV MV

theorem or_match (a b : Option HVal) : (match a with | some v => some v | none => b) = a.or b := by cases a <;> rfl

theorem renamed_get (d : Dict HVal) (n : Str) : (h : n ≠ XT ∧ n ≠ XI ∧ n ≠ XV) → (renamed d).get n =
    if n = MT then (d.get XT).or (d.get MT) else if n = TI then (d.get XI).or (d.get TI)
    else if n = MV then (d.get XV).or (d.get MV) else d.get n := by
  rintro ⟨h1, h2, h3⟩
  unfold renamed
  rw [rename_get h3]
  simp only [or_match]
  by_cases e3 : n = MV
  · subst e3
    rw [if_pos rfl, if_neg (by decide), if_neg (by decide), if_pos rfl, rename_get (by decide), if_neg (by decide),
      rename_get (by decide), if_neg (by decide), rename_get (by decide), if_neg (by decide), rename_get (by decide),
      if_neg (by decide)]
  · rw [if_neg e3, if_neg e3, rename_get h2]
    simp only [or_match]
    by_cases e2 : n = TI
    · subst e2
      rw [if_pos rfl, if_neg (by decide), if_pos rfl, rename_get (by decide), if_neg (by decide),
        rename_get (by decide), if_neg (by decide)]
    · rw [if_neg e2, if_neg e2, rename_get h1]
      simp only [or_match]

theorem renamed_ok {d : Dict HVal} (h : d.Ok) : (renamed d).Ok := rename_ok (rename_ok (rename_ok h _ _) _ _) _ _

theorem renamed_gone {d : Dict HVal} (h : d.Ok) {n : Str} (hn : n = XT ∨ n = XI ∨ n = XV) : (renamed d).get n = none := by
  unfold renamed
  rcases hn with rfl | rfl | rfl
  · rw [rename_get (by decide), if_neg (by decide), rename_get (by decide), if_neg (by decide)]
    exact rename_gone h _ _
  · rw [rename_get (by decide), if_neg (by decide)]
    exact rename_gone (rename_ok h _ _) _ _
  · exact rename_gone (rename_ok (rename_ok h _ _) _ _) _ _

theorem choose_get (d : Dict HVal) (n : Str) : (chooseMessageType d).get n =
    if n = MT then some (
      let t := (d.get MT).getD (.v (.str (py! "m-retrieve-conf")))
      if isStr (some t) (py! "m-send-req") && !(d.has (py! "To") || d.has (py! "Cc") || d.has (py! "Bc")) then
        .v (.str (py! "m-retrieve-conf"))
      else t)
    else d.get n := by
  unfold chooseMessageType MT
  have hs : ∀ (d : Dict HVal) v n, Dict.has (d.set (py! "Message-Type") v) n
      = if py! "Message-Type" = n then true else d.has n := by
    intro d v n
    unfold Dict.has
    rw [dict_get_set]
    split <;> rfl
  by_cases hm : d.has (py! "Message-Type") = true
  · obtain ⟨t, ht⟩ := Option.isSome_iff_exists.1 hm
    simp only [hm, if_true, ht, Option.getD_some]
    by_cases hi : isStr (some t) (py! "m-send-req") = true
    · simp only [hi, if_true, Bool.true_and]
      by_cases hr : (d.has (py! "To") || d.has (py! "Cc") || d.has (py! "Bc")) = true
      · simp only [hr, if_true, Bool.not_true, Bool.false_eq_true, if_false]
        by_cases hn : n = py! "Message-Type"
        · simp only [hn, if_true]; exact ht
        · simp only [if_neg hn]
      · rw [if_neg hr]
        simp only [Bool.not_eq_true] at hr
        simp only [hr, Bool.not_false, if_true, dict_get_set, eq_comm (a := n)]
    · simp only [hi, Bool.false_eq_true, if_false, Bool.false_and]
      by_cases hn : n = py! "Message-Type"
      · simp only [hn, if_true]; exact ht
      · simp only [if_neg hn]
  · have hg : d.get (py! "Message-Type") = none := by
      cases h : d.get (py! "Message-Type") with
      | none => rfl
      | some v => exact absurd (by unfold Dict.has; rw [h]; rfl) hm
    have h1 : isStr (some (HVal.v (.str (py! "m-retrieve-conf")))) (py! "m-send-req") = false := by decide
    simp only [if_neg hm, hg, Option.getD_none, dict_get_set, if_true, h1, Bool.false_eq_true, if_false,
      Bool.false_and, eq_comm (a := n)]

theorem choose_ok {d : Dict HVal} (h : d.Ok) : (chooseMessageType d).Ok := by
  have h1 : (if d.has (py! "Message-Type") then d
      else d.set (py! "Message-Type") (.v (.str (py! "m-retrieve-conf")))).Ok := by
    split
    · exact h
    · exact h.set _ _
  unfold chooseMessageType
  generalize (if d.has (py! "Message-Type") then d
      else d.set (py! "Message-Type") (.v (.str (py! "m-retrieve-conf")))) = e at h1
  simp only []
  split
  · split
    · exact h1
    · exact h1.set _ _
  · exact h1

theorem setDefault_get (d : Dict HVal) (k n : Str) (v : HVal) :
    (if d.has k then d else d.set k v).get n = if n = k then some ((d.get k).getD v) else d.get n := by
  unfold Dict.has
  cases h : d.get k with
  | none =>
    simp only [Option.isSome_none, Bool.false_eq_true, if_false, dict_get_set, Option.getD_none, eq_comm (a := n)]
  | some w =>
    simp only [Option.isSome_some, if_true, Option.getD_some]
    by_cases hn : n = k
    · simp [hn, h]
    · simp [hn]

theorem setDefault_ok {d : Dict HVal} (h : d.Ok) (k : Str) (v : HVal) : (if d.has k then d else d.set k v).Ok := by
  split
  · exact h
  · exact h.set _ _

theorem prepare_eq (rnd : Nat) (d : Dict HVal) : prepareHeaders rnd d =
    (let e := chooseMessageType (renamed d)
     let e := if e.has TI then e else e.set TI (.v (.str (natStr rnd)))
     if e.has MV then e else e.set MV (.v (.str (py! "1.0")))) := rfl

theorem prepare_ok {d : Dict HVal} (h : d.Ok) (rnd : Nat) : (prepareHeaders rnd d).Ok := by
  rw [prepare_eq]
  exact setDefault_ok (setDefault_ok (choose_ok (renamed_ok h)) _ _) _ _

/-- the headers that are sent -/
theorem prepare_get (rnd : Nat) (d : Dict HVal) (n : Str) (hn : n ≠ XT ∧ n ≠ XI ∧ n ≠ XV) :
    (prepareHeaders rnd d).get n =
      if n = MT then some (sentType d)
      else if n = TI then some (((d.get XI).or (d.get TI)).getD (.v (.str (natStr rnd))))
      else if n = MV then some (((d.get XV).or (d.get MV)).getD (.v (.str (py! "1.0"))))
      else d.get n := by
  rw [prepare_eq]
  simp only []
  rw [setDefault_get, setDefault_get, setDefault_get, choose_get, choose_get, choose_get]
  have hT : (renamed d).get MT = (d.get XT).or (d.get MT) := by
    rw [renamed_get _ _ (by decide), if_pos rfl]
  have hh : ∀ k, k ≠ XT ∧ k ≠ XI ∧ k ≠ XV ∧ k ≠ MT ∧ k ≠ TI ∧ k ≠ MV → (renamed d).has k = d.has k := by
    rintro k ⟨a, b, c, e, f, g⟩
    unfold Dict.has
    rw [renamed_get _ _ ⟨a, b, c⟩, if_neg e, if_neg f, if_neg g]
  by_cases e1 : n = MT
  · subst e1
    rw [if_neg (by decide), if_neg (by decide), if_pos rfl, if_pos rfl]
    simp only [hT, hh (py! "To") (by decide), hh (py! "Cc") (by decide), hh (py! "Bc") (by decide)]
    rfl
  · by_cases e2 : n = TI
    · subst e2
      rw [if_neg (by decide), if_pos rfl, if_neg (by decide), if_neg (by decide), if_pos rfl,
        renamed_get _ _ (by decide), if_neg (by decide), if_pos rfl]
    · by_cases e3 : n = MV
      · subst e3
        rw [if_pos rfl, if_neg (by decide), if_neg (by decide), if_neg (by decide), if_neg (by decide), if_pos rfl,
          renamed_get _ _ (by decide), if_neg (by decide), if_neg (by decide), if_pos rfl]
      · rw [if_neg e3, if_neg e2, if_neg e1, if_neg e1, if_neg e2, if_neg e3, renamed_get _ _ hn, if_neg e1, if_neg e2,
          if_neg e3]

theorem prepare_gone {d : Dict HVal} (h : d.Ok) (rnd : Nat) {n : Str} (hn : n = XT ∨ n = XI ∨ n = XV) :
    (prepareHeaders rnd d).get n = none := by
  rw [prepare_eq]
  simp only []
  have h1 : n ≠ MV := by rcases hn with rfl | rfl | rfl <;> decide
  have h2 : n ≠ TI := by rcases hn with rfl | rfl | rfl <;> decide
  have h3 : n ≠ MT := by rcases hn with rfl | rfl | rfl <;> decide
  rw [setDefault_get, if_neg h1, setDefault_get, if_neg h2, choose_get, if_neg h3, renamed_gone h hn]

theorem rest_ok {P : Dict HVal} (h : P.Ok) : (restHeaders P).Ok := ((h.del _).del _).del _

theorem rest_get {P : Dict HVal} (h : P.Ok) (n : Str) :
    (restHeaders P).get n = if n = MT ∨ n = TI ∨ n = MV then none else P.get n := by
  unfold restHeaders
  by_cases e3 : n = MV
  · subst e3; rw [((h.del _).del _).get_del, if_pos (by decide)]
  · rw [Dict.get_del_ne (fun e => e3 e.symm)]
    by_cases e2 : n = TI
    · subst e2; rw [(h.del _).get_del, if_pos (by decide)]
    · rw [Dict.get_del_ne (fun e => e2 e.symm)]
      by_cases e1 : n = MT
      · subst e1; rw [h.get_del, if_pos (by decide)]
      · rw [Dict.get_del_ne (fun e => e1 e.symm), if_neg (by simp [e1, e2, e3])]

theorem rest_get' {P : Dict HVal} {n : Str} (hn : n ≠ MT ∧ n ≠ TI ∧ n ≠ MV) : (restHeaders P).get n = P.get n := by
  unfold restHeaders
  rw [Dict.get_del_ne (fun e => hn.2.2 e.symm), Dict.get_del_ne (fun e => hn.2.1 e.symm),
    Dict.get_del_ne (fun e => hn.1 e.symm)]

/-! ## Parts -/

theorem names12 : getHeaderFieldNames (py! "1.2") = .ok wspNames := rfl

theorem wspHeader_app {n s : Str} (hn : IsToken n) (hf : n ∉ wspNames) :
    encodeWspHeader n (.v (.str s)) = .ok (ints (toInts (n ++ 0 :: (s ++ [0])))) := by
  have htok : ∀ c ∈ n, 31 < c ∧ c ∉ separators ∧ c < 127 := fun c hc => isTokenChar_sep (hn.2 c hc)
  have h1 : n ≠ py! "Accept" := fun e => hf (by rw [e]; decide)
  have h2 : n ≠ py! "Pragma" := fun e => hf (by rw [e]; decide)
  unfold encodeWspHeader
  simp only [names12, indexOf_none.2 hf, encodeTokenText_token (fun c hc => (htok c hc).2.1), encodeWapValue, if_neg h1,
    if_neg h2, encodeTextH_str, bind, Except.bind]
  rw [← ints_append, ← toInts_append]
  simp

/-- the header with assigned number `i`, which is no MMS field, is left to the WSP decoder -/
theorem decodeHeader_wsp {i : Nat} {name : Str} {v : HVal} {body rest : List Nat} (hi : i < 128)
    (hl : lookupNum mmsFieldNames i = none) (hw : wspNames[i]? = some name)
    (hv : decodeWapValue name ⟨body ++ rest, 0⟩ = .ok v ⟨rest, 0⟩) :
    decodeHeader ⟨(0x80 + i) :: body ++ rest, 0⟩ = .ok (name, v) ⟨rest, 0⟩ := by
  rw [List.cons_append]
  have hm : decodeMmsHeader ⟨(0x80 + i) :: (body ++ rest), 0⟩ = .err .decodeError ⟨(0x80 + i) :: (body ++ rest), 0⟩ := by
    unfold decodeMmsHeader
    rw [M.bind_ok (preview_zero _ _), fromByte_ok (by omega) (by omega), M.bind_ok (M.lift_ok _ _),
      show 0x80 + i - 128 = i by omega, hl]
    rfl
  unfold decodeHeader
  rw [orDE_err hm]
  unfold decodeWspHeader
  apply orDE_ok
  unfold decodeWellKnownHeader
  rw [M.bind_ok (decodeShortInteger_ok (by omega) (by omega) _), names12, M.bind_ok (M.lift_ok _ _),
    show 0x80 + i - 128 = i by omega, hw]
  simp only []
  rw [M.bind_ok hv]
  rfl

theorem late_table : ∀ n ∈ lateNames, n ≠ py! "Accept" ∧ n ≠ py! "Pragma" ∧ n ≠ CT ∧ n ≠ py! "Content-Location" ∧
    ∃ i ∈ List.range 56, indexOf wspNames n = some i ∧ lookupNum mmsFieldNames i = none := by decide +kernel

theorem accept_sent {s : Str} (h : Sends s) : ∃ o : List Nat, o.length ≤ s.length + 1 ∧ (∀ x ∈ o, x < 256) ∧
    encodeConstrainedMedia s = .ok (toInts o) ∧
    ∀ rest, decodeConstrainedMedia ⟨o ++ rest, 0⟩ = .ok s ⟨rest, 0⟩ := by
  obtain ⟨⟨h0, c, hc, h1, h2⟩, h8⟩ := h
  have hs : c :: s.tail = s := by
    cases s with
    | nil => cases hc
    | cons d t => injection hc with hc; subst hc; rfl
  cases hi : indexOf wellKnownContentTypes s with
  | some i =>
    have hlt := indexOf_lt hi
    have := wellKnownContentTypes_length
    refine ⟨shortInt i, by simp [shortInt], ?_, encodeConstrainedMedia_known hi,
      fun rest => decodeConstrainedMedia_known (indexOf_get hi) rest⟩
    intro x hx
    simp [shortInt] at hx
    omega
  | none =>
    refine ⟨s ++ [0], by simp, text_body h8, ?_, fun rest => ?_⟩
    · unfold encodeConstrainedMedia
      rw [hi]
      simp only [encodeConstrainedEncoding]
      rw [← hs, encodeExtensionMedia_ok ⟨h1, by omega⟩]
    · rw [show s ++ [0] ++ rest = s ++ 0 :: rest by simp]
      exact decodeConstrainedMedia_text s h0 c ⟨h1, h2⟩ hs rest

/-- a header of a part that is read back -/
theorem kept_ok {n : Str} {v : HVal} (h : Kept n v) : ∃ o : List Nat, encodeWspHeader n v = .ok (ints (toInts o)) ∧ DecH o n v ∧
    (∀ x ∈ o, x < 256) ∧ o.length ≤ entrySize (n, v) := by
  cases h with
  | app n s hn hw hu =>
    refine ⟨_, wspHeader_app hn hw, ⟨by simp, fun e => hw (by rw [e]; decide), fun rest => appHeader_raw hn hu.1 hu.2.2 rest⟩,
      ?_, ?_⟩
    · intro x hx
      simp only [List.mem_append, List.mem_cons, List.mem_nil_iff, or_false] at hx
      rcases hx with h | h | h | h
      · have := (isTokenChar_sep (hn.2 x h)).2.2; omega
      · omega
      · exact hu.2.1 x h
      · omega
    · simp only [entrySize, List.length_append, List.length_cons, List.length_nil]
      omega
  | numbered n s hn hu =>
    obtain ⟨h1, h2, h3, _, i, hi, hx, hl⟩ := late_table n hn
    have hi : i < 56 := List.mem_range.1 hi
    refine ⟨(0x80 + i) :: (s ++ [0]), ?_, ⟨by simp, h3, fun rest => ?_⟩, ?_, ?_⟩
    · unfold encodeWspHeader
      simp only [names12, hx, encodeShortInteger_nat (n := i) (by omega), encodeWapValue, if_neg h1, if_neg h2,
        encodeTextH_str, bind, Except.bind]
      rw [← ints_append, ← toInts_append]
      rfl
    · refine decodeHeader_wsp (by omega) hl (indexOf_get hx) ?_
      unfold decodeWapValue
      rw [if_neg h1, if_neg h2, show s ++ [0] ++ rest = s ++ 0 :: rest by simp,
        M.bind_ok (decodeTextString_plain s hu.1 hu.2.2 rest 0)]
      rfl
    · intro x hx
      simp only [List.mem_append, List.mem_cons, List.mem_nil_iff, or_false] at hx
      rcases hx with h | h | h
      · omega
      · exact hu.2.1 x h
      · omega
    · simp only [entrySize, List.length_append, List.length_cons, List.length_nil]
      omega
  | accept s hs =>
    obtain ⟨o, hl, h8, he, hd⟩ := accept_sent hs
    have hi : indexOf wspNames (py! "Accept") = some 0 := rfl
    refine ⟨0x80 :: o, ?_, ⟨by simp, by decide, fun rest => ?_⟩, ?_, ?_⟩
    · unfold encodeWspHeader
      simp only [names12, hi, encodeShortInteger_nat (n := 0) (by decide), encodeWapValue, if_true, encodeAcceptValue, he,
        bind, Except.bind]
      rw [← ints_append, ← toInts_append]
      rfl
    · refine decodeHeader_wsp (i := 0) (by decide) rfl rfl ?_
      unfold decodeWapValue
      rw [if_pos rfl]
      unfold decodeAcceptValue
      rw [M.bind_ok (orDE_ok (hd rest))]
      rfl
    · intro x hx
      rcases List.mem_cons.1 hx with h | h
      · omega
      · exact h8 x h
    · simp only [entrySize, List.length_cons]
      have : (py! "Accept" : List Nat).length = 6 := rfl
      omega

theorem kept_location {v : HVal} : ¬ Kept (py! "Content-Location") v := by
  intro h
  generalize hn : py! "Content-Location" = n at h
  cases h with
  | app n s _ hw _ => subst hn; exact hw (by decide)
  | numbered n s h _ => exact (late_table n h).2.2.2.1 hn.symm
  | accept s _ => revert hn; decide

/-- the encoded headers of a part as the list of what is decoded from them -/
theorem encodePartHeaders_kept {d : Dict HVal} (h : ∀ e ∈ d, e.1 ≠ CT → Kept e.1 e.2) :
    ∃ os : List (List Nat × Str × HVal), encodePartHeaders d = .ok (ints (toInts (os.flatMap (fun e => e.1)))) ∧
      os.map (fun e => e.2) = d.filter (fun e => e.1 ≠ CT) ∧ (∀ e ∈ os, DecH e.1 e.2.1 e.2.2 ∧ ∀ x ∈ e.1, x < 256) ∧
      (os.flatMap (fun e => e.1)).length ≤ ((d.filter (fun e => e.1 ≠ CT)).map entrySize).sum := by
  induction d with
  | nil => exact ⟨[], rfl, rfl, fun _ h => (by cases h), Nat.le_refl _⟩
  | cons x r ih =>
    obtain ⟨k, v⟩ := x
    obtain ⟨os, h1, h2, h3, h4⟩ := ih (fun e he => h e (List.mem_cons_of_mem _ he))
    simp only [encodePartHeaders]
    by_cases hk : k = py! "Content-Type"
    · rw [if_pos hk]
      have hf : List.filter (fun e : Str × HVal => decide (e.1 ≠ CT)) ((k, v) :: r)
          = r.filter (fun e => decide (e.1 ≠ CT)) := by
        rw [List.filter_cons_of_neg]; simp [hk, CT]
      rw [hf]
      exact ⟨os, h1, h2, h3, h4⟩
    · obtain ⟨o, e1, e2, e3, e4⟩ := kept_ok (h (k, v) (List.mem_cons_self ..) hk)
      rw [if_neg hk]
      have hf : List.filter (fun e : Str × HVal => decide (e.1 ≠ CT)) ((k, v) :: r)
          = (k, v) :: r.filter (fun e => decide (e.1 ≠ CT)) := by
        rw [List.filter_cons_of_pos]; simp [hk, CT]
      rw [hf]
      refine ⟨(o, k, v) :: os, ?_, ?_, ?_, ?_⟩
      · simp only [e1, h1, bind, Except.bind, List.flatMap_cons]
        rw [← ints_append, ← toInts_append]
      · rw [List.map_cons, h2]
      · intro e he
        rcases List.mem_cons.1 he with rfl | he
        · exact ⟨e2, e3⟩
        · exact h3 e he
      · have e4 : o.length ≤ entrySize (k, v) := e4
        simp only [List.flatMap_cons, List.length_append, List.map_cons, List.sum_cons]
        omega

theorem partHeaderLoop_gen (os : List (List Nat × Str × HVal)) (hd : ∀ e ∈ os, DecH e.1 e.2.1 e.2.2)
    (d : Dict HVal) (fuel : Nat) (hf : os.length < fuel) :
    partHeaderLoop fuel d ⟨os.flatMap (fun e => e.1), 0⟩ = .ok (storeAll (os.map (fun e => e.2)) d) ⟨[], 0⟩ := by
  induction os generalizing d fuel with
  | nil =>
    obtain ⟨f, rfl⟩ : ∃ f, fuel = f + 1 := ⟨fuel - 1, by omega⟩
    simp only [partHeaderLoop, List.flatMap_nil, decodeHeader_nil]
    rfl
  | cons e os ih =>
    obtain ⟨f, rfl⟩ : ∃ f, fuel = f + 1 := ⟨fuel - 1, by omega⟩
    have he := hd e (List.mem_cons_self ..)
    simp only [partHeaderLoop, List.flatMap_cons]
    rw [he.dec]
    simp only []
    rw [ih (fun x hx => hd x (List.mem_cons_of_mem _ hx)) _ _ (by simpa using hf)]
    rfl

/-- a part read, given what is read from its headers -/
theorem decodePart_gen {head data : List Nat} {c : Str} {params : Dict Val} {hdrs : Dict HVal} {s : It}
    (hh : partHeaders head (It.new head) = .ok (c, params, hdrs) s) (h1 : head.length < 2 ^ 63)
    (h2 : data.length < 2 ^ 63) (rest : List Nat) :
    decodePart ⟨uintvar head.length ++ uintvar data.length ++ head ++ data ++ rest, 0⟩ = .ok
      { ctParams := params, headers := hdrs, filename := none, data := some data } ⟨rest, 0⟩ := by
  have hf : onFresh head (partHeaders head) ⟨data ++ rest, 0⟩ = .ok (c, params, hdrs) ⟨data ++ rest, 0⟩ := by
    unfold onFresh; rw [hh]
  unfold decodePart
  simp only [List.append_assoc]
  rw [M.bind_ok (decodeUintVar_uintvar _ _ _), M.bind_ok (decodeUintVar_uintvar _ _ _), M.bind_ok (xrangeCheck_ok h1 _),
    M.bind_ok (nextN_ok _ _), M.bind_ok hf]
  simp only []
  rw [M.bind_ok (xrangeCheck_ok h2 _), M.bind_ok (nextN_ok _ _)]
  rfl

theorem uintvar_lt (n : Nat) : ∀ x ∈ uintvar n, x < 256 := (uintvar_is n).lt

/-- what is sent for a part -/
theorem encodePart_eq {env : Env} {ord : Dict HVal → Dict HVal} {part : DataPart} {media data ct hs : List Nat}
    (hct : part.headers.get CT = some (.ct media []))
    (h1 : encodeContentTypeValue media [] = .ok (ints (toInts ct))) (h2 : ∀ x ∈ ct, x < 256)
    (h3 : encodePartHeaders (ord part.headers) = .ok (ints (toInts hs))) (h4 : ∀ x ∈ hs, x < 256)
    (hd : part.readData env = .ok data) (hl : part.len env = .ok data.length) :
    encodePart env ord part = .ok (uintvar (ct ++ hs).length ++ uintvar data.length ++ (ct ++ hs) ++ data) := by
  unfold encodePart
  have hx : part.headers.index (py! "Content-Type") = .ok (.ct media []) := Dict.index_some hct
  have hlen : (((ints (toInts ct)).length : Int) + (ints (toInts hs)).length) = (((ct ++ hs).length : Nat) : Int) := by
    simp [ints, toInts]
  have hu : ∀ n : Nat, toOctets (ints (encodeUintVar (n : Int))) = .ok (uintvar n) := by
    intro n
    have := toOctets_ints (uintvar_lt n)
    unfold toInts at this
    rw [encodeUintVar_eq, this]
  simp only [hx, encodeCtPair, h1, h3, hlen, hu, hl, toOctets_ints h2, toOctets_ints h4, hd, bind, Except.bind]
  simp [List.append_assoc]

/-- the sizes of the headers other than Content-Type, and of Content-Type -/
theorem entry_sum {d : Dict HVal} {v : HVal} (h : d.get CT = some v) :
    ((d.filter (fun e => e.1 ≠ CT)).map entrySize).sum + entrySize (CT, v) ≤ (d.map entrySize).sum := by
  induction d with
  | nil => cases h
  | cons x r ih =>
    obtain ⟨k, w⟩ := x
    unfold Dict.get at h
    by_cases hk : k = CT
    · rw [if_pos hk] at h
      injection h with h
      subst h hk
      rw [List.filter_cons_of_neg (by simp)]
      simp only [List.map_cons, List.sum_cons]
      have : ((r.filter (fun e => decide (e.1 ≠ CT))).map entrySize).sum ≤ (r.map entrySize).sum := by
        clear ih
        induction r with
        | nil => simp
        | cons y r ih =>
          rw [List.filter_cons]
          split
          · simp only [List.map_cons, List.sum_cons]; omega
          · simp only [List.map_cons, List.sum_cons]; omega
      omega
    · rw [if_neg hk] at h
      rw [List.filter_cons_of_pos (by simpa using hk)]
      simp only [List.map_cons, List.sum_cons]
      have := ih h
      omega

theorem sum_perm {a b : List Nat} (h : a.Perm b) : a.sum = b.sum := by
  induction h with
  | nil => rfl
  | cons x _ ih => simp [ih]
  | swap x y l => simp only [List.sum_cons]; omega
  | trans _ _ h1 h2 => exact h1.trans h2

theorem plainPart_ok {env : Env} {ord : Dict HVal → Dict HVal} (ho : ∀ d, (ord d).Perm d) {part : DataPart}
    {media data : List Nat} (h : PlainPart env part media data) :
    ∃ o q, encodePart env ord part = .ok o ∧ readPart part data q ∧
      ∀ rest, decodePart ⟨o ++ rest, 0⟩ = .ok q ⟨rest, 0⟩ := by
  obtain ⟨ct, hl, hne, h8, he, hd⟩ := sends_ok h.sends
  have hord : (ord part.headers).Ok := ((ho part.headers).map Prod.fst).nodup_iff.2 h.keys
  obtain ⟨os, g1, g2, g3, g4⟩ := encodePartHeaders_kept (d := ord part.headers) (by
    rintro ⟨n, v⟩ hm hn
    exact h.app n v (h.keys.get ((ho part.headers).mem_iff.1 hm)) hn)
  have hsum := entry_sum h.ct
  have hperm : (((ord part.headers).filter (fun e => e.1 ≠ CT)).map entrySize).sum
      = ((part.headers.filter (fun e => e.1 ≠ CT)).map entrySize).sum :=
    sum_perm (((ho part.headers).filter _).map _)
  have hsmall : (ct ++ os.flatMap (fun e => e.1)).length < 2 ^ 63 := by
    have := h.small.1
    rw [List.length_append]
    rw [hperm] at g4
    simp only [entrySize] at hsum
    omega
  have hos := decH_length (os := os) (fun e he => (g3 e he).1)
  refine ⟨uintvar (ct ++ os.flatMap (fun e => e.1)).length ++ uintvar data.length ++ (ct ++ os.flatMap (fun e => e.1)) ++ data,
    { ctParams := [], headers := storeAll (os.map (fun e => e.2)) [(CT, .ct media [])], filename := none, data := some data },
    encodePart_eq h.ct he h8 g1 ?_ h.read h.len, ⟨rfl, rfl, rfl, ?_⟩, ?_⟩
  · intro x hx
    obtain ⟨e, he, hx⟩ := List.mem_flatMap.1 hx
    exact (g3 e he).2 x hx
  · intro n
    show (storeAll _ _).get n = _
    have hok : Dict.Ok (os.map (fun e => e.2)) := by
      rw [g2]
      exact List.Sublist.nodup ((List.filter_sublist).map Prod.fst) hord
    have hcl : part.headers.get (py! "Content-Location") = none := by
      cases hg : part.headers.get (py! "Content-Location") with
      | none => rfl
      | some v => exact absurd (h.app _ _ hg (by decide)) kept_location
    have hrhs : (if n = py! "Content-Location" then none else part.headers.get n) = part.headers.get n := by
      split
      · rename_i e; rw [e, hcl]
      · rfl
    rw [hrhs, storeAll_get hok, g2]
    have := Dict.get_filter (ord part.headers) (fun k => decide (k ≠ CT)) n
    rw [this, Dict.get_perm (ho part.headers) hord]
    by_cases hn : n = CT
    · subst hn
      simp only [ne_eq, not_true_eq_false, decide_false, Bool.false_eq_true, if_false, h.ct]
      rfl
    · rw [if_pos (by simpa using hn)]
      cases hg : part.headers.get n with
      | some v => rfl
      | none =>
        simp only [Dict.get]
        rw [if_neg (fun e => hn e.symm)]
  · intro rest
    refine decodePart_gen (c := media) (s := ⟨[], 0⟩) ?_ hsmall h.small.2 rest
    unfold partHeaders It.new
    rw [M.bind_ok (hd _)]
    simp only []
    rw [M.bind_ok (partHeaderLoop_gen os (fun e he => (g3 e he).1) _ _ (by
      simp only [List.length_append]; omega))]
    rfl

theorem filter_single {d : Dict HVal} (hk : d.Ok) {w : HVal} (h2 : d.get (py! "Content-Location") = some w)
    (h3 : ∀ n, n ≠ CT → n ≠ py! "Content-Location" → d.get n = none) :
    d.filter (fun e => e.1 ≠ CT) = [(py! "Content-Location", w)] := by
  have hmem : ∀ e ∈ d.filter (fun e => e.1 ≠ CT), e = (py! "Content-Location", w) := by
    rintro ⟨k, x⟩ he
    obtain ⟨hm, hne⟩ := List.mem_filter.1 he
    have hg := hk.get hm
    by_cases hc : k = py! "Content-Location"
    · subst hc; rw [h2] at hg; injection hg with hg; rw [hg]
    · rw [h3 k (by simpa using hne) hc] at hg; cases hg
  have hnd : ((d.filter (fun e => e.1 ≠ CT)).map Prod.fst).Nodup :=
    List.Sublist.nodup ((List.filter_sublist).map Prod.fst) hk
  have hin : (py! "Content-Location", w) ∈ d.filter (fun e => e.1 ≠ CT) :=
    List.mem_filter.2 ⟨Dict.mem_of_get h2, rfl⟩
  generalize d.filter (fun e => e.1 ≠ CT) = l at hmem hnd hin
  cases l with
  | nil => cases hin
  | cons a l =>
    cases l with
    | nil => rw [hmem a (by simp)]
    | cons b l =>
      rw [hmem a (by simp), hmem b (by simp)] at hnd
      simp at hnd

theorem encodePartHeaders_filter (d : Dict HVal) : encodePartHeaders d = encodePartHeaders (d.filter (fun e => e.1 ≠ CT)) := by
  induction d with
  | nil => rfl
  | cons x r ih =>
    obtain ⟨k, v⟩ := x
    by_cases hk : k = py! "Content-Type"
    · rw [List.filter_cons_of_neg (by simp [hk, CT]), ← ih]
      simp only [encodePartHeaders, if_pos hk]
    · rw [List.filter_cons_of_pos (by simp [hk, CT])]
      simp only [encodePartHeaders, if_neg hk, ih]

theorem filePart_ok {env : Env} {ord : Dict HVal → Dict HVal} (ho : ∀ d, (ord d).Perm d) {part : DataPart}
    {media data : List Nat} (h : FilePart env part media data) :
    ∃ o q, encodePart env ord part = .ok o ∧ readPart part data q ∧
      ∀ rest, decodePart ⟨o ++ rest, 0⟩ = .ok q ⟨rest, 0⟩ := by
  obtain ⟨ct, hl, hne, h8, he, hd⟩ := sends_ok h.sends
  obtain ⟨t, hloc, htok⟩ := h.loc
  have hord : (ord part.headers).Ok := ((ho part.headers).map Prod.fst).nodup_iff.2 h.keys
  have htt : ∀ c ∈ t, 31 < c ∧ c ∉ separators ∧ c < 127 := fun c hc => isTokenChar_sep (htok.2 c hc)
  have htext : text t = t ++ [0] := by
    obtain ⟨c, t', rfl, h1, h2, _⟩ := token_head htok
    unfold text
    simp only [if_neg (show ¬ c ≥ 127 by omega), List.nil_append]
  have hg : ∀ n, (ord part.headers).get n = part.headers.get n := Dict.get_perm (ho part.headers) hord
  have hfil := filter_single hord (by rw [hg, hloc]) (fun n a b => by rw [hg, h.only n a b])
  have henc : encodePartHeaders (ord part.headers) = .ok (ints (toInts (0x8e :: text t))) := by
    rw [encodePartHeaders_filter, hfil]
    have hw : encodeWspHeader (py! "Content-Location") (.v (.str t)) = .ok (ints (toInts (0x8e :: (t ++ [0])))) := by
      have hi : indexOf wspNames (py! "Content-Location") = some 14 := rfl
      have h1 : ¬ (py! "Content-Location" = py! "Accept") := by decide
      have h2 : ¬ (py! "Content-Location" = py! "Pragma") := by decide
      unfold encodeWspHeader
      simp only [names12, hi, encodeShortInteger_nat (n := 14) (by decide), encodeWapValue, if_neg h1, if_neg h2,
        encodeTextH_str, bind, Except.bind]
      rw [← ints_append, ← toInts_append]
      rfl
    have h0 : ¬ (py! "Content-Location" = py! "Content-Type") := by decide
    simp only [encodePartHeaders, if_neg h0, hw, bind, Except.bind, List.append_nil, htext]
  have hsum := entry_sum h.ct
  have hfil2 := filter_single h.keys hloc h.only
  rw [hfil2] at hsum
  have hsmall : (ct ++ 0x8e :: text t).length < 2 ^ 63 := by
    have := h.small.1
    simp only [entrySize, List.map_cons, List.map_nil, List.sum_cons, List.sum_nil] at hsum
    rw [htext]
    simp only [List.length_append, List.length_cons, List.length_nil]
    omega
  refine ⟨uintvar (ct ++ 0x8e :: text t).length ++ uintvar data.length ++ (ct ++ 0x8e :: text t) ++ data,
    { ctParams := [], headers := [(CT, .ct media [])], filename := none, data := some data },
    encodePart_eq h.ct he h8 henc ?_ h.read h.len, ⟨rfl, rfl, rfl, ?_⟩, ?_⟩
  · intro x hx
    rw [htext] at hx
    simp only [List.mem_append, List.mem_cons, List.mem_nil_iff, or_false] at hx
    rcases hx with h | h | h
    · omega
    · have := (htt x h).2.2; omega
    · omega
  · intro n
    simp only [Dict.get]
    by_cases hn : n = CT
    · subst hn; rw [if_pos rfl, if_neg (by decide), h.ct]
    · rw [if_neg (fun e => hn e.symm)]
      by_cases hc : n = py! "Content-Location"
      · rw [if_pos hc]
      · rw [if_neg hc, h.only n hn hc]
  · intro rest
    refine decodePart_gen (c := media) (s := ⟨[], 0⟩) ?_ hsmall h.small.2 rest
    unfold partHeaders It.new
    rw [M.bind_ok (hd _)]
    simp only []
    have : ∀ fuel, partHeaderLoop (fuel + 1) [(py! "Content-Type", .ct media [])] ⟨0x8e :: text t, 0⟩
        = .ok [(py! "Content-Type", .ct media [])] ⟨[], 0⟩ := by
      intro fuel
      simp only [partHeaderLoop, location_lost htok]
    rw [M.bind_ok (this _)]
    rfl

/-! ## Bodies and messages -/

/-- the parts of a message, each encoded and read -/
theorem encodeParts_gen {env : Env} {ord : Dict HVal → Dict HVal} {R : DataPart → DataPart → Prop} {ps : List DataPart}
    (h : ∀ p ∈ ps, ∃ o q, encodePart env ord p = .ok o ∧ R p q ∧ ∀ rest, decodePart ⟨o ++ rest, 0⟩ = .ok q ⟨rest, 0⟩) :
    ∃ o qs, encodeParts env ord ps = .ok o ∧ List.Forall₂ R ps qs ∧
      ∀ acc rest, partLoop ps.length acc ⟨o ++ rest, 0⟩ = .ok (acc ++ qs) ⟨rest, 0⟩ := by
  induction ps with
  | nil => exact ⟨[], [], rfl, .nil, fun acc rest => by simp [partLoop]⟩
  | cons p ps ih =>
    obtain ⟨o, q, h1, h2, h3⟩ := h p (List.mem_cons_self ..)
    obtain ⟨os, qs, g1, g2, g3⟩ := ih (fun x hx => h x (List.mem_cons_of_mem _ hx))
    refine ⟨o ++ os, q :: qs, ?_, .cons h2 g2, fun acc rest => ?_⟩
    · simp only [encodeParts, h1, g1, bind, Except.bind]
    · simp only [List.length_cons, partLoop, List.append_assoc]
      rw [M.bind_ok (h3 _), g3]
      simp

theorem slideParts_length (ps : List Page) : (slideParts ps).length = (ps.map Page.numberOfParts).sum := by
  induction ps with
  | nil => rfl
  | cons p ps ih =>
    simp only [slideParts, List.length_append, List.length_map, List.map_cons, List.sum_cons, ih]
    congr 1
    unfold Page.dataParts Page.numberOfParts
    cases p.image <;> cases p.audio <;> cases p.text <;> rfl

theorem partLoop_add (a b : Nat) {acc acc' : List DataPart} {s s' : It} (h : partLoop a acc s = .ok acc' s') :
    partLoop (a + b) acc s = partLoop b acc' s' := by
  induction a generalizing acc s with
  | zero =>
    simp only [partLoop, M.pure_apply, Res.ok.injEq] at h
    rw [Nat.zero_add, h.1, h.2]
  | succ a ih =>
    rw [show a + 1 + b = (a + b) + 1 by omega]
    simp only [partLoop, M.bind_apply] at h ⊢
    cases hd : decodePart s with
    | err e t => rw [hd] at h; cases h
    | ok q t =>
      rw [hd] at h
      simp only [] at h ⊢
      exact ih h

theorem decodePart_nil : decodePart ⟨[], 0⟩ = .err .stopIteration ⟨[], 0⟩ := rfl

theorem body_ok {env : Env} {ord : Dict HVal → Dict HVal} {m : Msg} {smil : Str} {R : DataPart → DataPart → Prop}
    (hs : m.smil env = .ok smil) (h : ∀ p ∈ smilPart smil :: slideParts m.pages, ∃ o q, encodePart env ord p = .ok o ∧
      R p q ∧ ∀ rest, decodePart ⟨o ++ rest, 0⟩ = .ok q ⟨rest, 0⟩) (hn : numEntries m < 2 ^ 63) :
    ∃ b qs, encodeMessageBody env ord m = .ok b ∧ List.Forall₂ R (smilPart smil :: slideParts m.pages) qs ∧
      (m.dataParts = [] → ∀ rest, decodeMessageBody ⟨b ++ rest, 0⟩ = .ok qs ⟨rest, 0⟩) ∧
      (m.dataParts ≠ [] → decodeMessageBody ⟨b, 0⟩ = .err .stopIteration ⟨[], 0⟩) := by
  obtain ⟨o, qs, h1, h2, h3⟩ := encodeParts_gen h
  have hlen : numEntries m = (smilPart smil :: slideParts m.pages).length + m.dataParts.length := by
    unfold numEntries
    rw [List.length_cons, slideParts_length]
    omega
  have hu : toOctets (ints (encodeUintVar ((numEntries m : Nat) : Int))) = .ok (uintvar (numEntries m)) := by
    have := toOctets_ints (uintvar_lt (numEntries m))
    unfold toInts at this
    rw [encodeUintVar_eq, this]
  refine ⟨uintvar (numEntries m) ++ o, qs, ?_, h2, ?_, ?_⟩
  · unfold encodeMessageBody
    simp only [hu, hs, h1, bind, Except.bind]
  · intro hd rest
    unfold decodeMessageBody
    rw [List.append_assoc, decodeUintVar_uintvar]
    simp only []
    rw [M.bind_ok (xrangeCheck_ok hn _), hlen, hd, List.length_nil, Nat.add_zero, h3]
    rfl
  · intro hd
    obtain ⟨k, hk⟩ : ∃ k, m.dataParts.length = k + 1 := by
      cases hd' : m.dataParts with
      | nil => exact absurd hd' hd
      | cons a l => exact ⟨l.length, rfl⟩
    unfold decodeMessageBody
    rw [decodeUintVar_uintvar]
    simp only []
    have h3' := h3 [] []
    rw [List.append_nil] at h3'
    rw [M.bind_ok (xrangeCheck_ok hn _), hlen, hk, partLoop_add _ _ h3']
    simp only [partLoop]
    rw [M.bind_err decodePart_nil]

theorem new_get {n : Str} (h : n ≠ MT ∧ n ≠ TI ∧ n ≠ MV ∧ n ≠ CT) : Msg.new.headers.get n = none := by
  have e : Msg.new.headers = [(MT, .v (.str (py! "m-send-req"))), (TI, .v (.str (py! "1234"))),
      (MV, .v (.str (py! "1.0"))), (CT, .ct (py! "application/vnd.wap.multipart.mixed") [])] := rfl
  rw [e]
  simp only [Dict.get]
  rw [if_neg (fun e => h.1 e.symm), if_neg (fun e => h.2.1 e.symm), if_neg (fun e => h.2.2.1 e.symm),
    if_neg (fun e => h.2.2.2 e.symm)]

/-- the header block of a message, encoded and read -/
theorem header_ok {ord : Dict HVal → Dict HVal} (ho : ∀ d, (ord d).Perm d) {rnd : Nat} {m : Msg} {P : Dict HVal}
    (hP : prepareHeaders rnd m.headers = P) (hk : P.Ok) {media : Str} (hct : P.get CT = some (.ct media []))
    (hm : Sends media) (hf : ∀ n v, P.get n = some v → n ≠ CT → Comes n v) :
    ∃ o d, encodeMessageHeader ord rnd m = .ok o { m with headers := restHeaders P } ∧ (∀ n, d.get n = P.get n) ∧
      ∀ rest, decodeMessageHeader ⟨o ++ rest, 0⟩ = .ok d ⟨rest, 0⟩ := by
  have g1 : ∃ v, P.get MT = some v := ⟨_, by rw [← hP, prepare_get _ _ _ (by decide), if_pos rfl]⟩
  have g2 : ∃ v, P.get TI = some v := ⟨_, by rw [← hP, prepare_get _ _ _ (by decide), if_neg (by decide), if_pos rfl]⟩
  have g3 : ∃ v, P.get MV = some v := ⟨_, by
    rw [← hP, prepare_get _ _ _ (by decide), if_neg (by decide), if_neg (by decide), if_pos rfl]⟩
  obtain ⟨vt, g1⟩ := g1
  obtain ⟨vi, g2⟩ := g2
  obtain ⟨vv, g3⟩ := g3
  obtain ⟨a, ha, da⟩ := hf _ _ g1 (by decide)
  obtain ⟨b, hb, db⟩ := hf _ _ g2 (by decide)
  obtain ⟨c, hc, dc⟩ := hf _ _ g3 (by decide)
  have hR := rest_ok hk
  have hRg := rest_get hk
  have hord : (ord (restHeaders P)).Ok := ((ho _).map Prod.fst).nodup_iff.2 hR
  have hog : ∀ n, (ord (restHeaders P)).get n = (restHeaders P).get n := Dict.get_perm (ho _) hord
  obtain ⟨os, e1, e2, e3⟩ := encodeRest_faithful (d := ord (restHeaders P)) (by
    rintro ⟨n, v⟩ hmem hn
    have := hord.get hmem
    rw [hog, hRg] at this
    split at this
    · cases this
    · exact hf n v this hn)
  have hrct : (restHeaders P).get CT = some (.ct media []) := by rw [rest_get' (by decide), hct]
  obtain ⟨t, ht, dt⟩ := ctHeader_ok hrct hm
  refine ⟨_, (storeAll ([(MT, vt), (TI, vi), (MV, vv)] ++ os.map (fun e => e.2)) Msg.new.headers).set CT (.ct media []),
    emh_ok hP g1 g2 g3 ha hb hc e1 ht, ?_, ?_⟩
  · intro n
    have hfil : ∀ n, Dict.get (os.map (fun e => e.2)) n
        = if n = CT ∨ n = MT ∨ n = TI ∨ n = MV then none else P.get n := by
      intro n
      rw [e2]
      have := Dict.get_filter (ord (restHeaders P)) (fun k => decide (k ≠ CT)) n
      rw [this, hog, hRg]
      by_cases hn : n = CT
      · simp [hn]
      · rw [if_pos (by simpa using hn)]
        simp [hn]
    have hok : Dict.Ok ([(MT, vt), (TI, vi), (MV, vv)] ++ os.map (fun e => e.2)) := by
      have hx : ∀ k, (k = MT ∨ k = TI ∨ k = MV) → ∀ e ∈ os.map (fun e => e.2), e.1 ≠ k := by
        intro k hk
        apply Dict.get_none.1
        rw [hfil, if_pos]
        rcases hk with h | h | h <;> simp [h]
      unfold Dict.Ok
      rw [List.map_append, List.nodup_append]
      refine ⟨(by decide : [MT, TI, MV].Nodup), ?_, ?_⟩
      · rw [e2]
        exact List.Sublist.nodup ((List.filter_sublist).map Prod.fst) hord
      · intro x hx' y hy
        obtain ⟨e, he, rfl⟩ := List.mem_map.1 hy
        intro h
        have h3 : x = MT ∨ x = TI ∨ x = MV := by simpa using hx'
        exact hx x h3 e he h.symm
    rw [dict_get_set]
    by_cases hn : n = CT
    · subst hn; rw [if_pos rfl, hct]
    · rw [if_neg (fun e => hn e.symm), storeAll_get hok, Dict.get_append, hfil]
      simp only [Dict.get]
      by_cases n1 : n = MT
      · subst n1; simp [g1]
      · rw [if_neg (fun e => n1 e.symm)]
        by_cases n2 : n = TI
        · subst n2; simp [g2]
        · rw [if_neg (fun e => n2 e.symm)]
          by_cases n3 : n = MV
          · subst n3; simp [g3]
          · rw [if_neg (fun e => n3 e.symm)]
            simp only [hn, n1, n2, n3, or_self, if_false]
            cases hp : P.get n with
            | some v => rfl
            | none => exact new_get ⟨n1, n2, n3, hn⟩
  · intro rest
    have hall : ∀ e ∈ (a, MT, vt) :: (b, TI, vi) :: (c, MV, vv) :: os, DecH e.1 e.2.1 e.2.2 := by
      intro e he
      simp only [List.mem_cons] at he
      rcases he with rfl | rfl | rfl | he
      · exact da
      · exact db
      · exact dc
      · exact e3 e he
    have hlen := decH_length hall
    have hloop := headerLoop_gen _ hall rest (dt rest) Msg.new.headers
      ((a ++ b ++ c ++ os.flatMap (fun e => e.1) ++ t ++ rest).length + 1) (by
        simp only [List.flatMap_cons, List.length_append] at hlen ⊢
        omega)
    unfold decodeMessageHeader
    simp only [List.flatMap_cons, List.append_assoc, List.map_cons] at hloop ⊢
    exact hloop

/-- messages, encoded and read -/
theorem message_ok {env : Env} {ord : Dict HVal → Dict HVal} (ho : ∀ d, (ord d).Perm d) {rnd : Nat} {m : Msg}
    (hk : m.headers.Ok) {media : Str} (hct : m.headers.get CT = some (.ct media []))
    (hm : Sends media) (hf : ∀ n v, (prepareHeaders rnd m.headers).get n = some v → n ≠ CT → Comes n v)
    {smil : Str} {R : DataPart → DataPart → Prop} (hs : m.smil env = .ok smil)
    (h : ∀ p ∈ smilPart smil :: slideParts m.pages, ∃ o q, encodePart env ord p = .ok o ∧
      R p q ∧ ∀ rest, decodePart ⟨o ++ rest, 0⟩ = .ok q ⟨rest, 0⟩) (hn : numEntries m < 2 ^ 63) :
    ∃ o, encode env ord rnd m = .ok o { m with headers := restHeaders (prepareHeaders rnd m.headers) } ∧
      (m.dataParts = [] → ∃ m2, decodeData o = .ok m2 ∧
        (∀ n, m2.headers.get n = (prepareHeaders rnd m.headers).get n) ∧
        List.Forall₂ R (smilPart smil :: slideParts m.pages) m2.dataParts) ∧
      (m.dataParts ≠ [] → decodeData o = .error .stopIteration) := by
  have hP : (prepareHeaders rnd m.headers).get CT = some (.ct media []) := by
    rw [prepare_get _ _ _ (by decide), if_neg (by decide), if_neg (by decide), if_neg (by decide), hct]
  obtain ⟨o, d, h1, h2, h3⟩ := header_ok ho rfl (prepare_ok hk rnd) hP hm hf
  have hs' : ({ m with headers := restHeaders (prepareHeaders rnd m.headers) } : Msg).smil env = .ok smil := hs
  obtain ⟨b, qs, b1, b2, b3, b4⟩ := body_ok (m := { m with headers := restHeaders (prepareHeaders rnd m.headers) }) hs' h hn
  refine ⟨o ++ b, ?_, ?_, ?_⟩
  · unfold encode
    rw [M.bind_ok h1]
    simp only [bind, M.bind, M.get, M.lift, pure, M.pure, b1]
  · intro hd
    refine ⟨{ Msg.new with headers := d, dataParts := qs }, ?_, h2, b2⟩
    unfold decodeData It.new
    have hb := b3 hd []
    rw [List.append_nil] at hb
    rw [M.bind_ok (h3 b), M.bind_ok hb]
    rfl
  · intro hd
    unfold decodeData It.new
    rw [M.bind_ok (h3 b), M.bind_err (b4 hd)]

end Verif.Mms

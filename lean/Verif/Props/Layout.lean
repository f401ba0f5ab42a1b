import Verif.Props.MmsMsg
import Verif.Spec.Layout
import Verif.Proofs.MmsEnc4
/-!
# C70: the order of the headers of an encoded message
-/
set_option autoImplicit false

namespace Verif.Props
open Verif Verif.Mms
open Verif.Spec.Layout

theorem field_spec {name : Str} : (∀ n ty, findField mmsFieldNames name = some (n, ty) → (n, name) ∈ fieldNumbers ∧ n < 128) ∧
    (findField mmsFieldNames name = none → ∀ n, (n, name) ∉ fieldNumbers) := by
  have key : ∀ t : List (Nat × Str × MType), (∀ n ty, findField t name = some (n, ty) → (n, name, ty) ∈ t) ∧
      (findField t name = none → ∀ n ty, (n, name, ty) ∉ t) := by
    intro t
    induction t with
    | nil => exact ⟨fun n ty h => (by cases h), fun _ n ty h => (by cases h)⟩
    | cons x r ih =>
      obtain ⟨k, nm, ty'⟩ := x
      unfold findField
      split
      · rename_i h
        subst h
        exact ⟨fun n ty h => (by cases h; exact List.mem_cons_self ..), fun h => (by cases h)⟩
      · rename_i h
        refine ⟨fun n ty h' => List.mem_cons_of_mem _ (ih.1 n ty h'), fun h' n ty hm => ?_⟩
        rcases List.mem_cons.1 hm with e | hm
        · cases e; exact h rfl
        · exact ih.2 h' n ty hm
  have e : mmsFieldNames.map (fun x => (x.1, x.2.1)) = fieldNumbers := rfl
  have hb : ∀ x ∈ mmsFieldNames, x.1 < 128 := by decide
  refine ⟨fun n ty h => ?_, fun h n hm => ?_⟩
  · have hm := (key mmsFieldNames).1 n ty h
    exact ⟨by rw [← e]; exact List.mem_map.2 ⟨_, hm, rfl⟩, hb _ hm⟩
  · rw [← e] at hm
    obtain ⟨⟨k, nm, ty⟩, hx, he⟩ := List.mem_map.1 hm
    cases he
    exact (key mmsFieldNames).2 h k ty hx

theorem toOctets_append_inv {a b : List Item} {o : List Nat} (h : toOctets (a ++ b) = .ok o) :
    ∃ x y, toOctets a = .ok x ∧ toOctets b = .ok y ∧ o = x ++ y := by
  rw [toOctets_append] at h
  obtain ⟨x, hx, h⟩ := bind_ok_invE h
  obtain ⟨y, hy, h⟩ := bind_ok_invE h
  exact ⟨x, y, hx, hy, (Except.ok.inj h).symm⟩

theorem toOctets_text {s : Str} {o : List Nat} (h : toOctets (ints (textOctets s)) = .ok o) : o = s ++ [0] := by
  have : ∀ (l : List Nat) (o : List Nat), toOctets (ints (l.map fun c : Nat => (c : Int))) = .ok o → o = l := by
    intro l
    induction l with
    | nil => intro o h; cases h; rfl
    | cons c l ih =>
      intro o h
      simp only [List.map_cons, ints, toOctets] at h
      split at h
      · cases h
      · obtain ⟨x, hx, h⟩ := bind_ok_invE h
        rw [← Except.ok.inj h, ih x hx]
        simp
  apply this (s ++ [0])
  rw [← h]
  simp [textOctets]

theorem headerOctets_starts {name : Str} {v : HVal} {o : List Nat} (h : headerOctets name v = .ok o) : Starts name o := by
  unfold headerOctets encodeHeader at h
  obtain ⟨l, hl, h⟩ := bind_ok_invE h
  cases hf : findField mmsFieldNames name with
  | some p =>
    obtain ⟨n, ty⟩ := p
    rw [hf] at hl
    obtain ⟨h1, h2⟩ := field_spec.1 n ty hf
    obtain ⟨a, ha, hl⟩ := bind_ok_invE hl
    obtain ⟨b, hb, hl⟩ := bind_ok_invE hl
    cases hl
    obtain ⟨x, y, hx, hy, rfl⟩ := toOctets_append_inv h
    unfold encodeShortInteger at ha
    rw [if_neg (by omega)] at ha
    cases ha
    have : x = [n + 128] := by
      have h3 := toOctets_ints (l := [n + 128]) (by simp; omega)
      have h4 : ints [(n : Int) + 128] = ints (toInts [n + 128]) := by simp [toInts]
      rw [h4, h3] at hx
      exact (Except.ok.inj hx).symm
    exact .inl ⟨n, y, h1, by rw [this]; rfl⟩
  | none =>
    rw [hf] at hl
    obtain ⟨a, ha, hl⟩ := bind_ok_invE hl
    obtain ⟨b, hb, hl⟩ := bind_ok_invE hl
    cases hl
    obtain ⟨x, y, hx, hy, rfl⟩ := toOctets_append_inv h
    unfold encodeTokenText at ha
    split at ha
    · cases ha
    · cases ha
      exact .inr ⟨field_spec.2 hf, y, by rw [toOctets_text hx]; simp⟩

theorem encodeRest_layout : ∀ {d : Dict HVal} {o : List Nat}, encodeRest d = .ok o →
    ∃ hs : List (List Nat × List Nat), o = (hs.map (·.2)).flatten ∧ (∀ x ∈ hs, Starts x.1 x.2) ∧
      hs.map (·.1) = (d.map (·.1)).filter (fun n => n ≠ CT)
  | [], o, h => by cases h; exact ⟨[], rfl, by simp, rfl⟩
  | (k, v) :: r, o, h => by
    simp only [encodeRest] at h
    split at h
    · rename_i hk
      obtain ⟨hs, h1, h2, h3⟩ := encodeRest_layout h
      exact ⟨hs, h1, h2, by rw [h3, List.map_cons, List.filter_cons_of_neg (p := fun n => decide (n ≠ CT)) (fun e => absurd hk (of_decide_eq_true e : k ≠ CT))]⟩
    · rename_i hk
      obtain ⟨a, ha, h⟩ := bind_ok_invE h
      obtain ⟨b, hb, h⟩ := bind_ok_invE h
      cases h
      obtain ⟨hs, h1, h2, h3⟩ := encodeRest_layout hb
      refine ⟨(k, a) :: hs, by simp [h1], ?_, ?_⟩
      · intro x hx
        rcases List.mem_cons.1 hx with rfl | hx
        · exact headerOctets_starts ha
        · exact h2 x hx
      · rw [List.map_cons, h3, List.map_cons, List.filter_cons_of_pos (p := fun n => decide (n ≠ CT)) (decide_eq_true (show k ≠ CT from hk))]

theorem encodeCt_layout {d : Dict HVal} {o : List Nat} (h : encodeCtHeader d = .ok o) : ∃ c, o = 0x84 :: c := by
  unfold encodeCtHeader at h
  obtain ⟨v, hv, h⟩ := bind_ok_invE h
  obtain ⟨r, hr, h⟩ := bind_ok_invE h
  obtain ⟨a, ha, h⟩ := bind_ok_invE h
  obtain ⟨a', ha', h⟩ := bind_ok_invE h
  obtain ⟨b, hb, h⟩ := bind_ok_invE h
  cases h
  have : encodeMmsFieldName (py! "Content-Type") = .ok [132] := by decide +kernel
  rw [this] at ha
  cases ha
  have : toOctets (ints [132]) = .ok [132] := rfl
  rw [this] at ha'
  cases ha'
  exact ⟨b, rfl⟩

theorem type_layout {v : HVal} {o : List Nat} (h : headerOctets MT v = .ok o) : ∃ t, o = [0x8c, t] ∧ 0x80 ≤ t ∧ t ≤ 0x86 := by
  unfold headerOctets encodeHeader at h
  obtain ⟨l, hl, h⟩ := bind_ok_invE h
  have hf : findField mmsFieldNames MT = some (0x0c, .messageTypeValue) := by decide +kernel
  rw [hf] at hl
  obtain ⟨a, ha, hl⟩ := bind_ok_invE hl
  obtain ⟨b, hb, hl⟩ := bind_ok_invE hl
  cases hl
  cases ha
  have hn : ∀ s n, lookupName messageTypes s = some n → 0x80 ≤ n ∧ n ≤ 0x86 := by
    intro s n hs
    have : ∀ t : List (Nat × Str), lookupName t s = some n → (n, s) ∈ t := by
      intro t
      induction t with
      | nil => intro h; cases h
      | cons x r ih =>
        obtain ⟨k, y⟩ := x
        intro h
        unfold lookupName at h
        split at h
        · rename_i e; cases h; subst e; exact List.mem_cons_self ..
        · exact List.mem_cons_of_mem _ (ih h)
    have hall : ∀ x ∈ messageTypes, 0x80 ≤ x.1 ∧ x.1 ≤ 0x86 := by decide
    exact hall _ (this _ hs)
  have hb' : ∃ t : Nat, b = [.int t] ∧ 0x80 ≤ t ∧ t ≤ 0x86 := by
    have str : ∀ s, (match lookupName messageTypes s with
        | some n => .ok [.int n]
        | none => .ok [.int 0x80] : Py (List Item)) = .ok b → ∃ t : Nat, b = [.int t] ∧ 0x80 ≤ t ∧ t ≤ 0x86 := by
      intro s hs
      cases hq : lookupName messageTypes s with
      | some n => rw [hq] at hs; cases hs; exact ⟨n, rfl, hn s n hq⟩
      | none => rw [hq] at hs; cases hs; exact ⟨0x80, rfl, by omega, by omega⟩
    have other : (.ok [.int 0x80] : Py (List Item)) = .ok b → ∃ t : Nat, b = [.int t] ∧ 0x80 ≤ t ∧ t ≤ 0x86 := by
      intro h; cases h; exact ⟨0x80, rfl, by omega, by omega⟩
    cases v with
    | ct m p => cases hb
    | tup a b => exact other hb
    | v x =>
      cases x with
      | str s => exact str s hb
      | uni s => exact str s hb
      | int n => exact other hb
      | bool n => exact other hb
      | flt n d => exact other hb
      | _ => exact other hb
  obtain ⟨t, rfl, ht⟩ := hb'
  have : toOctets (ints [(12 : Int) + 128] ++ [.int (t : Int)]) = .ok [0x8c, t] := by
    have h3 := toOctets_ints (l := [0x8c, t]) (by simp; omega)
    exact h3
  have e := this.symm.trans h
  exact ⟨t, (Except.ok.inj e).symm, ht⟩

theorem id_layout {v : HVal} {o : List Nat} (h : headerOctets TI v = .ok o) : ∃ s, o = 0x98 :: s ++ [0] ∧
    ∀ x, v = .v (.str x) ∨ v = .v (.uni x) → s = x := by
  unfold headerOctets encodeHeader at h
  obtain ⟨l, hl, h⟩ := bind_ok_invE h
  have hf : findField mmsFieldNames TI = some (0x18, .textString) := by decide +kernel
  rw [hf] at hl
  obtain ⟨a, ha, hl⟩ := bind_ok_invE hl
  obtain ⟨b, hb, hl⟩ := bind_ok_invE hl
  cases hl
  cases ha
  obtain ⟨x, y, hx, hy, rfl⟩ := toOctets_append_inv h
  have : toOctets (ints [((24 : Nat) : Int) + 128]) = .ok [0x98] := rfl
  rw [this] at hx
  cases hx
  obtain ⟨b', hb', hb⟩ := bind_ok_invE hb
  cases hb
  have two : ∀ a c : Nat, toOctets (ints [(a : Int), (c : Int), 0]) = .ok y → y = [a, c] ++ [0] := fun a c h =>
    toOctets_text (s := [a, c]) h
  unfold encodeTextStringH at hb'
  split at hb'
  · rename_i x
    unfold encodeTextString at hb'
    split at hb'
    · rename_i s
      cases hb'
      refine ⟨s, by rw [toOctets_text hy]; rfl, ?_⟩
      rintro x (e | e) <;> first | cases e; done | cases e; rfl
    · rename_i s
      cases hb'
      refine ⟨s, by rw [toOctets_text hy]; rfl, ?_⟩
      rintro x (e | e) <;> first | cases e; done | cases e; rfl
    · cases hb'
  · cases hb'
    refine ⟨_, by rw [two _ _ hy]; rfl, ?_⟩
    rintro x (e | e) <;> cases e
  · cases hb'
    refine ⟨_, by rw [two _ _ hy]; rfl, ?_⟩
    rintro x (e | e) <;> cases e
  · cases hb'
  · cases hb'

theorem mem_layout {rnd : Nat} {n : Str} {H P : Dict HVal} (gone : n = XT ∨ n = XI ∨ n = XV → P.get n = none)
    (get : n ≠ XT → n ≠ XI → n ≠ XV → P.get n =
      if n = MT then some (sentType H)
      else if n = TI then some (((H.get XI).or (H.get TI)).getD (.v (.str (natStr rnd))))
      else if n = MV then some (((H.get XV).or (H.get MV)).getD (.v (.str (py! "1.0"))))
      else H.get n) :
    ((∃ v, (if n = MT ∨ n = TI ∨ n = MV then none else P.get n) = some v) ∧ decide (n ≠ CT) = true) ↔
      ¬(n = MT ∨ n = TI ∨ n = MV ∨ n = CT ∨ n = XT ∨ n = XI ∨ n = XV) ∧ ∃ v, H.get n = some v := by
  by_cases hx : n = XT ∨ n = XI ∨ n = XV
  · rw [gone hx]
    constructor
    · rintro ⟨⟨v, hv⟩, _⟩
      split at hv <;> cases hv
    · rintro ⟨hn, _⟩
      exact absurd (.inr (.inr (.inr (.inr hx)))) hn
  · by_cases h3 : n = MT ∨ n = TI ∨ n = MV
    · rw [if_pos h3]
      constructor
      · rintro ⟨⟨v, hv⟩, _⟩; cases hv
      · rintro ⟨hn, _⟩
        refine absurd ?_ hn
        rcases h3 with h | h | h
        · exact .inl h
        · exact .inr (.inl h)
        · exact .inr (.inr (.inl h))
    · have a1 : n ≠ MT := fun e => h3 (.inl e)
      have a2 : n ≠ TI := fun e => h3 (.inr (.inl e))
      have a3 : n ≠ MV := fun e => h3 (.inr (.inr e))
      rw [if_neg h3, get (fun e => hx (.inl e)) (fun e => hx (.inr (.inl e))) (fun e => hx (.inr (.inr e))),
        if_neg a1, if_neg a2, if_neg a3]
      constructor
      · rintro ⟨hv, hc⟩
        refine ⟨?_, hv⟩
        rintro (e | e | e | e | e)
        · exact a1 e
        · exact a2 e
        · exact a3 e
        · exact of_decide_eq_true hc e
        · exact hx e
      · rintro ⟨hn, hv⟩
        exact ⟨hv, decide_eq_true (fun e => hn (.inr (.inr (.inr (.inl e)))))⟩

/-- C70: an encoded message starts with the message type, the transaction id and the version, in this order; every other
header of the message follows exactly once; the content type is the last header; then the body. -/
theorem C70_layout (env : Env) (ord : Dict HVal → Dict HVal) (hord : ∀ d, (ord d).Perm d) (rnd : Nat) (m m' : Msg)
    (hk : m.headers.Ok) (o : List Nat) (h : encode env ord rnd m = .ok o m') :
    ∃ l : Layout o, (l.others.map (·.1)).Nodup ∧
      (∀ n, n ∈ l.others.map (·.1) ↔ n ∉ fixed ∧ ∃ v, m.headers.get n = some v) ∧
      (∀ x, (m.headers.get (py! "X-Mms-Transaction-Id")).or (m.headers.get (py! "Transaction-Id")) = some (.v (.str x)) →
        l.id = x) := by
  obtain ⟨hd, b, h1, _, rfl⟩ := encode_inv h
  obtain ⟨vt, vi, vv, a, i, c, r, t, g1, g2, g3, ha, hi, hc, hr, ht, rfl, _⟩ := emh_inv h1
  have hP := prepare_ok hk rnd
  obtain ⟨ty, rfl, hty⟩ := type_layout ha
  obtain ⟨s, rfl, hs⟩ := id_layout hi
  obtain ⟨ver, rfl⟩ : ∃ ver, c = 0x8d :: ver := by
    rcases headerOctets_starts hc with ⟨n, v, hm, e⟩ | ⟨hm, _⟩
    · have hn : ∀ x ∈ fieldNumbers, x.2 = MV → x.1 = 0x0d := by decide
      have := hn _ hm rfl
      simp only at this
      subst this
      exact ⟨v, e⟩
    · exact absurd (show (0x0d, MV) ∈ fieldNumbers by decide) (hm 0x0d)
  obtain ⟨hs', e1, e2, e3⟩ := encodeRest_layout hr
  obtain ⟨ct, rfl⟩ := encodeCt_layout ht
  have hRok : (restHeaders (prepareHeaders rnd m.headers)).Ok := ((hP.del _).del _).del _
  have hperm := hord (restHeaders (prepareHeaders rnd m.headers))
  refine ⟨⟨ty, s, ver, hs', ct, b, by simp [e1], hty, e2⟩, ?_, ?_, ?_⟩
  · show (hs'.map (·.1)).Nodup
    rw [e3]
    exact ((hperm.map _).nodup_iff.2 hRok).filter _
  · intro n
    show n ∈ hs'.map (·.1) ↔ _
    rw [e3, List.mem_filter, (hperm.map (·.1)).mem_iff]
    have hmem : n ∈ (restHeaders (prepareHeaders rnd m.headers)).map (·.1) ↔
        ∃ v, (restHeaders (prepareHeaders rnd m.headers)).get n = some v := by
      constructor
      · intro hn
        obtain ⟨⟨k, v⟩, hx, rfl⟩ := List.mem_map.1 hn
        exact ⟨v, hRok.get hx⟩
      · rintro ⟨v, hv⟩
        exact List.mem_map.2 ⟨_, Dict.mem_of_get hv, rfl⟩
    have hfix : n ∈ fixed ↔ n = MT ∨ n = TI ∨ n = MV ∨ n = CT ∨ n = XT ∨ n = XI ∨ n = XV := by
      simp only [fixed, List.mem_cons, List.not_mem_nil, or_false]
      rfl
    rw [hmem, rest_get hP, hfix]
    exact mem_layout (n := n) (prepare_gone hk rnd) (fun a b c => prepare_get rnd _ n ⟨a, b, c⟩)
  · intro x hx
    show s = x
    rw [prepare_get rnd _ TI (by decide), if_neg (by decide), if_pos rfl] at g2
    have hx' : (m.headers.get XI).or (m.headers.get TI) = some (.v (.str x)) := hx
    rw [hx'] at g2
    exact hs x (.inl (Option.some.inj g2).symm)

/-- the hypotheses are met by a message with a To header -/
example : encodes sampleEnv id 1234 (withHeader (py! "To") (.v (.str (py! "+34600000000")))) = true ∧
    (withHeader (py! "To") (.v (.str (py! "+34600000000")))).headers.Ok := ⟨encodes_to, by unfold Dict.Ok; decide⟩

end Verif.Props

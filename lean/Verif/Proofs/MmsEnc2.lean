import Verif.Spec.MmsParts
import Verif.Proofs.MmsEnc1
/-!
# Lemmas on the MMS encoder: dicts and the header block
-/
set_option autoImplicit false

namespace Verif.Mms
open Verif.Spec.Wsp Verif.Spec.Mms Verif.Spec.MmsEnc

/-! ## Dicts -/
section
variable {α : Type}


theorem Dict.get_none {d : Dict α} {k : Str} : d.get k = none ↔ ∀ e ∈ d, e.1 ≠ k := by
  induction d with
  | nil => simp [Dict.get]
  | cons e r ih =>
    obtain ⟨k', v⟩ := e
    unfold Dict.get
    by_cases h : k' = k
    · rw [if_pos h]; simp [h]
    · rw [if_neg h, ih]; simp [h]

theorem Dict.mem_of_get {d : Dict α} {k : Str} {v : α} (h : d.get k = some v) : (k, v) ∈ d := by
  induction d with
  | nil => cases h
  | cons e r ih =>
    obtain ⟨k', v'⟩ := e
    unfold Dict.get at h
    by_cases hk : k' = k
    · rw [if_pos hk] at h; injection h with h; subst h hk; exact List.mem_cons_self ..
    · rw [if_neg hk] at h; exact List.mem_cons_of_mem _ (ih h)

theorem Dict.Ok.get {d : Dict α} (ho : d.Ok) {k : Str} {v : α} (h : (k, v) ∈ d) : d.get k = some v := by
  induction d with
  | nil => cases h
  | cons e r ih =>
    obtain ⟨k', v'⟩ := e
    unfold Dict.get
    have ho' : k' ∉ r.map Prod.fst ∧ (r.map Prod.fst).Nodup := List.nodup_cons.1 ho
    rcases List.mem_cons.1 h with h | h
    · injection h with h1 h2; subst h1 h2; rw [if_pos rfl]
    · rw [if_neg, ih ho'.2 h]
      intro e; subst e
      exact ho'.1 (List.mem_map.2 ⟨_, h, rfl⟩)

theorem Dict.Ok.get_iff {d : Dict α} (ho : d.Ok) {k : Str} {v : α} : d.get k = some v ↔ (k, v) ∈ d :=
  ⟨Dict.mem_of_get, ho.get⟩

theorem Dict.get_perm {d e : Dict α} (hp : d.Perm e) (ho : d.Ok) (k : Str) : d.get k = e.get k := by
  have ho' : e.Ok := (hp.map Prod.fst).nodup_iff.1 ho
  cases h : d.get k with
  | none =>
    symm
    rw [Dict.get_none] at h ⊢
    exact fun x hx => h x (hp.mem_iff.2 hx)
  | some v => rw [ho'.get (hp.mem_iff.1 (Dict.mem_of_get h))]

theorem Dict.get_append (d e : Dict α) (k : Str) :
    Dict.get (d ++ e) k = (match d.get k with | some v => some v | none => e.get k) := by
  induction d with
  | nil => rfl
  | cons x r ih =>
    obtain ⟨k', v'⟩ := x
    show Dict.get ((k', v') :: (r ++ e)) k = _
    simp only [Dict.get]
    by_cases h : k' = k
    · simp [h]
    · simp only [if_neg h]; exact ih

theorem Dict.get_filter (d : Dict α) (p : Str → Bool) (k : Str) :
    Dict.get (d.filter (fun e => p e.1)) k = if p k then d.get k else none := by
  induction d with
  | nil => simp [Dict.get]
  | cons x r ih =>
    obtain ⟨k', v'⟩ := x
    by_cases hp : p k' = true
    · rw [List.filter_cons_of_pos (by exact hp)]
      simp only [Dict.get]
      by_cases h : k' = k
      · subst h; simp [hp]
      · simp only [if_neg h]; exact ih
    · rw [List.filter_cons_of_neg (by exact hp), ih]
      simp only [Dict.get]
      by_cases h : k' = k
      · subst h; simp [hp]
      · simp only [if_neg h]

theorem Dict.get_del_ne {d : Dict α} {k n : Str} (h : k ≠ n) : (d.del k).get n = d.get n := by
  induction d with
  | nil => rfl
  | cons e r ih =>
    obtain ⟨k', v⟩ := e
    unfold Dict.del
    by_cases hk : k' = k
    · rw [if_pos hk]; simp only [Dict.get]; rw [if_neg]; rintro rfl; exact h hk.symm
    · rw [if_neg hk]; simp only [Dict.get]; rw [ih]

theorem Dict.del_sublist (d : Dict α) (k : Str) : (d.del k).Sublist d := by
  induction d with
  | nil => exact List.Sublist.refl _
  | cons e r ih =>
    obtain ⟨k', v⟩ := e
    unfold Dict.del
    split
    · exact List.sublist_cons_self _ _
    · exact ih.cons_cons _

theorem Dict.Ok.del {d : Dict α} (h : d.Ok) (k : Str) : (d.del k).Ok :=
  List.Sublist.nodup ((d.del_sublist k).map Prod.fst) h

theorem Dict.Ok.get_del {d : Dict α} (ho : d.Ok) (k : Str) : (d.del k).get k = none := by
  induction d with
  | nil => rfl
  | cons e r ih =>
    obtain ⟨k', v⟩ := e
    have ho' : k' ∉ r.map Prod.fst ∧ (r.map Prod.fst).Nodup := List.nodup_cons.1 ho
    unfold Dict.del
    by_cases hk : k' = k
    · rw [if_pos hk, Dict.get_none]
      rintro x hx rfl
      exact ho'.1 (List.mem_map.2 ⟨x, hx, hk.symm⟩)
    · rw [if_neg hk]; simp only [Dict.get]; rw [if_neg hk, ih ho'.2]

theorem Dict.set_new {d : Dict α} {k : Str} (h : d.get k = none) (v : α) : d.set k v = d ++ [(k, v)] := by
  induction d with
  | nil => rfl
  | cons e r ih =>
    obtain ⟨k', v'⟩ := e
    unfold Dict.get at h
    by_cases hk : k' = k
    · rw [if_pos hk] at h; cases h
    · rw [if_neg hk] at h
      unfold Dict.set
      rw [if_neg hk, ih h]; rfl

theorem Dict.del_append {d : Dict α} {k : Str} (h : d.get k = none) (e : Dict α) :
    Dict.del (d ++ e) k = d ++ e.del k := by
  induction d with
  | nil => rfl
  | cons x r ih =>
    obtain ⟨k', v'⟩ := x
    unfold Dict.get at h
    by_cases hk : k' = k
    · rw [if_pos hk] at h; cases h
    · rw [if_neg hk] at h
      show Dict.del ((k', v') :: (r ++ e)) k = _
      have : ∀ x : Dict α, Dict.del ((k', v') :: x) k = (k', v') :: x.del k := fun x => by
        show (if k' = k then _ else _) = _
        rw [if_neg hk]
      rw [this, ih h]; rfl

theorem Dict.set_keys (d : Dict α) (k : Str) (v : α) :
    (d.set k v).map Prod.fst = d.map Prod.fst ∨
      (d.get k = none ∧ (d.set k v).map Prod.fst = d.map Prod.fst ++ [k]) := by
  induction d with
  | nil => exact Or.inr ⟨rfl, rfl⟩
  | cons e r ih =>
    obtain ⟨k', v'⟩ := e
    unfold Dict.set Dict.get
    by_cases hk : k' = k
    · left; rw [if_pos hk]; simp [hk]
    · rw [if_neg hk, if_neg hk]
      rcases ih with ih | ⟨h1, h2⟩
      · left; simp [ih]
      · right; exact ⟨h1, by simp [h2]⟩

theorem Dict.Ok.set {d : Dict α} (h : d.Ok) (k : Str) (v : α) : (d.set k v).Ok := by
  rcases d.set_keys k v with e | ⟨h1, e⟩
  · unfold Dict.Ok; rw [e]; exact h
  · unfold Dict.Ok
    rw [e, List.nodup_append]
    refine ⟨h, by simp, ?_⟩
    intro a ha b hb
    simp at hb
    subst hb
    obtain ⟨x, hx, rfl⟩ := List.mem_map.1 ha
    exact Dict.get_none.1 h1 x hx

theorem Dict.index_some {d : Dict α} {k : Str} {v : α} (h : d.get k = some v) : d.index k = .ok v := by
  unfold Dict.index; rw [h]

theorem Dict.index_ok {d : Dict α} {k : Str} {v : α} (h : d.index k = .ok v) : d.get k = some v := by
  unfold Dict.index at h
  cases hg : d.get k with
  | none => rw [hg] at h; cases h
  | some w => rw [hg] at h; injection h with h; rw [h]

end

/-! ## The header block -/


/-- the headers left in the message -/
def restHeaders (P : Dict HVal) : Dict HVal := ((P.del MT).del TI).del MV

theorem emh_ok {ord : Dict HVal → Dict HVal} {rnd : Nat} {m : Msg} {P : Dict HVal}
    (hP : prepareHeaders rnd m.headers = P) {vt vi vv : HVal} {a b c r t : List Nat}
    (h1 : P.get MT = some vt) (h2 : P.get TI = some vi) (h3 : P.get MV = some vv)
    (ha : headerOctets MT vt = .ok a) (hb : headerOctets TI vi = .ok b) (hc : headerOctets MV vv = .ok c)
    (hr : encodeRest (ord (restHeaders P)) = .ok r) (ht : encodeCtHeader (restHeaders P) = .ok t) :
    encodeMessageHeader ord rnd m = .ok (a ++ b ++ c ++ r ++ t) { m with headers := restHeaders P } := by
  have e2 : (P.del MT).get TI = some vi := by rw [Dict.get_del_ne (by decide)]; exact h2
  have e3 : ((P.del MT).del TI).get MV = some vv := by
    rw [Dict.get_del_ne (by decide), Dict.get_del_ne (by decide)]; exact h3
  unfold encodeMessageHeader encodeAndDelete
  subst hP
  have i1 := Dict.index_some h1
  have i2 := Dict.index_some e2
  have i3 := Dict.index_some e3
  unfold MT TI MV at *
  simp only [bind, M.bind, M.modify, M.get, M.lift, pure, M.pure, i1, ha, i2, hb, i3, hc]
  unfold restHeaders at hr ht ⊢
  unfold MT TI MV at *
  simp only [hr, ht]

theorem emh_inv {ord : Dict HVal → Dict HVal} {rnd : Nat} {m m' : Msg} {o : List Nat}
    (h : encodeMessageHeader ord rnd m = .ok o m') : ∃ vt vi vv a b c r t,
      (prepareHeaders rnd m.headers).get MT = some vt ∧ (prepareHeaders rnd m.headers).get TI = some vi ∧
      (prepareHeaders rnd m.headers).get MV = some vv ∧ headerOctets MT vt = .ok a ∧ headerOctets TI vi = .ok b ∧
      headerOctets MV vv = .ok c ∧ encodeRest (ord (restHeaders (prepareHeaders rnd m.headers))) = .ok r ∧
      encodeCtHeader (restHeaders (prepareHeaders rnd m.headers)) = .ok t ∧
      o = a ++ b ++ c ++ r ++ t ∧ m' = { m with headers := restHeaders (prepareHeaders rnd m.headers) } := by
  unfold encodeMessageHeader encodeAndDelete at h
  simp only [bind, M.bind, M.modify, M.get, M.lift, pure, M.pure] at h
  generalize hP : prepareHeaders rnd m.headers = P at h ⊢
  cases h1 : P.index (py! "Message-Type") with
  | error e => rw [h1] at h; cases h
  | ok vt =>
    rw [h1] at h
    simp only [] at h
    cases ha : headerOctets (py! "Message-Type") vt with
    | error e => rw [ha] at h; cases h
    | ok a =>
      rw [ha] at h
      simp only [] at h
      cases h2 : (P.del (py! "Message-Type")).index (py! "Transaction-Id") with
      | error e => rw [h2] at h; cases h
      | ok vi =>
        rw [h2] at h
        simp only [] at h
        cases hb : headerOctets (py! "Transaction-Id") vi with
        | error e => rw [hb] at h; cases h
        | ok b =>
          rw [hb] at h
          simp only [] at h
          cases h3 : ((P.del (py! "Message-Type")).del (py! "Transaction-Id")).index (py! "MMS-Version") with
          | error e => rw [h3] at h; cases h
          | ok vv =>
            rw [h3] at h
            simp only [] at h
            cases hc : headerOctets (py! "MMS-Version") vv with
            | error e => rw [hc] at h; cases h
            | ok c =>
              rw [hc] at h
              simp only [] at h
              cases hr : encodeRest (ord (restHeaders P)) with
              | error e =>
                have hr' := hr
                unfold restHeaders MT TI MV at hr'
                rw [hr'] at h; cases h
              | ok r =>
                have hr' := hr
                unfold restHeaders MT TI MV at hr'
                rw [hr'] at h
                simp only [] at h
                cases ht : encodeCtHeader (restHeaders P) with
                | error e =>
                  have ht' := ht
                  unfold restHeaders MT TI MV at ht'
                  rw [ht'] at h; cases h
                | ok t =>
                  have ht' := ht
                  unfold restHeaders MT TI MV at ht'
                  rw [ht'] at h
                  simp only [Res.ok.injEq] at h
                  have g1 := Dict.index_ok h1
                  have g2 := Dict.index_ok h2
                  have g3 := Dict.index_ok h3
                  rw [Dict.get_del_ne (by decide)] at g2
                  rw [Dict.get_del_ne (by decide), Dict.get_del_ne (by decide)] at g3
                  exact ⟨vt, vi, vv, a, b, c, r, t, g1, g2, g3, ha, hb, hc, rfl, rfl, h.1.symm, h.2.symm⟩

theorem encodeRest_iff {d : Dict HVal} :
    (∃ l, encodeRest d = .ok l) ↔ ∀ e ∈ d, e.1 ≠ CT → ∃ o, headerOctets e.1 e.2 = .ok o := by
  induction d with
  | nil => exact ⟨fun _ e he => (by cases he), fun _ => ⟨[], rfl⟩⟩
  | cons x r ih =>
    obtain ⟨k, v⟩ := x
    simp only [encodeRest]
    by_cases hk : k = py! "Content-Type"
    · rw [if_pos hk, ih]
      constructor
      · intro h e he hne
        rcases List.mem_cons.1 he with rfl | he
        · exact absurd hk hne
        · exact h e he hne
      · exact fun h e he => h e (List.mem_cons_of_mem _ he)
    · rw [if_neg hk]
      constructor
      · rintro ⟨l, h⟩ e he hne
        cases ha : headerOctets k v with
        | error e => rw [ha] at h; cases h
        | ok a =>
          rw [ha] at h
          cases hb : encodeRest r with
          | error e => rw [hb] at h; cases h
          | ok b =>
            rcases List.mem_cons.1 he with rfl | he
            · exact ⟨a, ha⟩
            · exact ih.1 ⟨b, hb⟩ e he hne
      · intro h
        obtain ⟨a, ha⟩ := h (k, v) (List.mem_cons_self ..) hk
        obtain ⟨b, hb⟩ := ih.2 (fun e he => h e (List.mem_cons_of_mem _ he))
        exact ⟨a ++ b, by simp only [ha, hb, bind, Except.bind]⟩

/-- the remaining headers as the list of what is decoded from them -/
theorem encodeRest_faithful {d : Dict HVal} (h : ∀ e ∈ d, e.1 ≠ CT → Comes e.1 e.2) :
    ∃ os : List (List Nat × Str × HVal), encodeRest d = .ok (os.flatMap (fun e => e.1)) ∧
      os.map (fun e => e.2) = d.filter (fun e => e.1 ≠ CT) ∧ ∀ e ∈ os, DecH e.1 e.2.1 e.2.2 := by
  induction d with
  | nil => exact ⟨[], rfl, rfl, fun _ h => by cases h⟩
  | cons x r ih =>
    obtain ⟨k, v⟩ := x
    obtain ⟨os, h1, h2, h3⟩ := ih (fun e he => h e (List.mem_cons_of_mem _ he))
    simp only [encodeRest]
    by_cases hk : k = py! "Content-Type"
    · rw [if_pos hk]
      refine ⟨os, h1, ?_, h3⟩
      rw [h2, List.filter_cons_of_neg]
      simp [hk, CT]
    · obtain ⟨o, e1, e2⟩ := h (k, v) (List.mem_cons_self ..) hk
      rw [if_neg hk]
      refine ⟨(o, k, v) :: os, ?_, ?_, ?_⟩
      · simp only [e1, h1, bind, Except.bind, List.flatMap_cons]
      · rw [List.filter_cons_of_pos (by simp [hk, CT]), List.map_cons, h2]
      · intro e he
        rcases List.mem_cons.1 he with rfl | he
        · exact e2
        · exact h3 e he

/-- headers stored one after the other -/
def storeAll (l : List (Str × HVal)) (d : Dict HVal) : Dict HVal := l.foldl (fun d e => d.set e.1 e.2) d

theorem storeAll_get {l : Dict HVal} (ho : Dict.Ok l) (d : Dict HVal) (n : Str) :
    (storeAll l d).get n = (match Dict.get l n with | some v => some v | none => d.get n) := by
  induction l generalizing d with
  | nil => rfl
  | cons x r ih =>
    obtain ⟨k, v⟩ := x
    have ho' : k ∉ r.map Prod.fst ∧ (r.map Prod.fst).Nodup := List.nodup_cons.1 ho
    show (storeAll r (d.set k v)).get n = _
    rw [ih ho'.2, dict_get_set]
    simp only [Dict.get]
    by_cases hk : k = n
    · subst hk
      have : Dict.get r k = none := by
        rw [Dict.get_none]
        rintro e he rfl
        exact ho'.1 (List.mem_map.2 ⟨e, he, rfl⟩)
      rw [this]; simp
    · simp [hk]

theorem headerLoop_gen (os : List (List Nat × Str × HVal)) (hd : ∀ e ∈ os, DecH e.1 e.2.1 e.2.2)
    {ct : List Nat} {v : HVal} (rest : List Nat)
    (hc : decodeHeader ⟨ct ++ rest, 0⟩ = .ok (CT, v) ⟨rest, 0⟩) (d : Dict HVal) (fuel : Nat) (hf : os.length < fuel) :
    headerLoop fuel d ⟨os.flatMap (fun e => e.1) ++ (ct ++ rest), 0⟩
      = .ok ((storeAll (os.map (fun e => e.2)) d).set CT v) ⟨rest, 0⟩ := by
  induction os generalizing d fuel with
  | nil =>
    obtain ⟨f, rfl⟩ : ∃ f, fuel = f + 1 := ⟨fuel - 1, by omega⟩
    simp only [headerLoop, List.flatMap_nil, List.nil_append, hc]
    rfl
  | cons e os ih =>
    obtain ⟨f, rfl⟩ : ∃ f, fuel = f + 1 := ⟨fuel - 1, by omega⟩
    have he := hd e (List.mem_cons_self ..)
    simp only [headerLoop, List.flatMap_cons, List.append_assoc]
    rw [he.dec]
    simp only [if_neg he.name]
    rw [ih (fun x hx => hd x (List.mem_cons_of_mem _ hx)) _ _ (by simpa using hf)]
    rfl

theorem decH_length {os : List (List Nat × Str × HVal)} (hd : ∀ e ∈ os, DecH e.1 e.2.1 e.2.2) :
    os.length ≤ (os.flatMap (fun e => e.1)).length := by
  induction os with
  | nil => simp
  | cons e os ih =>
    have he := (hd e (List.mem_cons_self ..)).ne
    have := ih (fun x hx => hd x (List.mem_cons_of_mem _ hx))
    have : 1 ≤ e.1.length := by
      cases h : e.1 with
      | nil => exact absurd h he
      | cons _ _ => simp
    simp only [List.flatMap_cons, List.length_append, List.length_cons]
    omega

/-! ## Content types without parameters -/

theorem sends_ok {m : Str} (h : Sends m) : ∃ o : List Nat, o.length ≤ m.length + 1 ∧ o ≠ [] ∧ (∀ x ∈ o, x < 256) ∧
    encodeContentTypeValue m [] = .ok (ints (toInts o)) ∧
    ∀ rest, decodeContentTypeValue ⟨o ++ rest, 0⟩ = .ok (m, []) ⟨rest, 0⟩ := by
  obtain ⟨⟨h0, c, hc, h1, h2⟩, h8⟩ := h
  have hs : c :: m.tail = m := by
    cases m with
    | nil => cases hc
    | cons d t => injection hc with hc; subst hc; rfl
  cases hi : indexOf wellKnownContentTypes m with
  | some i =>
    have hlt := indexOf_lt hi
    have := wellKnownContentTypes_length
    refine ⟨shortInt i, by simp [shortInt], by simp [shortInt], ?_, encodeContentTypeValue_known hi, fun rest =>
      decodeContentTypeValue_constrained (decodeConstrainedMedia_known (indexOf_get hi) rest)⟩
    intro x hx
    simp [shortInt] at hx
    omega
  | none =>
    refine ⟨m ++ [0], by simp, by simp, text_body h8, encodeContentTypeValue_text hi ⟨h1, by omega⟩ hs, fun rest => ?_⟩
    rw [show m ++ [0] ++ rest = m ++ 0 :: rest by simp]
    exact decodeContentTypeValue_constrained (decodeConstrainedMedia_text m h0 c ⟨h1, h2⟩ hs rest)

theorem flatten_ints (l : List Int) : flattenList (ints l) = ints l := by
  induction l with
  | nil => rfl
  | cons x l ih => show Item.int x :: flattenList (ints l) = _; rw [ih]; rfl

theorem ctHeader_ok {d : Dict HVal} {m : Str} (hg : d.get CT = some (.ct m [])) (h : Sends m) :
    ∃ o, encodeCtHeader d = .ok o ∧ ∀ rest, decodeHeader ⟨o ++ rest, 0⟩ = .ok (CT, .ct m []) ⟨rest, 0⟩ := by
  obtain ⟨o, _, _, h8, he, hd⟩ := sends_ok h
  refine ⟨0x84 :: o, ?_, ?_⟩
  · unfold encodeCtHeader
    have hx : d.index (py! "Content-Type") = .ok (.ct m []) := Dict.index_some hg
    have hn : encodeMmsFieldName (py! "Content-Type") = .ok (toInts [0x84]) := rfl
    simp only [hx, hn, encodeCtPair, he, bind, Except.bind, flatten_ints, toOctets_ints h8, toOctets_ints (l := [0x84]) (by simp)]
    rfl
  · intro rest
    refine decodeHeader_field (n := 4) (ty := .contentTypeValue) (by decide) rfl ?_
    show (do let (m, p) ← decodeContentTypeValue; pure (HVal.ct m p) : D HVal) _ = _
    rw [M.bind_ok (hd rest)]
    rfl

end Verif.Mms

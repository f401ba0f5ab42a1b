import Verif.Spec.Determined
import Verif.Spec.Names
import Verif.Proofs.MmsEnc3
/-!
# Lemmas: the octets of the parts of a message determine them
-/
set_option autoImplicit false

namespace Verif.Mms
open Verif.Spec.Wsp Verif.Spec.Mms Verif.Spec.MmsEnc Verif.Spec.Determined

/-- text up to the first NUL -/
theorem closed_split {s t a b : List Nat} (hs : 0 ∉ s) (ht : 0 ∉ t) (h : s ++ 0 :: a = t ++ 0 :: b) : s = t ∧ a = b := by
  induction s generalizing t with
  | nil =>
    cases t with
    | nil => exact ⟨rfl, List.tail_eq_of_cons_eq h⟩
    | cons c t => injection h with h1 _; exact absurd (by rw [h1]; simp) ht
  | cons c s ih =>
    cases t with
    | nil => injection h with h1 _; exact absurd (by rw [h1]; simp) hs
    | cons d t =>
      injection h with h1 h2
      obtain ⟨h3, h4⟩ := ih (fun h => hs (by simp [h])) (fun h => ht (by simp [h])) h2
      exact ⟨by rw [h1, h3], h4⟩

/-- the octets of a header of a part -/
inductive Wrote : List Nat → Str → HVal → Prop
  | app (n s : List Nat) (hn : IsToken n) (h : Closed s) : Wrote (n ++ 0 :: (s ++ [0])) n (.v (.str s))
  | numbered (i : Nat) (n s : List Nat) (hi : i ≠ 0) (hn : wspNames[i]? = some n) (h : Closed s) :
      Wrote ((0x80 + i) :: (s ++ [0])) n (.v (.str s))
  | accept (o s : List Nat) (hd : ∀ rest, decodeConstrainedMedia ⟨o ++ rest, 0⟩ = .ok s ⟨rest, 0⟩) :
      Wrote (0x80 :: o) (py! "Accept") (.v (.str s))

theorem wrote_ne {o : List Nat} {n : Str} {v : HVal} (h : Wrote o n v) : o ≠ [] := by
  cases h <;> simp

theorem token_starts {n : List Nat} (hn : IsToken n) : ∃ c r, n = c :: r ∧ c < 128 ∧ 0 ∉ n := by
  cases n with
  | nil => exact absurd rfl hn.1
  | cons c r =>
    refine ⟨c, r, rfl, ?_, ?_⟩
    · have := (isTokenChar_sep (hn.2 c (by simp))).2.2; omega
    · intro h
      have := (isTokenChar_sep (hn.2 0 h)).1
      omega

theorem wrote_unique {o1 o2 r1 r2 : List Nat} {n1 n2 : Str} {v1 v2 : HVal} (h1 : Wrote o1 n1 v1) (h2 : Wrote o2 n2 v2)
    (h : o1 ++ r1 = o2 ++ r2) : n1 = n2 ∧ v1 = v2 ∧ r1 = r2 := by
  cases h1 with
  | app _ s hn hs =>
    obtain ⟨c, r, rfl, hc, h0⟩ := token_starts hn
    cases h2 with
    | app _ t hm ht =>
      obtain ⟨_, _, _, _, g0⟩ := token_starts hm
      simp only [List.append_assoc, List.cons_append, List.nil_append] at h
      rw [← List.cons_append] at h
      obtain ⟨e1, e2⟩ := closed_split h0 g0 h
      obtain ⟨e3, e4⟩ := closed_split hs.1 ht.1 e2
      exact ⟨e1, by rw [e3], e4⟩
    | numbered i _ t hi hm ht => injection h with h _; omega
    | accept o t hd => injection h with h _; omega
  | numbered i _ s hi hn hs =>
    cases h2 with
    | app _ t hm ht =>
      obtain ⟨c, r, rfl, hc, h0⟩ := token_starts hm
      injection h with h _; omega
    | numbered j _ t hj hm ht =>
      simp only [List.append_assoc, List.cons_append, List.nil_append] at h
      injection h with e1 e2
      have : i = j := by omega
      subst this
      rw [hn] at hm
      injection hm with hm
      obtain ⟨e3, e4⟩ := closed_split hs.1 ht.1 e2
      exact ⟨hm, by rw [e3], e4⟩
    | accept o t hd => injection h with h _; omega
  | accept o s hd =>
    cases h2 with
    | app _ t hm ht =>
      obtain ⟨c, r, rfl, hc, h0⟩ := token_starts hm
      injection h with h _; omega
    | numbered i _ t hi hm ht => injection h with h _; omega
    | accept o' t hd' =>
      injection h with _ h
      have e1 := hd r1
      have h : o ++ r1 = o' ++ r2 := h
      rw [h, hd' r2] at e1
      injection e1 with e1 e2
      injection e2 with e2
      exact ⟨rfl, by rw [e1], e2.symm⟩

theorem accept_first : ∀ n ∈ wspNames, n ≠ py! "Accept" → ∃ i ∈ List.range 128, indexOf wspNames n = some i ∧ i ≠ 0 := by
  decide +kernel

theorem written_ok {n : Str} {v : HVal} (h : Written n v) : ∃ o : List Nat, encodeWspHeader n v = .ok (ints (toInts o)) ∧
    Wrote o n v ∧ ∀ x ∈ o, x < 256 := by
  cases h with
  | app n s hn hw hu =>
    refine ⟨_, wspHeader_app hn hw, .app _ _ hn hu, ?_⟩
    intro x hx
    simp only [List.mem_append, List.mem_cons, List.mem_nil_iff, or_false] at hx
    rcases hx with h | h | h | h
    · have := (isTokenChar_sep (hn.2 x h)).2.2; omega
    · omega
    · exact hu.2 x h
    · omega
  | numbered n s hn h1 h2 hu =>
    obtain ⟨i, hi, hx, h0⟩ := accept_first n hn h1
    have hi : i < 128 := List.mem_range.1 hi
    refine ⟨(0x80 + i) :: (s ++ [0]), ?_, .numbered i n s h0 (indexOf_get hx) hu, ?_⟩
    · unfold encodeWspHeader
      simp only [names12, hx, encodeShortInteger_nat (n := i) (by omega), encodeWapValue, if_neg h1, if_neg h2,
        encodeTextH_str, bind, Except.bind]
      rw [← ints_append, ← toInts_append]
      rfl
    · intro x hx
      simp only [List.mem_append, List.mem_cons, List.mem_nil_iff, or_false] at hx
      rcases hx with h | h | h
      · omega
      · exact hu.2 x h
      · omega
  | accept s hs =>
    obtain ⟨o, _, h8, he, hd⟩ := accept_sent hs
    have hi : indexOf wspNames (py! "Accept") = some 0 := rfl
    refine ⟨0x80 :: o, ?_, .accept o s hd, ?_⟩
    · unfold encodeWspHeader
      simp only [names12, hi, encodeShortInteger_nat (n := 0) (by decide), encodeWapValue, if_true, encodeAcceptValue, he,
        bind, Except.bind]
      rw [← ints_append, ← toInts_append]
      rfl
    · intro x hx
      rcases List.mem_cons.1 hx with h | h
      · omega
      · exact h8 x h

/-- the encoded headers of a part -/
theorem encodePartHeaders_written {d : Dict HVal} (h : ∀ e ∈ d, e.1 ≠ CT → Written e.1 e.2) :
    ∃ os : List (List Nat × Str × HVal), encodePartHeaders d = .ok (ints (toInts (os.flatMap (fun e => e.1)))) ∧
      os.map (fun e => e.2) = d.filter (fun e => e.1 ≠ CT) ∧ ∀ e ∈ os, Wrote e.1 e.2.1 e.2.2 ∧ ∀ x ∈ e.1, x < 256 := by
  induction d with
  | nil => exact ⟨[], rfl, rfl, fun _ h => (by cases h)⟩
  | cons x r ih =>
    obtain ⟨k, v⟩ := x
    obtain ⟨os, h1, h2, h3⟩ := ih (fun e he => h e (List.mem_cons_of_mem _ he))
    simp only [encodePartHeaders]
    by_cases hk : k = py! "Content-Type"
    · rw [if_pos hk]
      have hf : List.filter (fun e : Str × HVal => decide (e.1 ≠ CT)) ((k, v) :: r)
          = r.filter (fun e => decide (e.1 ≠ CT)) := by
        rw [List.filter_cons_of_neg]; simp [hk, CT]
      rw [hf]
      exact ⟨os, h1, h2, h3⟩
    · obtain ⟨o, e1, e2, e3⟩ := written_ok (h (k, v) (List.mem_cons_self ..) hk)
      rw [if_neg hk]
      have hf : List.filter (fun e : Str × HVal => decide (e.1 ≠ CT)) ((k, v) :: r)
          = (k, v) :: r.filter (fun e => decide (e.1 ≠ CT)) := by
        rw [List.filter_cons_of_pos]; simp [hk, CT]
      rw [hf]
      refine ⟨(o, k, v) :: os, ?_, ?_, ?_⟩
      · simp only [e1, h1, bind, Except.bind, List.flatMap_cons]
        rw [← ints_append, ← toInts_append]
      · rw [List.map_cons, h2]
      · intro e he
        rcases List.mem_cons.1 he with rfl | he
        · exact ⟨e2, e3⟩
        · exact h3 e he

theorem wrote_all_unique {os1 os2 : List (List Nat × Str × HVal)} (h1 : ∀ e ∈ os1, Wrote e.1 e.2.1 e.2.2)
    (h2 : ∀ e ∈ os2, Wrote e.1 e.2.1 e.2.2) (h : os1.flatMap (fun e => e.1) = os2.flatMap (fun e => e.1)) :
    os1.map (fun e => e.2) = os2.map (fun e => e.2) := by
  induction os1 generalizing os2 with
  | nil =>
    cases os2 with
    | nil => rfl
    | cons e os2 =>
      have := wrote_ne (h2 e (by simp))
      rw [List.flatMap_nil, List.flatMap_cons] at h
      exact absurd (List.append_eq_nil_iff.1 h.symm).1 this
  | cons e os1 ih =>
    cases os2 with
    | nil =>
      have := wrote_ne (h1 e (by simp))
      rw [List.flatMap_nil, List.flatMap_cons] at h
      exact absurd (List.append_eq_nil_iff.1 h).1 this
    | cons f os2 =>
      rw [List.flatMap_cons, List.flatMap_cons] at h
      obtain ⟨e1, e2, e3⟩ := wrote_unique (h1 e (by simp)) (h2 f (by simp)) h
      rw [List.map_cons, List.map_cons, ih (fun x hx => h1 x (by simp [hx])) (fun x hx => h2 x (by simp [hx])) e3]
      congr 1
      exact Prod.ext e1 e2

/-- what is sent for a part that is written down -/
theorem writtenPart_ok {env : Env} {ord : Dict HVal → Dict HVal} (ho : ∀ d, (ord d).Perm d) {p : DataPart}
    (h : WrittenPart env p) : ∃ (media data ct : List Nat) (os : List (List Nat × Str × HVal)),
      p.readData env = .ok data ∧ p.headers.get CT = some (.ct media []) ∧
      (∀ rest, decodeContentTypeValue ⟨ct ++ rest, 0⟩ = .ok (media, []) ⟨rest, 0⟩) ∧
      (∀ e ∈ os, Wrote e.1 e.2.1 e.2.2) ∧
      (∀ n, n ≠ CT → Dict.get (os.map (fun e => e.2)) n = p.headers.get n) ∧
      encodePart env ord p = .ok (uintvar (ct ++ os.flatMap (fun e => e.1)).length ++ uintvar data.length ++
        (ct ++ os.flatMap (fun e => e.1)) ++ data) := by
  obtain ⟨media, hct, hm⟩ := h.ct
  obtain ⟨data, hd, hl⟩ := h.data
  obtain ⟨ct, _, _, c3, c4, c5⟩ := sends_ok hm
  have hok : (ord p.headers).Ok := ((ho _).map Prod.fst).nodup_iff.2 h.keys
  have hog : ∀ n, (ord p.headers).get n = p.headers.get n := Dict.get_perm (ho _) hok
  obtain ⟨os, e1, e2, e3⟩ := encodePartHeaders_written (d := ord p.headers) (by
    rintro ⟨n, v⟩ hmem hn
    have := hok.get hmem
    rw [hog] at this
    exact h.headers n v this hn)
  refine ⟨media, data, ct, os, hd, hct, c5, fun e he => (e3 e he).1, fun n hn => ?_,
    encodePart_eq hct c4 c3 e1 ?_ hd hl⟩
  · rw [e2]
    have := Dict.get_filter (ord p.headers) (fun k => decide (k ≠ CT)) n
    rw [this, if_pos (by simpa using hn), hog]
  · intro x hx
    obtain ⟨e, he, hx⟩ := List.mem_flatMap.1 hx
    exact (e3 e he).2 x hx

/-- the same data, and all headers the same -/
def PartEq (env1 env2 : Env) (p1 p2 : DataPart) : Prop :=
  (∃ data, p1.readData env1 = .ok data ∧ p2.readData env2 = .ok data) ∧ ∀ n, p1.headers.get n = p2.headers.get n

theorem uintvar_unique {a b : Nat} {r s : List Nat} (h : uintvar a ++ r = uintvar b ++ s) : a = b ∧ r = s := by
  have e1 := decodeUintVar_uintvar a r 0
  rw [h, decodeUintVar_uintvar] at e1
  injection e1 with e1 e2
  injection e2 with e2
  exact ⟨e1.symm, e2.symm⟩

theorem writtenPart_unique {env1 env2 : Env} {ord1 ord2 : Dict HVal → Dict HVal} (ho1 : ∀ d, (ord1 d).Perm d)
    (ho2 : ∀ d, (ord2 d).Perm d) {p1 p2 : DataPart} (h1 : WrittenPart env1 p1) (h2 : WrittenPart env2 p2)
    {o1 o2 r1 r2 : List Nat} (g1 : encodePart env1 ord1 p1 = .ok o1) (g2 : encodePart env2 ord2 p2 = .ok o2)
    (h : o1 ++ r1 = o2 ++ r2) : PartEq env1 env2 p1 p2 ∧ r1 = r2 := by
  obtain ⟨m1, d1, c1, os1, a1, a2, a3, a4, a5, a6⟩ := writtenPart_ok ho1 h1
  obtain ⟨m2, d2, c2, os2, b1, b2, b3, b4, b5, b6⟩ := writtenPart_ok ho2 h2
  rw [g1] at a6
  rw [g2] at b6
  injection a6 with a6
  injection b6 with b6
  subst a6 b6
  have hx : ∀ a b c d e : List Nat, a ++ b ++ c ++ d ++ e = a ++ (b ++ (c ++ (d ++ e))) := fun a b c d e => by
    simp only [List.append_assoc]
  rw [hx, hx] at h
  obtain ⟨e1, h⟩ := uintvar_unique h
  obtain ⟨e2, h⟩ := uintvar_unique h
  obtain ⟨e3, h⟩ := List.append_inj h e1
  obtain ⟨e4, h⟩ := List.append_inj h e2
  have e5 := a3 (os1.flatMap (fun e => e.1))
  rw [e3, b3] at e5
  injection e5 with e5 e6
  injection e5 with e5 _
  injection e6 with e6
  subst e5
  have e7 := wrote_all_unique a4 b4 e6.symm
  refine ⟨⟨⟨d1, a1, e4 ▸ b1⟩, fun n => ?_⟩, h⟩
  by_cases hn : n = CT
  · rw [hn, a2, b2]
  · rw [← a5 n hn, ← b5 n hn, e7]

theorem encodePart_ne {env : Env} {ord : Dict HVal → Dict HVal} (ho : ∀ d, (ord d).Perm d) {p : DataPart}
    (h : WrittenPart env p) {o : List Nat} (g : encodePart env ord p = .ok o) : o ≠ [] := by
  obtain ⟨m1, d1, c1, os1, _, _, _, _, _, a6⟩ := writtenPart_ok ho h
  rw [g] at a6
  injection a6 with a6
  subst a6
  simp [uintvar_ne_nil]

theorem bind_ok_py {α β : Type} {x : Py α} {f : α → Py β} {b : β} (h : (x >>= f) = .ok b) : ∃ a, x = .ok a ∧ f a = .ok b := by
  cases x with
  | error e => cases h
  | ok a => exact ⟨a, rfl, h⟩

theorem encodeParts_cons {env : Env} {ord : Dict HVal → Dict HVal} {p : DataPart} {ps : List DataPart} {o : List Nat}
    (h : encodeParts env ord (p :: ps) = .ok o) :
    ∃ a b, encodePart env ord p = .ok a ∧ encodeParts env ord ps = .ok b ∧ o = a ++ b := by
  rw [encodeParts] at h
  obtain ⟨a, h1, h⟩ := bind_ok_py h
  obtain ⟨b, h2, h⟩ := bind_ok_py h
  injection h with h
  exact ⟨a, b, h1, h2, h.symm⟩

theorem writtenParts_unique {env1 env2 : Env} {ord1 ord2 : Dict HVal → Dict HVal} (ho1 : ∀ d, (ord1 d).Perm d)
    (ho2 : ∀ d, (ord2 d).Perm d) {ps1 ps2 : List DataPart} (h1 : ∀ p ∈ ps1, WrittenPart env1 p)
    (h2 : ∀ p ∈ ps2, WrittenPart env2 p) {o : List Nat} (g1 : encodeParts env1 ord1 ps1 = .ok o)
    (g2 : encodeParts env2 ord2 ps2 = .ok o) : List.Forall₂ (PartEq env1 env2) ps1 ps2 := by
  induction ps1 generalizing ps2 o with
  | nil =>
    cases ps2 with
    | nil => exact .nil
    | cons p ps2 =>
      obtain ⟨a, b, e1, _, e3⟩ := encodeParts_cons g2
      injection g1 with g1
      subst g1
      exact absurd (List.append_eq_nil_iff.1 e3.symm).1 (encodePart_ne ho2 (h2 p (by simp)) e1)
  | cons p ps1 ih =>
    obtain ⟨a, b, e1, e2, e3⟩ := encodeParts_cons g1
    cases ps2 with
    | nil =>
      injection g2 with g2
      subst g2
      exact absurd (List.append_eq_nil_iff.1 e3.symm).1 (encodePart_ne ho1 (h1 p (by simp)) e1)
    | cons q ps2 =>
      obtain ⟨a', b', f1, f2, f3⟩ := encodeParts_cons g2
      obtain ⟨e, hb⟩ := writtenPart_unique ho1 ho2 (h1 p (by simp)) (h2 q (by simp)) e1 f1 (e3.symm.trans f3)
      exact .cons e (ih (fun x hx => h1 x (by simp [hx])) (fun x hx => h2 x (by simp [hx])) e2 (hb ▸ f2))

/-- what is sent as the body of a message -/
theorem body_parts {env : Env} {ord : Dict HVal → Dict HVal} {m : Msg} {b : List Nat} (h : encodeMessageBody env ord m = .ok b) :
    ∃ smil c, m.smil env = .ok smil ∧ encodeParts env ord (smilPart smil :: slideParts m.pages) = .ok c ∧
      b = uintvar (numEntries m) ++ c := by
  unfold encodeMessageBody at h
  have hu : toOctets (ints (encodeUintVar (numEntries m : Int))) = .ok (uintvar (numEntries m)) := by
    have := toOctets_ints (uintvar_lt (numEntries m))
    unfold toInts at this
    rw [encodeUintVar_eq, this]
  rw [hu] at h
  obtain ⟨a, h1, h⟩ := bind_ok_py h
  injection h1 with h1
  obtain ⟨smil, h2, h⟩ := bind_ok_py h
  obtain ⟨c, h3, h⟩ := bind_ok_py h
  injection h with h
  exact ⟨smil, c, h2, h3, by rw [← h, h1]⟩

theorem smilPart_written (env : Env) (smil : Str) : WrittenPart env (smilPart smil) where
  keys := (by decide : [CT, py! "Content-ID"].Nodup)
  ct := ⟨_, rfl, ⟨by decide, 97, rfl, by decide, by decide⟩, by decide⟩
  headers := by
    intro n v h hn
    have : (n, v) ∈ (smilPart smil).headers := Dict.mem_of_get h
    simp only [smilPart, List.mem_cons, List.not_mem_nil, or_false] at this
    rcases this with h | h
    · injection h with h _; exact absurd h hn
    · injection h with h1 h2
      subst h1 h2
      exact .app _ _ (by unfold IsToken; decide) (by decide) (by unfold Closed; decide)
  data := ⟨smil, rfl, rfl⟩

end Verif.Mms

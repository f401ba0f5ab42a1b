import Verif.Proofs.Deliver4
import Mathlib.Data.List.Induction
/-!
# Time stamps as text; user data headers
-/
set_option autoImplicit false

namespace Verif.Deliver
open Verif.Spec Verif.Spec.Sms Verif.Spec.Time

theorem hexDig_dec {n : Nat} (h : n < 10) : hexDig n = 48 + n := by
  unfold hexDig; rw [if_pos h]

theorem semi_dd {x n : Nat} (h : semi x = some n) : dd n = [hexDig (x % 16), hexDig (x / 16)] ∧ n < 100 := by
  unfold semi at h
  split at h
  · rename_i hx
    cases h
    rw [hexDig_dec hx.1, hexDig_dec hx.2, dd]
    refine ⟨?_, by omega⟩
    have key : ∀ a b : Nat, a < 10 → b < 10 → (a * 10 + b) / 10 % 10 = a ∧ (a * 10 + b) % 10 = b := by
      intro a b _ _; omega
    rw [(key _ _ hx.1 hx.2).1, (key _ _ hx.1 hx.2).2]
  · cases h

theorem century_dd (yy : Nat) : dd (century yy) = dd yy := by
  unfold century dd
  split <;> (congr 1 <;> [omega; (congr 1; omega)])

theorem fmtStamp_civil {o : List Nat} (h : ∀ x ∈ o, x < 256) {c : Civil} (hc : readCivil o = some c) :
    fmtStamp ((swapPairs (encodeStr o)).take 12) = stampText c := by
  unfold readCivil at hc
  split at hc
  · rename_i a b c' d e f r
    split at hc
    · rename_i yy mo dy hh mi ss h1 h2 h3 h4 h5 h6
      split at hc
      · cases hc
        rw [swap_octet' h, stampText, century_dd, (semi_dd h1).1, (semi_dd h2).1, (semi_dd h3).1, (semi_dd h4).1,
          (semi_dd h5).1, (semi_dd h6).1]
        rfl
      · cases hc
    · cases hc
  · cases hc
where
  swap_octet' {a b c d e f : Nat} {r : List Nat} (h : ∀ x ∈ a :: b :: c :: d :: e :: f :: r, x < 256) :
      (swapPairs (encodeStr (a :: b :: c :: d :: e :: f :: r))).take 12 =
      [hexDig (a % 16), hexDig (a / 16), hexDig (b % 16), hexDig (b / 16), hexDig (c % 16), hexDig (c / 16),
       hexDig (d % 16), hexDig (d / 16), hexDig (e % 16), hexDig (e / 16), hexDig (f % 16), hexDig (f / 16)] := by
    rw [Cal.swap_octet (h a (by simp)), Cal.swap_octet (h b (by simp)), Cal.swap_octet (h c (by simp)),
      Cal.swap_octet (h d (by simp)), Cal.swap_octet (h e (by simp)), Cal.swap_octet (h f (by simp))]
    rfl

theorem stampP_eq {o : List Nat} (h : ∀ x ∈ o, x < 256) :
    stampP o = ((readCivil (o.take 7)).map Cal.ofCivil, match readCivil (o.take 7) with
      | some c => stampText c
      | none => []) := by
  have h7 : ∀ x ∈ o.take 7, x < 256 := fun x hx => h x (List.mem_of_mem_take hx)
  unfold stampP
  obtain ⟨h1, h2⟩ := Cal.strptime_octets h7
  cases hc : readCivil (o.take 7) with
  | some c => rw [h1 c hc, fmtStamp_civil h7 hc]; rfl
  | none =>
    obtain ⟨e, he, _⟩ := h2 hc
    rw [he]; rfl

/-! ## User data headers -/

/-- effect of one well-formed element -/
def ieStep (u : Udh.UserDataHeader) (e : Element) : Udh.UserDataHeader :=
  { headers := Udh.dictSet u.headers e.id e.payload
    concat := match concatOf [e] with | some (r, n, i, b) => some ⟨r, n, i, b⟩ | none => u.concat
    ports := match portsOf [e] with | some (d, o, _) => some ⟨d, o, false⟩ | none => u.ports }

theorem shl8_or {a b : Nat} (hb : b < 256) : a <<< 8 ||| b = 256 * a + b := by
  rw [← Nat.shiftLeft_add_eq_or_of_lt (by exact hb), Nat.shiftLeft_eq]; omega

theorem applyIe_ok (u : Udh.UserDataHeader) {e : Element} (h : e.Ok) (hb : ∀ x ∈ e.payload, x < 256) :
    Udh.applyIe u e.id e.payload = .ok (ieStep u e) := by
  obtain ⟨id, p⟩ := e
  obtain ⟨h0, h8, h4, h5⟩ := h
  simp only at h0 h8 h4 h5 hb
  by_cases e0 : id = 0
  · subst e0
    match p, h0 rfl with
    | [a, b, c], _ => rfl
  by_cases e8 : id = 8
  · subst e8
    match p, h8 rfl, hb with
    | [a, b, c, d], _, hb =>
      simp [Udh.applyIe, ieStep, concatOf, portsOf, pyIdx, bind, Except.bind, shl8_or (hb b (by simp))]
  by_cases e4 : id = 4
  · subst e4
    match p, h4 rfl with
    | [a, b], _ => rfl
  by_cases e5 : id = 5
  · subst e5
    match p, h5 rfl, hb with
    | [a, b, c, d], _, hb =>
      simp [Udh.applyIe, ieStep, concatOf, portsOf, pyIdx, bind, Except.bind, shl8_or (hb b (by simp)),
        shl8_or (hb d (by simp))]
  simp [Udh.applyIe, ieStep, concatOf, portsOf, e0, e8, e4, e5, bind, Except.bind]

theorem fromBytesLoop_els : ∀ (els : List Element) (fuel : Nat) (u : Udh.UserDataHeader) (rest : List Nat),
    (∀ e ∈ els, e.Ok) → (∀ e ∈ els, ∀ x ∈ e.payload, x < 256) → (elementOctets els ++ rest).length ≤ fuel →
    ∃ fuel', rest.length ≤ fuel' ∧
      Udh.fromBytesLoop fuel u (elementOctets els ++ rest) = Udh.fromBytesLoop fuel' (els.foldl ieStep u) rest
  | [], fuel, u, rest, _, _, hl => ⟨fuel, by simpa [elementOctets] using hl, rfl⟩
  | e :: els, 0, u, rest, _, _, hl => by simp [elementOctets] at hl
  | e :: els, fuel + 1, u, rest, h, hb, hl => by
    have hcons : elementOctets (e :: els) ++ rest = e.id :: e.payload.length :: (e.payload ++ (elementOctets els ++ rest)) := by
      simp [elementOctets]
    rw [hcons] at hl ⊢
    obtain ⟨fuel', h1, h2⟩ := fromBytesLoop_els els fuel (ieStep u e) rest (fun x hx => h x (by simp [hx]))
      (fun x hx => hb x (by simp [hx])) (by simp only [List.length_cons, List.length_append] at hl ⊢; omega)
    refine ⟨fuel', h1, ?_⟩
    rw [Udh.fromBytesLoop, List.take_left', List.drop_left', applyIe_ok u (h e (by simp)) (hb e (by simp))]
    · exact h2
    · rfl
    · rfl

theorem lookup_dictSet (d : List (Nat × List Nat)) (k : Nat) (v : List Nat) (k' : Nat) :
    (Udh.dictSet d k v).lookup k' = if k' = k then some v else d.lookup k' := by
  induction d with
  | nil =>
    by_cases h : k' = k
    · subst h; simp [Udh.dictSet]
    · have : (k' == k) = false := by simpa using h
      simp [Udh.dictSet, List.lookup, h, this]
  | cons x d ih =>
    obtain ⟨a, w⟩ := x
    unfold Udh.dictSet
    by_cases ha : a = k
    · rw [if_pos ha]
      subst ha
      by_cases h : k' = a
      · subst h; simp [List.lookup]
      · have : (k' == a) = false := by simpa using h
        simp [List.lookup, h, this]
    · rw [if_neg ha]
      by_cases h : k' = a
      · subst h; simp [List.lookup, ha]
      · have : (k' == a) = false := by simpa using h
        simp only [List.lookup, this, ih]

theorem keys_dictSet (d : List (Nat × List Nat)) (k : Nat) (v : List Nat) :
    ∀ x, x ∈ (Udh.dictSet d k v).map Prod.fst ↔ x = k ∨ x ∈ d.map Prod.fst := by
  induction d with
  | nil => simp [Udh.dictSet]
  | cons y d ih =>
    intro x
    obtain ⟨a, w⟩ := y
    unfold Udh.dictSet
    split
    · rename_i h; subst h
      simp
    · simp only [List.map_cons, List.mem_cons, ih x]
      tauto

theorem nodup_dictSet (d : List (Nat × List Nat)) (k : Nat) (v : List Nat) (h : (d.map Prod.fst).Nodup) :
    ((Udh.dictSet d k v).map Prod.fst).Nodup := by
  induction d with
  | nil => simp [Udh.dictSet]
  | cons y d ih =>
    obtain ⟨a, w⟩ := y
    simp only [List.map_cons, List.nodup_cons] at h
    unfold Udh.dictSet
    split
    · rename_i hk; subst hk
      simpa using h
    · rename_i hk
      simp only [List.map_cons, List.nodup_cons, keys_dictSet]
      exact ⟨by rintro (h' | h'); exacts [hk h', h.1 h'], ih h.2⟩

theorem concatOf_snoc (els : List Element) (e : Element) :
    concatOf (els ++ [e]) = if e.id = 0 ∨ e.id = 8 then concatOf [e] else concatOf els := by
  unfold concatOf
  rw [List.reverse_append, List.reverse_singleton, List.singleton_append, List.find?_cons]
  by_cases h : e.id = 0 ∨ e.id = 8
  · rw [if_pos h]; simp [h]
  · rw [if_neg h]; simp [h]

theorem portsOf_snoc (els : List Element) (e : Element) :
    portsOf (els ++ [e]) = if e.id = 4 ∨ e.id = 5 then portsOf [e] else portsOf els := by
  unfold portsOf
  rw [List.reverse_append, List.reverse_singleton, List.singleton_append, List.find?_cons]
  by_cases h : e.id = 4 ∨ e.id = 5
  · rw [if_pos h]; simp [h]
  · rw [if_neg h]; simp [h]

theorem payloadOf_snoc (els : List Element) (e : Element) (k : Nat) :
    payloadOf (els ++ [e]) k = if k = e.id then some e.payload else payloadOf els k := by
  unfold payloadOf
  rw [List.reverse_append, List.reverse_singleton, List.singleton_append, List.find?_cons]
  by_cases h : k = e.id
  · rw [if_pos h]; simp [h]
  · rw [if_neg h]
    have : ¬ e.id = k := fun h' => h h'.symm
    simp [this]

theorem concatOf_single {e : Element} (h : e.Ok) : (concatOf [e] = none ↔ ¬ (e.id = 0 ∨ e.id = 8)) := by
  obtain ⟨id, p⟩ := e
  obtain ⟨h0, h8, h4, h5⟩ := h
  simp only at h0 h8
  constructor
  · rintro hn (rfl | rfl)
    · match p, h0 rfl, hn with
      | [a, b, c], _, hn => cases hn
    · match p, h8 rfl, hn with
      | [a, b, c, d], _, hn => cases hn
  · intro hn
    simp only at hn
    simp [concatOf, hn]

theorem portsOf_single {e : Element} (h : e.Ok) : (portsOf [e] = none ↔ ¬ (e.id = 4 ∨ e.id = 5)) := by
  obtain ⟨id, p⟩ := e
  obtain ⟨h0, h8, h4, h5⟩ := h
  simp only at h4 h5
  constructor
  · rintro hn (rfl | rfl)
    · match p, h4 rfl, hn with
      | [a, b], _, hn => cases hn
    · match p, h5 rfl, hn with
      | [a, b, c, d], _, hn => cases hn
  · intro hn
    simp only at hn
    simp [portsOf, hn]

/-- all elements together -/
theorem foldl_ieStep (els : List Element) (h : ∀ e ∈ els, e.Ok) :
    let u := els.foldl ieStep Udh.UserDataHeader.empty
    (∀ k, u.headers.lookup k = payloadOf els k) ∧ (u.headers.map Prod.fst).Nodup ∧
    u.concat = (concatOf els).map (fun x => ⟨x.1, x.2.1, x.2.2.1, x.2.2.2⟩) ∧
    u.ports = (portsOf els).map (fun x => ⟨x.1, x.2.1, false⟩) := by
  induction els using List.reverseRecOn with
  | nil => exact ⟨fun k => rfl, List.nodup_nil, rfl, rfl⟩
  | append_singleton els e ih =>
    have he := h e (by simp)
    obtain ⟨i1, i2, i3, i4⟩ := ih fun x hx => h x (by simp [hx])
    simp only [List.foldl_append, List.foldl_cons, List.foldl_nil]
    refine ⟨fun k => ?_, nodup_dictSet _ _ _ i2, ?_, ?_⟩
    · rw [payloadOf_snoc, ← i1 k]
      exact lookup_dictSet _ _ _ _
    · rw [concatOf_snoc]
      simp only [ieStep]
      cases hc : concatOf [e] with
      | none => rw [if_neg ((concatOf_single he).1 hc)]; exact i3
      | some x =>
        rw [if_pos (by by_contra hn; rw [(concatOf_single he).2 hn] at hc; cases hc)]
        rfl
    · rw [portsOf_snoc]
      simp only [ieStep]
      cases hc : portsOf [e] with
      | none => rw [if_neg ((portsOf_single he).1 hc)]; exact i4
      | some x =>
        rw [if_pos (by by_contra hn; rw [(portsOf_single he).2 hn] at hc; cases hc)]
        rfl

theorem fromBytes_els (els : List Element) (rest : List Nat) (h : ∀ e ∈ els, e.Ok)
    (hb : ∀ e ∈ els, ∀ x ∈ e.payload, x < 256) : ∃ fuel, rest.length ≤ fuel ∧
      Udh.fromBytes (elementOctets els ++ rest) =
        Udh.fromBytesLoop fuel (els.foldl ieStep Udh.UserDataHeader.empty) rest :=
  fromBytesLoop_els els _ _ rest h hb (le_refl _)

end Verif.Deliver

import Verif.Model.UdhRepr
import Verif.Spec.UdhText
import Mathlib.Tactic.Push
/-!
# Printed headers: C110
-/
set_option autoImplicit false

namespace Verif.Props
open Verif.Udh Verif.Spec.UdhText
open Verif.Mms (natStr)

theorem octets_append_udh (a b : String) : octets (a ++ b) = octets a ++ octets b := by
  simp [octets]

theorem octets_nat (n : Nat) : octets (toString n) = natStr n := by
  induction n using Nat.strongRecOn with
  | _ n ih =>
    rw [natStr]
    split
    · next h =>
      simp only [octets, toString, Nat.toList_repr, Nat.toDigits_of_lt_base h, List.map_cons, List.map_nil]
      have : ∀ n : Fin 10, Char.toNat (Nat.digitChar n.val) = 48 + n.val := by decide
      rw [this ⟨n, h⟩]
    · next h =>
      have := ih (n / 10) (by omega)
      simp only [octets, toString, Nat.toList_repr] at this ⊢
      rw [Nat.toDigits_of_base_le (by omega) (by omega), List.map_append, this]
      have : ∀ n : Fin 10, Char.toNat (Nat.digitChar n.val) = 48 + n.val := by decide
      simp [this ⟨n % 10, by omega⟩]

theorem octets_commas : ∀ l : List String, octets (", ".intercalate l) = commas (l.map octets)
  | [] => by simp [octets, commas]
  | [a] => by simp [commas]
  | a :: b :: l => by
    rw [String.intercalate_cons_cons, octets_append_udh, octets_append_udh, octets_commas (b :: l)]
    rfl

theorem octets_array (a : List Nat) : octets (array a) = arrayRepr a := by
  unfold array arrayRepr
  by_cases h : a = []
  · subst h; rfl
  · rw [if_neg h, if_neg (by simpa using h)]
    show octets ("array('B', [" ++ ", ".intercalate (a.map toString) ++ "])") = _
    rw [octets_append_udh, octets_append_udh, octets_commas, List.map_map]
    have : (octets ∘ (toString : Nat → String)) = natStr := funext octets_nat
    rw [this]; rfl

/-- reference, number of parts and number of the part, as they are read by a program -/
def concatShown (u : UserDataHeader) : Option (Nat × Nat × Nat) := u.concat.map fun c => (c.ref, c.cnt, c.seq)

/-- the ports, as they are read by a program -/
def portsShown (u : UserDataHeader) : Option (Nat × Nat) := u.ports.map fun p => (p.destPort, p.origPort)

theorem octets_concat (u : UserDataHeader) :
    octets (concat (concatShown u)) = match u.concat with | some c => c.repr | none => py! "None" := by
  unfold concatShown
  cases u.concat with
  | none => rfl
  | some c =>
    show octets ("<ConcatReference ref: " ++ toString c.ref ++ " cnt: " ++ toString c.cnt ++ " seq: " ++ toString c.seq ++ ">") = _
    simp only [octets_append_udh, octets_nat]
    rfl

theorem octets_ports (u : UserDataHeader) :
    octets (ports (portsShown u)) = match u.ports with | some p => p.repr | none => py! "None" := by
  unfold portsShown
  cases u.ports with
  | none => rfl
  | some p =>
    show octets ("<PortAddress dest_port: " ++ toString p.destPort ++ " orig_port: " ++ toString p.origPort ++ ">") = _
    simp only [octets_append_udh, octets_nat]
    rfl

/-- C110: what is printed for a header, character by character -/
theorem C110_text (ord : List (Nat × List Nat) → List (Nat × List Nat)) (u : UserDataHeader) :
    u.repr ord = octets (header (ord u.headers) (concatShown u) (portsShown u)) := by
  have he : octets ∘ element = fun x : Nat × List Nat => natStr x.1 ++ py! ": " ++ arrayRepr x.2 := by
    funext e
    show octets (toString e.1 ++ ": " ++ array e.2) = _
    rw [octets_append_udh, octets_append_udh, octets_nat, octets_array]
    rfl
  unfold header UserDataHeader.repr dictRepr
  rw [octets_append_udh, octets_append_udh, octets_append_udh, octets_append_udh, octets_append_udh, octets_append_udh, octets_commas, List.map_map, he,
    octets_concat, octets_ports]
  show _ = _
  simp only [List.append_assoc]
  rfl

/-! ### Reading it back -/

theorem natStr_digits (n : Nat) : ∀ c ∈ natStr n, 48 ≤ c ∧ c ≤ 57 := by
  induction n using Nat.strongRecOn with
  | _ n ih =>
    rw [natStr]
    split
    · intro c hc; simp only [List.mem_singleton] at hc; omega
    · intro c hc
      rcases List.mem_append.1 hc with hc | hc
      · exact ih _ (by omega) c hc
      · simp only [List.mem_singleton] at hc; omega

theorem natStr_value (n : Nat) : (natStr n).foldl (fun a c => 10 * a + (c - 48)) 0 = n := by
  induction n using Nat.strongRecOn with
  | _ n ih =>
    rw [natStr]
    split
    · simp
    · rw [List.foldl_append, ih (n / 10) (by omega)]
      simp only [List.foldl_cons, List.foldl_nil]; omega

theorem takeWhile_digits {a r : Str} (ha : ∀ c ∈ a, 48 ≤ c ∧ c ≤ 57) (hr : ∀ c ∈ r.head?, ¬(48 ≤ c ∧ c ≤ 57)) :
    (a ++ r).takeWhile (fun c => decide (48 ≤ c ∧ c ≤ 57)) = a := by
  induction a with
  | nil =>
    cases r with
    | nil => rfl
    | cons c r => rw [List.nil_append, List.takeWhile_cons, if_neg (by simpa using hr c rfl)]
  | cons c a ih =>
    rw [List.cons_append, List.takeWhile_cons, if_pos (by simpa using ha c List.mem_cons_self),
      ih (fun x hx => ha x (List.mem_cons_of_mem _ hx))]

theorem natStr_cut {n m : Nat} {r r' : Str} (hr : ∀ c ∈ r.head?, ¬(48 ≤ c ∧ c ≤ 57)) (hr' : ∀ c ∈ r'.head?, ¬(48 ≤ c ∧ c ≤ 57))
    (h : natStr n ++ r = natStr m ++ r') : n = m ∧ r = r' := by
  have h1 := takeWhile_digits (natStr_digits n) hr
  rw [h, takeWhile_digits (natStr_digits m) hr'] at h1
  refine ⟨?_, ?_⟩
  · rw [← natStr_value n, ← natStr_value m, h1]
  · rw [h1] at h; exact List.append_cancel_left h

theorem commas_cut {α : Type} (f : α → Str) (z : Nat) (hz : z ≠ 44)
    (hf : ∀ a b r r', (∃ t, r = 44 :: t ∨ r = z :: t) → (∃ t, r' = 44 :: t ∨ r' = z :: t) → f a ++ r = f b ++ r' → a = b ∧ r = r')
    (hs : ∀ a r r', f a ++ r ≠ z :: r') :
    ∀ (l l' : List α) (r r' : Str), commas (l.map f) ++ z :: r = commas (l'.map f) ++ z :: r' → l = l' ∧ r = r'
  | [], [], r, r', h => by simpa [commas] using h
  | [], [b], r, r', h => absurd h.symm (hs b _ _)
  | [], b :: c :: l', r, r', h => by
    have : commas ((b :: c :: l').map f) = f b ++ (py! ", " ++ commas ((c :: l').map f)) := by
      simp [commas]
    rw [this, List.append_assoc] at h
    exact absurd h.symm (hs b _ _)
  | [a], [], r, r', h => absurd h (hs a _ _)
  | [a], [b], r, r', h => by
    obtain ⟨h1, h2⟩ := hf a b _ _ ⟨_, .inr rfl⟩ ⟨_, .inr rfl⟩ h
    exact ⟨by rw [h1], by simpa using h2⟩
  | [a], b :: c :: l', r, r', h => by
    have : commas ((b :: c :: l').map f) = f b ++ (py! ", " ++ commas ((c :: l').map f)) := by
      simp [commas]
    rw [this, List.append_assoc] at h
    obtain ⟨_, h2⟩ := hf a b _ _ ⟨_, .inr rfl⟩ ⟨_, .inl rfl⟩ h
    injection h2 with h2; exact absurd h2 hz
  | a :: c :: l, [], r, r', h => by
    have : commas ((a :: c :: l).map f) = f a ++ (py! ", " ++ commas ((c :: l).map f)) := by
      simp [commas]
    rw [this, List.append_assoc] at h
    exact absurd h (hs a _ _)
  | a :: c :: l, [b], r, r', h => by
    have : commas ((a :: c :: l).map f) = f a ++ (py! ", " ++ commas ((c :: l).map f)) := by
      simp [commas]
    rw [this, List.append_assoc] at h
    obtain ⟨_, h2⟩ := hf a b _ _ ⟨_, .inl rfl⟩ ⟨_, .inr rfl⟩ h
    injection h2 with h2; exact absurd h2.symm hz
  | a :: c :: l, b :: d :: l', r, r', h => by
    have e1 : commas ((a :: c :: l).map f) = f a ++ (py! ", " ++ commas ((c :: l).map f)) := by
      simp [commas]
    have e2 : commas ((b :: d :: l').map f) = f b ++ (py! ", " ++ commas ((d :: l').map f)) := by
      simp [commas]
    rw [e1, e2] at h
    simp only [List.append_assoc] at h
    obtain ⟨h1, h2⟩ := hf a b _ _ ⟨_, .inl rfl⟩ ⟨_, .inl rfl⟩ h
    obtain ⟨h3, h4⟩ := commas_cut f z hz hf hs (c :: l) (d :: l') r r' (List.append_cancel_left (as := py! ", ") h2)
    exact ⟨by rw [h1, h3], h4⟩

theorem natStr_cons (n : Nat) : ∃ c t, natStr n = c :: t ∧ 48 ≤ c ∧ c ≤ 57 := by
  cases h : natStr n with
  | nil => rw [natStr] at h; split at h <;> simp at h
  | cons c t => exact ⟨c, t, rfl, natStr_digits n c (by rw [h]; exact List.mem_cons_self)⟩

theorem arrayRepr_cut {a b : List Nat} {r r' : Str} (h : arrayRepr a ++ r = arrayRepr b ++ r') : a = b ∧ r = r' := by
  have key : ∀ (a b : List Nat) (r r' : Str), commas (a.map natStr) ++ 93 :: r = commas (b.map natStr) ++ 93 :: r' → a = b ∧ r = r' := by
    refine commas_cut natStr 93 (by decide) ?_ ?_
    · intro a b r r' h1 h2 h
      refine natStr_cut ?_ ?_ h
      · obtain ⟨t, rfl | rfl⟩ := h1 <;> intro c hc <;> simp at hc <;> omega
      · obtain ⟨t, rfl | rfl⟩ := h2 <;> intro c hc <;> simp at hc <;> omega
    · intro a r r' h
      obtain ⟨c, t, e, h1⟩ := natStr_cons a
      rw [e, List.cons_append] at h
      injection h with h; omega
  unfold arrayRepr at h
  by_cases ha : a = [] <;> by_cases hb : b = []
  · subst ha hb; simpa using h
  · subst ha; rw [if_pos (show ([] : List Nat).isEmpty = true from rfl), if_neg (by simpa using hb)] at h; simp at h
  · subst hb; rw [if_neg (by simpa using ha), if_pos (show ([] : List Nat).isEmpty = true from rfl)] at h; simp at h
  · rw [if_neg (by simpa using ha), if_neg (by simpa using hb)] at h
    simp only [List.append_assoc] at h
    obtain ⟨h1, h2⟩ := key a b (41 :: r) (41 :: r') (List.append_cancel_left h)
    exact ⟨h1, by simpa using h2⟩

theorem dictRepr_cut {a b : List (Nat × List Nat)} {r r' : Str} (h : dictRepr a ++ r = dictRepr b ++ r') : a = b ∧ r = r' := by
  unfold dictRepr at h
  rw [List.append_assoc, List.append_assoc, List.append_assoc, List.append_assoc] at h
  refine commas_cut (fun x : Nat × List Nat => natStr x.1 ++ py! ": " ++ arrayRepr x.2) 125 (by decide) ?_ ?_ a b r r'
    (List.append_cancel_left h)
  · intro a b r r' _ _ h
    simp only [List.append_assoc] at h
    obtain ⟨h1, h2⟩ := natStr_cut (by intro c hc; simp at hc; omega) (by intro c hc; simp at hc; omega) h
    obtain ⟨h3, h4⟩ := arrayRepr_cut (List.append_cancel_left h2)
    exact ⟨Prod.ext h1 h3, h4⟩
  · intro a r r' h
    obtain ⟨c, t, e, h1⟩ := natStr_cons a.1
    rw [e, List.cons_append, List.cons_append, List.cons_append] at h
    injection h with h; omega

theorem concat_cut {u v : UserDataHeader} {r r' : Str}
    (h : (match u.concat with | some c => c.repr | none => py! "None") ++ r =
      (match v.concat with | some c => c.repr | none => py! "None") ++ r') : concatShown u = concatShown v ∧ r = r' := by
  unfold concatShown
  cases hu : u.concat <;> cases hv : v.concat <;> rw [hu, hv] at h <;> simp only [ConcatReference.repr, List.append_assoc] at h
  · exact ⟨rfl, by simpa using h⟩
  · simp at h
  · simp at h
  · obtain ⟨h1, h⟩ := natStr_cut (by intro c hc; simp at hc; omega) (by intro c hc; simp at hc; omega) (List.append_cancel_left h)
    obtain ⟨h2, h⟩ := natStr_cut (by intro c hc; simp at hc; omega) (by intro c hc; simp at hc; omega) (List.append_cancel_left h)
    obtain ⟨h3, h⟩ := natStr_cut (by intro c hc; simp at hc; omega) (by intro c hc; simp at hc; omega) (List.append_cancel_left h)
    exact ⟨by simp [h1, h2, h3], by simpa using h⟩

theorem ports_cut {u v : UserDataHeader} {r r' : Str}
    (h : (match u.ports with | some c => c.repr | none => py! "None") ++ r =
      (match v.ports with | some c => c.repr | none => py! "None") ++ r') : portsShown u = portsShown v ∧ r = r' := by
  unfold portsShown
  cases hu : u.ports <;> cases hv : v.ports <;> rw [hu, hv] at h <;> simp only [PortAddress.repr, List.append_assoc] at h
  · exact ⟨rfl, by simpa using h⟩
  · simp at h
  · simp at h
  · obtain ⟨h1, h⟩ := natStr_cut (by intro c hc; simp at hc; omega) (by intro c hc; simp at hc; omega) (List.append_cancel_left h)
    obtain ⟨h2, h⟩ := natStr_cut (by intro c hc; simp at hc; omega) (by intro c hc; simp at hc; omega) (List.append_cancel_left h)
    exact ⟨by simp [h1, h2], by simpa using h⟩

/-- C110: two headers that are printed alike have the same elements in the same order, the same references and the same ports -/
theorem C110_same (ord : List (Nat × List Nat) → List (Nat × List Nat)) (u v : UserDataHeader) :
    u.repr ord = v.repr ord ↔
      ord u.headers = ord v.headers ∧ concatShown u = concatShown v ∧ portsShown u = portsShown v := by
  constructor
  · intro h
    unfold UserDataHeader.repr at h
    simp only [List.append_assoc] at h
    obtain ⟨h1, h⟩ := dictRepr_cut (List.append_cancel_left h)
    obtain ⟨h2, h⟩ := concat_cut (List.append_cancel_left h)
    obtain ⟨h3, _⟩ := ports_cut (List.append_cancel_left h)
    exact ⟨h1, h2, h3⟩
  · rintro ⟨h1, h2, h3⟩
    rw [C110_text, C110_text, h1, h2, h3]

/-- C110, as stated: received headers that are printed alike are alike -/
def C110_full : Prop :=
  ∀ (ord : List (Nat × List Nat) → List (Nat × List Nat)), (∀ l, (ord l).Perm l) → ∀ (d e : List Nat) (u v : UserDataHeader),
    fromBytes d = .ok u → fromBytes e = .ok v → u.repr ord = v.repr ord →
    u.headers.Perm v.headers ∧ u.concat = v.concat ∧ u.ports = v.ports

/-- C110 is false: whether the reference is one of 8 bits is not printed -/
theorem C110_refuted : ¬ C110_full := by
  intro h
  have := (h id (fun l => List.Perm.refl l) [0, 3, 1, 2, 3, 8, 4, 0, 1, 2, 3] [0, 3, 1, 2, 3, 8, 4, 0, 1, 2, 3, 0, 3, 1, 2, 3]
    ⟨some ⟨1, 2, 3, false⟩, none, [(0, [1, 2, 3]), (8, [0, 1, 2, 3])]⟩ ⟨some ⟨1, 2, 3, true⟩, none, [(0, [1, 2, 3]), (8, [0, 1, 2, 3])]⟩
    (by decide +kernel) (by decide +kernel) rfl).2.1
  simp at this

theorem pyBind_ok {α β : Type} {x : Py α} {f : α → Py β} {b : β} (h : (x >>= f) = .ok b) : ∃ a, x = .ok a ∧ f a = .ok b := by
  cases x with
  | error e => cases h
  | ok a => exact ⟨a, rfl, h⟩

theorem applyIe_tail {u v w : UserDataHeader} {iei : Nat} {d : List Nat} (hu : ∀ p ∈ u.ports, p.eightBits = false) (hp : w.ports = u.ports) :
      (if iei = 8 then do
        let a ← pyIdx d 0
        let b ← pyIdx d 1
        let cnt ← pyIdx d 2
        let seq ← pyIdx d 3
        (Except.ok { w with concat := some ⟨a <<< 8 ||| b, cnt, seq, false⟩ } : Py UserDataHeader)
      else if iei = 4 then
        match d with
        | [dest, orig] => .ok { w with ports := some ⟨dest, orig, false⟩ }
        | _ => .error .valueError
      else if iei = 5 then do
        let a ← pyIdx d 0
        let b ← pyIdx d 1
        let c ← pyIdx d 2
        let e ← pyIdx d 3
        .ok { w with ports := some ⟨a <<< 8 ||| b, c <<< 8 ||| e, false⟩ }
      else .ok w) = .ok v → ∀ p ∈ v.ports, p.eightBits = false := by
  intro h
  rw [← hp] at hu
  split at h
  · obtain ⟨_, _, h⟩ := pyBind_ok h
    obtain ⟨_, _, h⟩ := pyBind_ok h
    obtain ⟨_, _, h⟩ := pyBind_ok h
    obtain ⟨_, _, h⟩ := pyBind_ok h
    cases h; exact hu
  · split at h
    · split at h
      · cases h
        intro p hp
        simp only [Option.mem_def, Option.some.injEq] at hp
        rw [← hp]
      · cases h
    · split at h
      · obtain ⟨_, _, h⟩ := pyBind_ok h
        obtain ⟨_, _, h⟩ := pyBind_ok h
        obtain ⟨_, _, h⟩ := pyBind_ok h
        obtain ⟨_, _, h⟩ := pyBind_ok h
        cases h
        intro p hp
        simp only [Option.mem_def, Option.some.injEq] at hp
        rw [← hp]
      · cases h; exact hu

theorem applyIe_ports {u v : UserDataHeader} {iei : Nat} {d : List Nat} (h : applyIe u iei d = .ok v)
    (hu : ∀ p ∈ u.ports, p.eightBits = false) : ∀ p ∈ v.ports, p.eightBits = false := by
  unfold applyIe at h
  dsimp only at h
  split at h
  · split at h
    · obtain ⟨w, hw, h⟩ := pyBind_ok h
      injection hw with hw
      exact applyIe_tail (w := w) hu (by rw [← hw]) h
    · cases h
  · obtain ⟨w, hw, h⟩ := pyBind_ok h
    injection hw with hw
    exact applyIe_tail (w := w) hu (by rw [← hw]) h

theorem fromBytesLoop_ports : ∀ (n : Nat) (u v : UserDataHeader) (d : List Nat), fromBytesLoop n u d = .ok v →
    (∀ p ∈ u.ports, p.eightBits = false) → ∀ p ∈ v.ports, p.eightBits = false
  | _, u, v, [], h, hu => by
    rw [fromBytesLoop] at h; injection h with h; rw [← h]; exact hu
  | 0, _, _, _ :: _, h, _ => by cases h
  | _ + 1, _, _, [_], h, _ => by cases h
  | n + 1, u, v, iei :: l :: d, h, hu => by
    rw [fromBytesLoop] at h
    cases h1 : applyIe u iei (d.take l) with
    | error e => rw [h1] at h; cases h
    | ok w => rw [h1] at h; exact fromBytesLoop_ports n w v _ h (applyIe_ports h1 hu)

/-- C110: received headers that are printed alike are alike, except that one reference may be of 8 bits and the other of 16.
Missing: that difference is not printed. -/
theorem C110_partial (ord : List (Nat × List Nat) → List (Nat × List Nat)) (hord : ∀ l, (ord l).Perm l) (d e : List Nat)
    (u v : UserDataHeader) (hd : fromBytes d = .ok u) (he : fromBytes e = .ok v) (h : u.repr ord = v.repr ord) :
    u.headers.Perm v.headers ∧ concatShown u = concatShown v ∧ u.ports = v.ports := by
  obtain ⟨h1, h2, h3⟩ := (C110_same ord u v).1 h
  refine ⟨?_, h2, ?_⟩
  · exact (hord _).symm.trans (h1 ▸ hord _)
  · have hu := fromBytesLoop_ports _ _ _ _ hd (by intro p hp; cases hp)
    have hv := fromBytesLoop_ports _ _ _ _ he (by intro p hp; cases hp)
    unfold portsShown at h3
    cases hp : u.ports <;> cases hq : v.ports <;> rw [hp, hq] at h3
    · cases h3
    · cases h3
    · rename_i p q
      have e1 := hu p hp
      have e2 := hv q hq
      cases p; cases q
      simp at h3 e1 e2
      simp [h3, e1, e2]

example : UserDataHeader.repr id ⟨some ⟨65, 2, 1, true⟩, none, [(0, [65, 2, 1]), (1, [])]⟩ =
    py! "<UserDataHeader data: {0: array('B', [65, 2, 1]), 1: array('B')} concat: <ConcatReference ref: 65 cnt: 2 seq: 1> ports: None>" := by
  decide +kernel

example : fromBytes [5, 4, 0x0b, 0x84, 0x23, 0xf0, 0, 3, 65, 2, 1] =
    .ok ⟨some ⟨65, 2, 1, true⟩, some ⟨2948, 9200, false⟩, [(5, [0x0b, 0x84, 0x23, 0xf0]), (0, [65, 2, 1])]⟩ := by decide +kernel

end Verif.Props

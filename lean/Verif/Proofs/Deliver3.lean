import Verif.Proofs.Deliver2
/-!
# What the decoder sets and which exceptions it raises
-/
set_option autoImplicit false

namespace Verif.Deliver
open Verif.Spec Verif.Spec.Sms Verif.Spec.Time

theorem ebind_ok {α β : Type} {x : Py α} {f : α → Py β} {b : β} (h : x.bind f = .ok b) : ∃ a, x = .ok a ∧ f a = .ok b := by
  cases x with
  | error e => cases h
  | ok a => exact ⟨a, rfl, h⟩

theorem ebind_error {α β : Type} {x : Py α} {f : α → Py β} {e : PyErr} (h : x.bind f = .error e) :
    x = .error e ∨ ∃ a, x = .ok a ∧ f a = .error e := by
  cases x with
  | error e' => left; cases h; rfl
  | ok a => exact .inr ⟨a, rfl, h⟩

theorem fmtOfDcs_cases (dcs : Nat) : fmtOfDcs dcs = 0 ∨ fmtOfDcs dcs = 4 ∨ fmtOfDcs dcs = 8 := by
  unfold fmtOfDcs; split
  · exact .inl rfl
  · split
    · exact .inr (.inl rfl)
    · exact .inr (.inr rfl)

/-- the coding part sets the text and nothing else -/
theorem textP_frame {fmt msgl headlen udLen : Nat} {msg : Str} {data : List Nat} {f : State → State}
    (hf : fmt = 0 ∨ fmt = 4 ∨ fmt = 8) (h : textP fmt msgl headlen udLen msg data = .ok f) :
    ∃ t, f = fun s => { s with text := some t } := by
  unfold textP at h
  rcases hf with rfl | rfl | rfl
  · rw [if_pos rfl] at h
    obtain ⟨t, _, h⟩ := ebind_ok h
    obtain ⟨x, _, h⟩ := ebind_ok h
    cases h
    exact ⟨x, rfl⟩
  · rw [if_neg (by decide), if_pos rfl] at h
    cases h
    exact ⟨_, rfl⟩
  · rw [if_neg (by decide), if_neg (by decide), if_pos rfl] at h
    obtain ⟨x, _, h⟩ := ebind_ok h
    cases h
    exact ⟨x, rfl⟩

/-- the user data sets the text and, exactly when it has one, the header -/
theorem udP_frame {mt fmt : Nat} {data : List Nat} {f : State → State} (hf : fmt = 0 ∨ fmt = 4 ∨ fmt = 8)
    (h : udP mt fmt data = .ok f) :
    (∃ t, mt &&& 0x40 = 0 ∧ f = fun s => { s with text := some t }) ∨
    (∃ t u, mt &&& 0x40 ≠ 0 ∧ f = fun s => { s with udh := some u, text := some t }) := by
  unfold udP at h
  obtain ⟨x, _, h⟩ := ebind_ok h
  split at h
  · rename_i hm
    obtain ⟨y, _, h⟩ := ebind_ok h
    obtain ⟨u, _, h⟩ := ebind_ok h
    obtain ⟨g, hg, h⟩ := ebind_ok h
    cases h
    obtain ⟨t, rfl⟩ := textP_frame hf hg
    exact .inr ⟨t, u, hm, rfl⟩
  · rename_i hm
    obtain ⟨t, rfl⟩ := textP_frame hf h
    exact .inl ⟨t, not_not.1 hm, rfl⟩

/-- what a decoded DELIVER sets -/
def deliverF (csca : Option Str) (mt : Nat) (x : Fields) (t : Str) (u : Option Udh.UserDataHeader) (s : State) : State :=
  { s with csca := csca, mtype := some mt, number := some x.sender, pid := some x.pid, dcs := some x.dcs,
           fmt := some (fmtOfDcs x.dcs), date := some x.date, text := some t,
           udh := match u with | some u => some u | none => s.udh }

/-- the two kinds of PDU that decode -/
theorem pduP_frame {data : List Nat} {f : State → State} (h : pduP data = .ok f) :
    ∃ (csca : Option Str) (mt : Nat) (r r' : List Nat), smscP data = .ok (csca, r') ∧ pop0 r' = .ok (mt, r) ∧
    ((mt &&& 3 = 2 ∧ ∃ g, reportP r = .ok g ∧ f = fun s => g { s with csca := csca, mtype := some mt }) ∨
     (mt &&& 3 ≠ 2 ∧ mt &&& 3 ≠ 1 ∧ ∃ (x : Fields) (r2 : List Nat) (t : Str) (u : Option Udh.UserDataHeader),
      fieldsP r = .ok (x, r2) ∧ (u.isSome ↔ mt &&& 0x40 ≠ 0) ∧ f = deliverF csca mt x t u)) := by
  unfold pduP at h
  obtain ⟨⟨csca, r'⟩, h1, h⟩ := ebind_ok h
  obtain ⟨⟨mt, r⟩, h2, h⟩ := ebind_ok h
  simp only at h2 h
  refine ⟨csca, mt, r, r', h1, h2, ?_⟩
  obtain ⟨g, hg, h⟩ := ebind_ok h
  cases h
  by_cases hm : mt &&& 3 = 2
  · rw [if_pos hm] at hg
    exact .inl ⟨hm, g, hg, rfl⟩
  · rw [if_neg hm] at hg
    by_cases hm1 : mt &&& 3 = 1
    · rw [if_pos hm1] at hg; cases hg
    · rw [if_neg hm1] at hg
      refine .inr ⟨hm, hm1, ?_⟩
      unfold deliverP at hg
      obtain ⟨⟨x, r2⟩, hx, hg⟩ := ebind_ok hg
      obtain ⟨k, hk, hg⟩ := ebind_ok hg
      cases hg
      rcases udP_frame (fmtOfDcs_cases _) hk with ⟨t, hz, rfl⟩ | ⟨t, u, hz, rfl⟩
      · exact ⟨x, r2, t, none, hx, by simp [hz], rfl⟩
      · exact ⟨x, r2, t, some u, hx, by simp [hz], rfl⟩

/-- decoding neither reads nor writes the `pdu` and `strict` attributes -/
theorem pduP_pdu {data : List Nat} {f : State → State} (h : pduP data = .ok f) (s : State) (p : Option Str) :
    f { s with pdu := p } = { f s with pdu := p } := by
  obtain ⟨csca, mt, r, r', _, _, h⟩ := pduP_frame h
  rcases h with ⟨_, g, hg, rfl⟩ | ⟨_, _, x, r2, t, u, _, _, rfl⟩
  · unfold reportP at hg
    obtain ⟨a, _, hg⟩ := ebind_ok hg
    obtain ⟨b, _, hg⟩ := ebind_ok hg
    obtain ⟨c, _, hg⟩ := ebind_ok hg
    cases hg
    rfl
  · rfl

/-! ## Exceptions -/

/-- exceptions of `x` satisfy `P` -/
def Raises {α : Type} (P : PyErr → Prop) (x : Py α) : Prop := ∀ e, x = .error e → P e

theorem Raises.ok {α : Type} {P : PyErr → Prop} (a : α) : Raises P (.ok a : Py α) := by intro e h; cases h

theorem Raises.bind {α β : Type} {P : PyErr → Prop} {x : Py α} {f : α → Py β} (h : Raises P x)
    (hf : ∀ a, x = .ok a → Raises P (f a)) : Raises P (x.bind f) := by
  intro e he
  rcases ebind_error he with h1 | ⟨a, h1, h2⟩
  · exact h e h1
  · exact hf a h1 e h2

/-- ValueError or IndexError -/
def VI (e : PyErr) : Prop := e = .valueError ∨ e = .indexError

theorem pop0_raises (l : List Nat) : Raises VI (pop0 l) := by
  intro e h
  cases l with
  | nil => cases h; exact .inr rfl
  | cons _ _ => cases h

theorem pop0_ok {l : List Nat} {x : Nat × List Nat} (h : pop0 l = .ok x) : l = x.1 :: x.2 := by
  cases l with
  | nil => cases h
  | cons _ _ => cases h; rfl

theorem pyIdx_raises (l : List Nat) (i : Nat) : Raises VI (pyIdx l i) := by
  intro e h
  unfold pyIdx at h
  split at h
  · cases h
  · cases h; exact .inr rfl

theorem applyIe_raises (u : Udh.UserDataHeader) (iei : Nat) (d : List Nat) : Raises VI (Udh.applyIe u iei d) := by
  have tail : ∀ v : Udh.UserDataHeader, Raises VI (
      if iei = 8 then do
        let a ← pyIdx d 0
        let b ← pyIdx d 1
        let cnt ← pyIdx d 2
        let seq ← pyIdx d 3
        Except.ok { v with concat := some { ref := a <<< 8 ||| b, cnt := cnt, seq := seq, eightBits := false } }
      else
        if iei = 4 then
          match d with
          | [dest, orig] => Except.ok { v with ports := some { destPort := dest, origPort := orig, eightBits := false } }
          | _ => Except.error PyErr.valueError
        else
          if iei = 5 then do
            let a ← pyIdx d 0
            let b ← pyIdx d 1
            let c ← pyIdx d 2
            let e ← pyIdx d 3
            Except.ok { v with ports := some { destPort := a <<< 8 ||| b, origPort := c <<< 8 ||| e, eightBits := false } }
          else Except.ok v : Py Udh.UserDataHeader) := by
    intro v
    split
    · exact Raises.bind (pyIdx_raises _ _) fun _ _ => Raises.bind (pyIdx_raises _ _) fun _ _ =>
        Raises.bind (pyIdx_raises _ _) fun _ _ => Raises.bind (pyIdx_raises _ _) fun _ _ => Raises.ok _
    · split
      · split
        · exact Raises.ok _
        · intro e h; cases h; exact .inl rfl
      · split
        · exact Raises.bind (pyIdx_raises _ _) fun _ _ => Raises.bind (pyIdx_raises _ _) fun _ _ =>
            Raises.bind (pyIdx_raises _ _) fun _ _ => Raises.bind (pyIdx_raises _ _) fun _ _ => Raises.ok _
        · exact Raises.ok _
  unfold Udh.applyIe
  by_cases h0 : iei = 0
  · simp only [if_pos h0]
    split
    · exact Raises.bind (Raises.ok _) fun v _ => tail v
    · intro e h; cases h; exact .inl rfl
  · simp only [if_neg h0]
    exact Raises.bind (Raises.ok _) fun v _ => tail v

theorem fromBytesLoop_raises : ∀ (fuel : Nat) (u : Udh.UserDataHeader) (l : List Nat), l.length ≤ fuel →
    Raises VI (Udh.fromBytesLoop fuel u l) := by
  intro fuel
  induction fuel with
  | zero =>
    intro u l hl
    have : l = [] := List.length_eq_zero_iff.1 (by omega)
    subst this
    unfold Udh.fromBytesLoop
    exact Raises.ok _
  | succ n ih =>
    intro u l hl
    match l, hl with
    | [], _ => unfold Udh.fromBytesLoop; exact Raises.ok _
    | [_], _ => unfold Udh.fromBytesLoop; intro e h; cases h; exact .inr rfl
    | iei :: len :: r, hl =>
      unfold Udh.fromBytesLoop
      refine Raises.bind (applyIe_raises _ _ _) fun u' _ => ih _ _ ?_
      simp only [List.length_cons, List.length_drop] at hl ⊢
      omega

theorem ucs2Chars_raises : ∀ l, Raises VI (ucs2Chars l)
  | [] => by unfold ucs2Chars; exact Raises.ok _
  | [_] => by unfold ucs2Chars; intro e h; cases h; exact .inr rfl
  | a :: b :: r => by
    unfold ucs2Chars
    exact Raises.bind (ucs2Chars_raises r) fun _ _ => Raises.ok _

theorem textP_raises (fmt msgl headlen udLen : Nat) {ud : List Nat} (h : ∀ x ∈ ud, x < 256) (data : List Nat) :
    Raises VI (textP fmt msgl headlen udLen (encodeStr ud) data) := by
  unfold textP
  split
  · rw [unpackMsg_eq h]
    refine Raises.bind (Raises.ok _) fun t ht => ?_
    cases ht
    refine Raises.bind ?_ fun _ _ => Raises.ok _
    have h7 : ∀ x ∈ ((unpackMsg2 ud).take msgl).drop headlen, x < 128 := by
      intro x hx
      have hx' := List.mem_of_mem_take (List.mem_of_mem_drop hx)
      rw [unpackMsg2_eq h] at hx'
      exact digits_lt (by decide) _ _ x hx'
    obtain ⟨t, ht, _⟩ := Gsm.decode_septets .strict _ _ (le_refl _) h7
    rw [ht]
    exact Raises.ok _
  · split
    · exact Raises.ok _
    · split
      · exact Raises.bind (ucs2Chars_raises _) fun _ _ => Raises.ok _
      · exact Raises.ok _

theorem udP_raises (mt fmt : Nat) {data : List Nat} (h : ∀ x ∈ data, x < 256) : Raises VI (udP mt fmt data) := by
  unfold udP
  refine Raises.bind (pop0_raises _) fun x hx => ?_
  have hd := pop0_ok hx
  have hlt : ∀ y ∈ x.2.take x.1, y < 256 := fun y hy => h y (by
    rw [hd]; exact List.mem_cons_of_mem _ (List.mem_of_mem_take hy))
  split
  · exact Raises.bind (pop0_raises _) fun y hy => Raises.bind (fromBytesLoop_raises _ _ _ (le_refl _)) fun u _ =>
      Raises.bind (textP_raises _ _ _ _ hlt _) fun _ _ => Raises.ok _
  · exact textP_raises _ _ _ _ hlt _

theorem strptime_raises {l : List Nat} (h : ∀ x ∈ l, x < 256) (hl : 6 ≤ l.length) :
    Raises VI (Cal.strptime (swapPairs (encodeStr (l.take 6)))) := by
  have h6 : (l.take 6).length = 6 := by rw [List.length_take]; omega
  have hlt : ∀ x ∈ l.take 6, x < 256 := fun x hx => h x (List.mem_of_mem_take hx)
  have hs := Cal.swap_short hlt
  obtain ⟨h1, h2⟩ := Cal.strptime_octets hlt
  rw [List.take_of_length_le (l := swapPairs _) (by omega)] at h1 h2
  intro e he
  cases hc : readCivil (l.take 6) with
  | some c => rw [h1 c hc] at he; cases he
  | none =>
    obtain ⟨e', he', hv⟩ := h2 hc
    rw [he'] at he
    cases he
    rcases hv with rfl | ⟨_, hv⟩
    · exact .inl rfl
    · omega

theorem fieldsP_raises {data : List Nat} (h : ∀ x ∈ data, x < 256) : Raises VI (fieldsP data) := by
  unfold fieldsP
  refine Raises.bind (pop0_raises _) fun a ha => Raises.bind (pop0_raises _) fun b hb => ?_
  have ea := pop0_ok ha
  have eb := pop0_ok hb
  have hb2 : ∀ x ∈ b.2, x < 256 := fun x hx => h x (by rw [ea, eb]; simp [hx])
  obtain ⟨sender, hs⟩ := decodeSender_ok b.1 (d := b.2.take (semiLen a.1)) (fun x hx => hb2 x (List.mem_of_mem_take hx))
  rw [hs]
  refine Raises.bind (Raises.ok _) fun _ _ => Raises.bind (pop0_raises _) fun c hc => Raises.bind (pop0_raises _)
    fun d hd => Raises.bind (pop0_raises _) fun e he => Raises.bind ?_ fun _ _ => Raises.ok _
  have ec := pop0_ok hc
  have ed := pop0_ok hd
  have ee := pop0_ok he
  apply strptime_raises
  · intro x hx
    refine hb2 x (List.mem_of_mem_drop (i := semiLen a.1) ?_)
    rw [ec, ed]; simp [hx]
  · have := congrArg List.length ee
    rw [List.length_drop, List.length_cons] at this
    omega

theorem fieldsP_mem {data : List Nat} {x : Fields × List Nat} (h : fieldsP data = .ok x) : ∀ y ∈ x.2, y ∈ data := by
  unfold fieldsP at h
  obtain ⟨a, ha, h⟩ := ebind_ok h
  obtain ⟨b, hb, h⟩ := ebind_ok h
  obtain ⟨s, _, h⟩ := ebind_ok h
  obtain ⟨c, hc, h⟩ := ebind_ok h
  obtain ⟨d, hd, h⟩ := ebind_ok h
  obtain ⟨e, he, h⟩ := ebind_ok h
  obtain ⟨dt, _, h⟩ := ebind_ok h
  cases h
  intro y hy
  have hy : y ∈ e.2 := hy
  rw [pop0_ok ha, pop0_ok hb]
  refine List.mem_cons_of_mem _ (List.mem_cons_of_mem _ (List.mem_of_mem_drop (i := semiLen a.1) ?_))
  rw [pop0_ok hc, pop0_ok hd]
  refine List.mem_cons_of_mem _ (List.mem_cons_of_mem _ (List.mem_of_mem_drop (i := 6) ?_))
  rw [pop0_ok he]
  exact List.mem_cons_of_mem _ hy

theorem deliverP_raises (mt : Nat) {data : List Nat} (h : ∀ x ∈ data, x < 256) : Raises VI (deliverP mt data) := by
  unfold deliverP
  exact Raises.bind (fieldsP_raises h) fun x hx => Raises.bind
    (udP_raises _ _ (fun y hy => h y (fieldsP_mem hx y hy))) fun _ _ => Raises.ok _

theorem reportP_raises (data : List Nat) : Raises VI (reportP data) := by
  unfold reportP
  exact Raises.bind (pop0_raises _) fun _ _ => Raises.bind (pop0_raises _) fun _ _ => Raises.bind (pop0_raises _)
    fun _ _ => Raises.ok _

theorem smscP_raises (data : List Nat) : Raises VI (smscP data) := by
  unfold smscP
  refine Raises.bind (pop0_raises _) fun _ _ => ?_
  split
  · exact Raises.bind (pop0_raises _) fun _ _ => Raises.ok _
  · exact Raises.ok _

theorem smscP_mem {data : List Nat} {x : Option Str × List Nat} (h : smscP data = .ok x) : ∀ y ∈ x.2, y ∈ data := by
  unfold smscP at h
  obtain ⟨a, ha, h⟩ := ebind_ok h
  rw [pop0_ok ha]
  split at h
  · obtain ⟨b, hb, h⟩ := ebind_ok h
    cases h
    intro y hy
    rw [pop0_ok hb]
    exact List.mem_cons_of_mem _ (List.mem_cons_of_mem _ (List.mem_of_mem_drop hy))
  · cases h
    intro y hy
    exact List.mem_cons_of_mem _ hy

theorem pduP_raises {data : List Nat} (h : ∀ x ∈ data, x < 256) : Raises VI (pduP data) := by
  unfold pduP
  refine Raises.bind (smscP_raises _) fun x hx => Raises.bind (pop0_raises _) fun m hm => Raises.bind ?_
    fun _ _ => Raises.ok _
  have hlt : ∀ y ∈ m.2, y < 256 := fun y hy => h y (smscP_mem hx y (by
    rw [pop0_ok hm]; exact List.mem_cons_of_mem _ hy))
  split
  · exact reportP_raises _
  · split
    · intro e he; cases he; exact .inl rfl
    · exact deliverP_raises _ hlt

/-! ## Hexadecimal strings -/

theorem hexVal_lt {c v : Nat} (h : hexVal c = some v) : v < 16 := by
  unfold hexVal at h
  split at h
  · cases h; omega
  · split at h
    · cases h; omega
    · split at h
      · cases h; omega
      · cases h

theorem pyInt16_range {s : Str} {x : Int} (h : pyInt16 s = .ok x) : x < 256 ∧ (x < 0 → 45 ∈ s) := by
  unfold pyInt16 at h
  split at h
  · split at h
    · rename_i hv
      cases h
      have := hexVal_lt hv
      omega
    · cases h
  · split at h
    · rename_i h1 h2
      cases h
      have := hexVal_lt h1
      have := hexVal_lt h2
      omega
    · rename_i h1 h2
      have := hexVal_lt h1
      split at h
      · cases h; omega
      · cases h
    · rename_i h1 h2
      have := hexVal_lt h2
      split at h
      · cases h; omega
      · split at h
        · rename_i h45
          cases h
          refine ⟨by omega, fun _ => ?_⟩
          rw [beq_iff_eq] at h45
          rw [h45]; exact List.mem_cons_self
        · cases h
    · cases h
  · cases h

theorem pyInt16_raises (s : Str) : Raises VI (pyInt16 s) := by
  intro e h
  unfold pyInt16 at h
  split at h
  · split at h <;> cases h; exact .inl rfl
  · split at h
    · cases h
    · split at h <;> cases h; exact .inl rfl
    · split at h
      · cases h
      · split at h <;> cases h; exact .inl rfl
    · cases h; exact .inl rfl
  · cases h; exact .inl rfl

theorem parseHexPairs_range : ∀ {s : Str} {xs : List Int}, parseHexPairs s = .ok xs →
    ∀ x ∈ xs, x < 256 ∧ (x < 0 → 45 ∈ s)
  | [], xs, h => by unfold parseHexPairs at h; cases h; simp
  | [a], xs, h => by
    unfold parseHexPairs at h
    obtain ⟨x, hx, h⟩ := ebind_ok h
    cases h
    intro y hy
    rw [List.mem_singleton] at hy
    rw [hy]
    exact pyInt16_range hx
  | a :: b :: r, xs, h => by
    unfold parseHexPairs at h
    obtain ⟨x, hx, h⟩ := ebind_ok h
    obtain ⟨ys, hys, h⟩ := ebind_ok h
    cases h
    intro y hy
    rcases List.mem_cons.1 hy with rfl | hy
    · obtain ⟨h1, h2⟩ := pyInt16_range hx
      refine ⟨h1, fun hn => ?_⟩
      have := h2 hn
      simp only [List.mem_cons, List.not_mem_nil, or_false] at this ⊢
      rcases this with h | h
      · exact .inl h
      · exact .inr (.inl h)
    · obtain ⟨h1, h2⟩ := parseHexPairs_range hys y hy
      exact ⟨h1, fun hn => List.mem_cons_of_mem _ (List.mem_cons_of_mem _ (h2 hn))⟩

theorem parseHexPairs_raises : ∀ s : Str, Raises VI (parseHexPairs s)
  | [] => by unfold parseHexPairs; exact Raises.ok _
  | [a] => by
    unfold parseHexPairs
    exact Raises.bind (pyInt16_raises _) fun _ _ => Raises.ok _
  | a :: b :: r => by
    unfold parseHexPairs
    exact Raises.bind (pyInt16_raises _) fun _ _ => Raises.bind (parseHexPairs_raises r) fun _ _ => Raises.ok _

theorem toArray_raises (s : Str) : Raises (fun e => VI e ∨ (e = .overflowError ∧ 45 ∈ s)) (toArray s) := by
  unfold toArray
  refine Raises.bind (fun e he => .inl (parseHexPairs_raises s e he)) fun xs hxs => ?_
  split
  · rename_i ha
    obtain ⟨x, hx, hneg⟩ := List.any_eq_true.1 ha
    intro e he
    cases he
    exact .inr ⟨rfl, (parseHexPairs_range hxs x hx).2 (by simpa using hneg)⟩
  · exact Raises.ok _

theorem toArray_lt {s : Str} {o : List Nat} (h : toArray s = .ok o) : ∀ x ∈ o, x < 256 := by
  unfold toArray at h
  obtain ⟨xs, hxs, h⟩ := ebind_ok h
  split at h
  · cases h
  · cases h
    intro x hx
    obtain ⟨y, hy, rfl⟩ := List.mem_map.1 hx
    have := (parseHexPairs_range hxs y hy).1
    omega

theorem trim_mem {strict : Bool} {pdu : Str} {x : Nat} (h : x ∈ trim strict pdu) : x ∈ pdu := by
  unfold trim at h
  split at h
  · exact List.dropLast_subset _ h
  · exact h

theorem setP_raises (pdu : Str) (st : State) : Raises (fun e => VI e ∨ (e = .overflowError ∧ 45 ∈ pdu)) (setP pdu st) := by
  unfold setP
  split
  · intro e h; cases h; exact .inl (.inl rfl)
  · refine Raises.bind (fun e he => ?_) fun data hd => Raises.bind (fun e he => .inl ?_) fun _ _ => Raises.ok _
    · rcases toArray_raises _ e he with h | ⟨h, hm⟩
      · exact .inl h
      · exact .inr ⟨h, trim_mem hm⟩
    · exact pduP_raises (toArray_lt hd) e he

end Verif.Deliver

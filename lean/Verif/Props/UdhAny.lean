import Verif.Spec.Udh
import Verif.Props.Deliver
/-!
# C30: user data headers of any octets
-/
set_option autoImplicit false

namespace Verif.Props
open Verif Verif.Spec Verif.Spec.Sms Verif.Spec.Udh
open Verif.Deliver (ieStep)

theorem counted_ok {e : Element} (h : Fits e) : (counted e).Ok := by
  obtain ⟨id, p⟩ := e
  obtain ⟨h0, h8, h4, h5⟩ := h
  simp only at h0 h8 h4 h5
  unfold counted
  split
  · rename_i hi
    simp only at hi
    refine ⟨fun h => ?_, fun h => ?_, fun h => ?_, fun h => ?_⟩ <;> simp only at h ⊢
    · omega
    · have := h8 h; simp; omega
    · omega
    · have := h5 h; simp; omega
  · rename_i hi
    simp only [not_or] at hi
    exact ⟨h0, fun h => absurd h hi.1, h4, fun h => absurd h hi.2⟩

/-- reading one element -/
def anyStep (u : Udh.UserDataHeader) (e : Element) : Udh.UserDataHeader :=
  { ieStep u (counted e) with headers := Udh.dictSet u.headers e.id e.payload }

theorem applyIe_any (u : Udh.UserDataHeader) {e : Element} (h : Fits e) (hb : ∀ x ∈ e.payload, x < 256) :
    Udh.applyIe u e.id e.payload = .ok (anyStep u e) := by
  have hc := counted_ok h
  obtain ⟨id, p⟩ := e
  by_cases hi : id = 8 ∨ id = 5
  · obtain ⟨h0, h8, h4, h5⟩ := h
    simp only at h8 h5 hb
    have hl : 4 ≤ p.length := by rcases hi with rfl | rfl; exacts [h8 rfl, h5 rfl]
    match p, hl with
    | a :: b :: c :: d :: r, _ =>
      have := Deliver.applyIe_ok u hc (by
        intro x hx
        simp only [counted, if_pos hi, List.take] at hx
        apply hb x
        simp at hx ⊢
        tauto)
      simp only [counted, if_pos hi, List.take_succ_cons, List.take_zero] at this
      unfold anyStep
      simp only [counted, if_pos hi, List.take_succ_cons, List.take_zero]
      rcases hi with rfl | rfl
      · simp [Udh.applyIe, pyIdx, bind, Except.bind] at this ⊢
        rw [← this]
        exact ⟨rfl, rfl⟩
      · simp [Udh.applyIe, pyIdx, bind, Except.bind] at this ⊢
        rw [← this]
        exact ⟨rfl, rfl⟩
  · have hce : counted ⟨id, p⟩ = ⟨id, p⟩ := if_neg hi
    rw [hce] at hc
    rw [Deliver.applyIe_ok u hc hb, anyStep, hce]
    rfl

theorem applyIe_unfit (u : Udh.UserDataHeader) {id : Nat} {p : List Nat} (h : ¬ Fits ⟨id, p⟩) :
    Udh.applyIe u id p = .error (if id = 0 ∨ id = 4 then .valueError else .indexError) := by
  unfold Fits at h
  simp only at h
  by_cases h0 : id = 0
  · subst h0
    have hl : p.length ≠ 3 := fun e => h ⟨fun _ => e, by simp, by simp, by simp⟩
    match p, hl with
    | [], _ => rfl
    | [_], _ => rfl
    | [_, _], _ => rfl
    | _ :: _ :: _ :: _ :: _, _ => rfl
  by_cases h4 : id = 4
  · subst h4
    have hl : p.length ≠ 2 := fun e => h ⟨by simp, by simp, fun _ => e, by simp⟩
    match p, hl with
    | [], _ => rfl
    | [_], _ => rfl
    | _ :: _ :: _ :: _, _ => rfl
  by_cases h8 : id = 8
  · subst h8
    have hl : ¬ 4 ≤ p.length := fun e => h ⟨by simp, fun _ => e, by simp, by simp⟩
    match p, hl with
    | [], _ => rfl
    | [_], _ => rfl
    | [_, _], _ => rfl
    | [_, _, _], _ => rfl
    | _ :: _ :: _ :: _ :: _, hl => simp at hl
  by_cases h5 : id = 5
  · subst h5
    have hl : ¬ 4 ≤ p.length := fun e => h ⟨by simp, by simp, by simp, fun _ => e⟩
    match p, hl with
    | [], _ => rfl
    | [_], _ => rfl
    | [_, _], _ => rfl
    | [_, _, _], _ => rfl
    | _ :: _ :: _ :: _ :: _, hl => simp at hl
  · exact absurd ⟨fun e => absurd e h0, fun e => absurd e h8, fun e => absurd e h4, fun e => absurd e h5⟩ h

theorem loop_reading {bytes : List Nat} {els : List Element} {r : Option PyErr} (h : Reading bytes els r) :
    ∀ (fuel : Nat) (u : Udh.UserDataHeader), bytes.length ≤ fuel → (∀ x ∈ bytes, x < 256) →
      Udh.fromBytesLoop fuel u bytes = match r with | none => .ok (els.foldl anyStep u) | some e => .error e := by
  induction h with
  | done => intro fuel u _ _; cases fuel <;> rfl
  | lone id =>
    intro fuel u hl _
    cases fuel with
    | zero => simp at hl
    | succ n => rfl
  | unfit id len rest h =>
    intro fuel u hl _
    cases fuel with
    | zero => simp at hl
    | succ n => rw [Udh.fromBytesLoop, applyIe_unfit u h]; rfl
  | element id len rest els r h ht ih =>
    intro fuel u hl hb
    cases fuel with
    | zero => simp at hl
    | succ n =>
      rw [Udh.fromBytesLoop, applyIe_any u h (fun x hx => hb x (by simp [List.mem_of_mem_take hx]))]
      simp only [bind, Except.bind]
      rw [ih n (anyStep u _) (by simp only [List.length_cons, List.length_drop] at hl ⊢; omega)
        (fun x hx => hb x (by simp [List.mem_of_mem_drop hx]))]
      cases r <;> rfl

theorem reading_fits {bytes : List Nat} {els : List Element} {r : Option PyErr} (h : Reading bytes els r) :
    ∀ e ∈ els, Fits e := by
  induction h with
  | element id len rest els r h ht ih =>
    intro e he
    rcases List.mem_cons.1 he with rfl | he
    · exact h
    · exact ih e he
  | _ => simp

theorem foldl_anyStep (els : List Element) (h : ∀ e ∈ els, Fits e) :
    let u := els.foldl anyStep Udh.UserDataHeader.empty
    (∀ k, u.headers.lookup k = payloadOf els k) ∧ (u.headers.map Prod.fst).Nodup ∧
    u.concat = (concatOf (els.map counted)).map (fun x => ⟨x.1, x.2.1, x.2.2.1, x.2.2.2⟩) ∧
    u.ports = (portsOf (els.map counted)).map (fun x => ⟨x.1, x.2.1, false⟩) := by
  have hf := Deliver.foldl_ieStep (els.map counted) (by
    intro e he
    obtain ⟨e', h', rfl⟩ := List.mem_map.1 he
    exact counted_ok (h e' h'))
  have key : ∀ (l : List Element) (u v : Udh.UserDataHeader), u.concat = v.concat → u.ports = v.ports →
      (l.foldl anyStep u).concat = ((l.map counted).foldl ieStep v).concat ∧
      (l.foldl anyStep u).ports = ((l.map counted).foldl ieStep v).ports := by
    intro l
    induction l with
    | nil => intro u v h1 h2; exact ⟨h1, h2⟩
    | cons e l ih =>
      intro u v h1 h2
      refine ih _ _ ?_ ?_
      · simp only [anyStep, ieStep, h1]
      · simp only [anyStep, ieStep, h2]
  obtain ⟨k1, k2⟩ := key els Udh.UserDataHeader.empty Udh.UserDataHeader.empty rfl rfl
  obtain ⟨f3, f4, f1, f2⟩ := hf
  refine ⟨?_, ?_, k1.trans f1, k2.trans f2⟩
  · clear h k1 k2 f1 f2 f3 f4
    induction els using List.reverseRecOn with
    | nil => exact fun _ => rfl
    | append_singleton els e ih =>
      intro k
      simp only [List.foldl_append, List.foldl_cons, List.foldl_nil]
      rw [Deliver.payloadOf_snoc, ← ih k]
      exact Deliver.lookup_dictSet _ _ _ _
  · clear h k1 k2 f1 f2 f3 f4
    induction els using List.reverseRecOn with
    | nil => exact List.nodup_nil
    | append_singleton els e ih =>
      simp only [List.foldl_append, List.foldl_cons, List.foldl_nil]
      exact Deliver.nodup_dictSet _ _ _ ih

/-- every octets are read in some way ... -/
theorem reading_total : ∀ (n : Nat) (bytes : List Nat), bytes.length ≤ n → ∃ els r, Reading bytes els r
  | _, [], _ => ⟨[], none, .done⟩
  | _, [id], _ => ⟨[], _, .lone id⟩
  | 0, _ :: _ :: _, h => by simp at h
  | n + 1, id :: len :: rest, h => by
    by_cases hf : Fits ⟨id, rest.take len⟩
    · obtain ⟨els, r, hr⟩ := reading_total n (rest.drop len) (by
        simp only [List.length_cons, List.length_drop] at h ⊢; omega)
      exact ⟨_, r, .element id len rest els r hf hr⟩
    · exact ⟨[], _, .unfit id len rest hf⟩

/-- C30, for any octets at all: they can be read (`Reading`), and `from_bytes` returns or raises what the reading says:
the payload of the last element with an id, concatenation and ports from the last element that has them.  (8-bit ports are
reported as not 8-bit, and the last element may be cut off.) -/
theorem C30_any (bytes : List Nat) (hb : ∀ x ∈ bytes, x < 256) :
    ∃ els r, Reading bytes els r ∧
      (∀ e, r = some e → Udh.fromBytes bytes = .error e) ∧
      (r = none → ∃ u, Udh.fromBytes bytes = .ok u ∧ (∀ id, u.headers.lookup id = payloadOf els id) ∧
        (u.headers.map Prod.fst).Nodup ∧ concatFields u = concatOf (els.map counted) ∧
        portFields u = (portsOf (els.map counted)).map (fun x => (x.1, x.2.1, false))) := by
  obtain ⟨els, r, h⟩ := reading_total _ bytes (le_refl _)
  have hl := loop_reading h bytes.length Udh.UserDataHeader.empty (le_refl _) hb
  refine ⟨els, r, h, ?_, ?_⟩
  · rintro e rfl
    exact hl
  · rintro rfl
    obtain ⟨h1, h2, h3, h4⟩ := foldl_anyStep els (reading_fits h)
    refine ⟨_, hl, h1, h2, ?_, ?_⟩
    · unfold concatFields
      rw [h3, Option.map_map]
      cases concatOf (els.map counted) <;> rfl
    · unfold portFields
      rw [h4, Option.map_map]
      rfl

example := C30_any [8, 5, 1, 2, 3, 1, 9, 0x70, 5, 1] (by decide)

/-- C30: the reading is determined by the octets. -/
theorem C30_reading {bytes : List Nat} {els els' : List Element} {r r' : Option PyErr} (h : Reading bytes els r)
    (h' : Reading bytes els' r') : els = els' ∧ r = r' := by
  induction h generalizing els' r' with
  | done => cases h'; exact ⟨rfl, rfl⟩
  | lone id => cases h'; exact ⟨rfl, rfl⟩
  | unfit id len rest h =>
    cases h' with
    | unfit => exact ⟨rfl, rfl⟩
    | element _ _ _ _ _ hf _ => exact absurd hf h
  | element id len rest els r h ht ih =>
    cases h' with
    | unfit _ _ _ hf => exact absurd h hf
    | element _ _ _ _ _ _ ht' =>
      obtain ⟨e1, e2⟩ := ih ht'
      exact ⟨by rw [e1], e2⟩

/-- C30: well formed elements, followed by one that is cut off: this one counts with the octets that are there, and raises
exactly if it does not fit. -/
theorem C30_cut (els : List Element) (h : ∀ e ∈ els, Fits e) (id len : Nat) (payload : List Nat) (hl : payload.length < len) :
    Reading (elementOctets els) els none ∧
    (Fits ⟨id, payload⟩ → Reading (elementOctets els ++ id :: len :: payload) (els ++ [⟨id, payload⟩]) none) ∧
    (¬ Fits ⟨id, payload⟩ → Reading (elementOctets els ++ id :: len :: payload) els
      (some (if id = 0 ∨ id = 4 then .valueError else .indexError))) := by
  have step : ∀ (e : Element) (l : List Nat) (es : List Element) (r : Option PyErr), Fits e → Reading l es r →
      Reading (e.id :: e.payload.length :: (e.payload ++ l)) (e :: es) r := by
    intro e l es r hf hr
    have h1 : (e.payload ++ l).take e.payload.length = e.payload := List.take_left
    have h2 : (e.payload ++ l).drop e.payload.length = l := List.drop_left
    have := Reading.element e.id e.payload.length (e.payload ++ l) es r (by rw [h1]; exact hf) (by rw [h2]; exact hr)
    rwa [h1] at this
  have ht : payload.take len = payload := List.take_of_length_le (by omega)
  have hd : payload.drop len = [] := List.drop_eq_nil_of_le (by omega)
  have all : ∀ (l : List Nat) (tail : List Element) (r : Option PyErr), Reading l tail r →
      Reading (elementOctets els ++ l) (els ++ tail) r := by
    intro l tail r hr
    induction els with
    | nil => exact hr
    | cons e els ih =>
      have := step e _ _ r (h e (by simp)) (ih fun x hx => h x (by simp [hx]))
      simpa [elementOctets] using this
  refine ⟨?_, fun hf => ?_, fun hf => ?_⟩
  · simpa using all [] [] none .done
  · refine all _ _ _ ?_
    have := Reading.element id len payload [] none (by rw [ht]; exact hf) (by rw [hd]; exact .done)
    rwa [ht] at this
  · have := all _ _ _ (Reading.unfit id len payload (by rw [ht]; exact hf))
    rwa [List.append_nil] at this

/-- octets that are read: an unknown element that is cut off, after a 16-bit reference with an octet too many -/
example : Reading [8, 5, 1, 2, 3, 1, 9, 0x70, 5, 1] [⟨8, [1, 2, 3, 1, 9]⟩, ⟨0x70, [1]⟩] none :=
  .element 8 5 _ _ _ (by simp [Fits]) (.element 0x70 5 [1] _ _ (by simp [Fits]) .done)

/-- and octets that are not: a second element of two octets that should have three -/
example : Reading [0x70, 1, 9, 0, 2, 7, 2, 5] [⟨0x70, [9]⟩] (some .valueError) :=
  .element 0x70 1 _ _ _ (by simp [Fits]) (.unfit 0 2 [7, 2, 5] (by simp [Fits]))

end Verif.Props

import Verif.Props.Settings
import Mathlib.Data.List.Induction
/-!
# C77: assignments to the attributes of a message
-/
set_option autoImplicit false

namespace Verif.Props
open Verif Verif.Spec Verif.Spec.Sms Verif.Spec.Submit Verif.Spec.Time Verif.Submit

/-- `sms.attribute = value` -/
inductive Assign
  | number (x : Option (List Nat)) | csca (x : Option (List Nat)) | klass (k : KlassArg) | validity (v : ValidityArg)
  | requestStatus (b : Bool) | ref (r : Option Int) | randId (r : Option Int) | pid (p : Int) | text (t : PyStr)
  | fmt (f : Option Nat)

/-- the attribute, numbered -/
def Assign.attr : Assign → Fin 10
  | .number _ => 0 | .csca _ => 1 | .klass _ => 2 | .validity _ => 3 | .requestStatus _ => 4 | .ref _ => 5 | .randId _ => 6
  | .pid _ => 7 | .text _ => 8 | .fmt _ => 9

/-- the documented values of the attributes that are checked -/
def Assign.Ok : Assign → Prop
  | .number x => Accepted x
  | .csca x => Accepted x
  | .klass k => ∃ n : Nat, n ≤ 3 ∧ k = .int n
  | .validity v => ∃ w, v = .valid w
  | _ => True

open Classical in
/-- the last acceptable assignment to an attribute -/
noncomputable def lastTo (a : Fin 10) (l : List Assign) : Option Assign :=
  l.foldl (fun o x => if x.attr = a ∧ x.Ok then some x else o) none

/-- the code: the result of the assignment, an exception or the changed object -/
def Assign.exec : Assign → State → Res State Unit
  | .number x, s => setNumber x s
  | .csca x, s => setCsca x s
  | .klass k, s => setKlass k s
  | .validity v, s => setValidity v s
  | .requestStatus b, s => .ok () { s with requestStatus := b }
  | .ref r, s => .ok () { s with ref := r }
  | .randId r, s => .ok () { s with randId := r }
  | .pid p, s => .ok () { s with pid := p }
  | .text t, s => .ok () { s with text := t }
  | .fmt f, s => .ok () { s with fmt := f }

/-- the object after a sequence of assignments of which any may raise -/
def assignAll (s : State) (l : List Assign) : State := l.foldl (fun s a => (a.exec s).state) s

/-- the attributes of the object, as the user sees them -/
structure Holds (s0 : State) (l : List Assign) (s : State) : Prop where
  number : s.number = match lastTo 0 l with | some (.number x) => x | _ => s0.number
  csca : s.csca = match lastTo 1 l with | some (.csca x) => x | _ => s0.csca
  klass : s.klass = match lastTo 2 l with | some (.klass (.int k)) => some k.toNat | _ => s0.klass
  validity : s.validity = match lastTo 3 l with | some (.validity (.valid v)) => v | _ => s0.validity
  requestStatus : s.requestStatus = match lastTo 4 l with | some (.requestStatus b) => b | _ => s0.requestStatus
  ref : s.ref = match lastTo 5 l with | some (.ref r) => r | _ => s0.ref
  randId : s.randId = match lastTo 6 l with | some (.randId r) => r | _ => s0.randId
  pid : s.pid = match lastTo 7 l with | some (.pid p) => p | _ => s0.pid
  text : s.text = match lastTo 8 l with | some (.text t) => t | _ => s0.text
  fmt : s.fmt = match lastTo 9 l with | some (.fmt f) => f | _ => s0.fmt
  idList : s.idList = s0.idList
  dcs : s.dcs = s0.dcs
  textGsm : s.textGsm = s0.textGsm

open Classical in
theorem lastTo_snoc (a : Fin 10) (l : List Assign) (x : Assign) :
    lastTo a (l ++ [x]) = if x.attr = a ∧ x.Ok then some x else lastTo a l := by
  unfold lastTo
  rw [List.foldl_append]
  rfl

/-- an assignment raises exactly when its value is not acceptable, and then changes nothing -/
theorem C77_refused (x : Assign) (s : State) : (x.Ok ↔ ∃ s', x.exec s = .ok () s') ∧
    (¬ x.Ok → (x.exec s).state = s) := by
  have triv : ∀ (p q : Prop) (r : Prop), p → q → ((p ↔ q) ∧ (¬ p → r)) :=
    fun p q r hp hq => ⟨⟨fun _ => hq, fun _ => hp⟩, fun h => absurd hp h⟩
  have bad : ∀ (p : Prop) (e : PyErr), ¬ p → x.exec s = .err e s →
      ((p ↔ ∃ s', x.exec s = .ok () s') ∧ (¬ p → (x.exec s).state = s)) := by
    intro p e hp he
    refine ⟨⟨fun h => absurd h hp, ?_⟩, fun _ => by rw [he]; rfl⟩
    rintro ⟨s', h⟩
    rw [he] at h
    cases h
  cases x with
  | number v =>
    by_cases h : Accepted v
    · exact triv _ _ _ h ⟨_, (C18_number s v).1 h⟩
    · exact bad _ _ h ((C18_number s v).2 h)
  | csca v =>
    by_cases h : Accepted v
    · exact triv _ _ _ h ⟨_, (C18_csca s v).1 h⟩
    · exact bad _ _ h ((C18_csca s v).2 h)
  | klass k =>
    cases k with
    | notInt => exact bad _ _ (by rintro ⟨n, _, h⟩; cases h) (C19_class s 0).2.2
    | int k =>
      by_cases h : 0 ≤ k ∧ k ≤ 3
      · obtain ⟨n, hn, he⟩ := (C19_class s k).1 h
        exact triv _ _ _ ⟨n, by omega, by rw [hn]⟩ ⟨_, he⟩
      · refine bad _ _ ?_ ((C19_class s k).2.1 h)
        rintro ⟨n, hn, he⟩
        injection he with he
        omega
  | validity v =>
    cases v with
    | valid w => exact triv _ _ _ ⟨w, rfl⟩ ⟨_, rfl⟩
    | other => exact bad _ _ (by rintro ⟨w, h⟩; cases h) rfl
  | requestStatus b => exact triv _ _ _ trivial ⟨_, rfl⟩
  | ref b => exact triv _ _ _ trivial ⟨_, rfl⟩
  | randId b => exact triv _ _ _ trivial ⟨_, rfl⟩
  | pid b => exact triv _ _ _ trivial ⟨_, rfl⟩
  | text b => exact triv _ _ _ trivial ⟨_, rfl⟩
  | fmt b => exact triv _ _ _ trivial ⟨_, rfl⟩

/-- whatever the assignments: every attribute has the value of the last acceptable assignment to it -/
theorem C77_last (s : State) (l : List Assign) : Holds s l (assignAll s l) := by
  induction l using List.reverseRecOn with
  | nil => exact ⟨rfl, rfl, rfl, rfl, rfl, rfl, rfl, rfl, rfl, rfl, rfl, rfl, rfl⟩
  | append_singleton l x ih =>
    have e : assignAll s (l ++ [x]) = (x.exec (assignAll s l)).state := by
      unfold assignAll
      rw [List.foldl_append]
      rfl
    rw [e]
    by_cases hx : x.Ok
    · have hl : ∀ a, lastTo a (l ++ [x]) = if x.attr = a then some x else lastTo a l := fun a => by
        rw [lastTo_snoc]
        by_cases h : x.attr = a
        · rw [if_pos ⟨h, hx⟩, if_pos h]
        · rw [if_neg (fun h' => h h'.1), if_neg h]
      have old : ∀ {a : Fin 10}, x.attr ≠ a → lastTo a (l ++ [x]) = lastTo a l := fun h => by rw [hl, if_neg h]
      have new : lastTo x.attr (l ++ [x]) = some x := by rw [hl, if_pos rfl]
      revert old new
      cases x with
      | number v =>
        rw [show (Assign.exec (.number v) (assignAll s l)) = _ from (C18_number _ v).1 hx]
        intro old new
        exact ⟨by rw [show lastTo 0 _ = _ from new]; rfl,
          by rw [old (by show (0 : Fin 10) ≠ 1; decide)]; exact ih.csca,
          by rw [old (by show (0 : Fin 10) ≠ 2; decide)]; exact ih.klass,
          by rw [old (by show (0 : Fin 10) ≠ 3; decide)]; exact ih.validity,
          by rw [old (by show (0 : Fin 10) ≠ 4; decide)]; exact ih.requestStatus,
          by rw [old (by show (0 : Fin 10) ≠ 5; decide)]; exact ih.ref,
          by rw [old (by show (0 : Fin 10) ≠ 6; decide)]; exact ih.randId,
          by rw [old (by show (0 : Fin 10) ≠ 7; decide)]; exact ih.pid,
          by rw [old (by show (0 : Fin 10) ≠ 8; decide)]; exact ih.text,
          by rw [old (by show (0 : Fin 10) ≠ 9; decide)]; exact ih.fmt,
          ih.idList,
          ih.dcs,
          ih.textGsm⟩
      | csca v =>
        rw [show (Assign.exec (.csca v) (assignAll s l)) = _ from (C18_csca _ v).1 hx]
        intro old new
        exact ⟨by rw [old (by show (1 : Fin 10) ≠ 0; decide)]; exact ih.number,
          by rw [show lastTo 1 _ = _ from new]; rfl,
          by rw [old (by show (1 : Fin 10) ≠ 2; decide)]; exact ih.klass,
          by rw [old (by show (1 : Fin 10) ≠ 3; decide)]; exact ih.validity,
          by rw [old (by show (1 : Fin 10) ≠ 4; decide)]; exact ih.requestStatus,
          by rw [old (by show (1 : Fin 10) ≠ 5; decide)]; exact ih.ref,
          by rw [old (by show (1 : Fin 10) ≠ 6; decide)]; exact ih.randId,
          by rw [old (by show (1 : Fin 10) ≠ 7; decide)]; exact ih.pid,
          by rw [old (by show (1 : Fin 10) ≠ 8; decide)]; exact ih.text,
          by rw [old (by show (1 : Fin 10) ≠ 9; decide)]; exact ih.fmt,
          ih.idList,
          ih.dcs,
          ih.textGsm⟩
      | klass v =>
        obtain ⟨n, hn, rfl⟩ := hx
        obtain ⟨n', hn', he⟩ := (C19_class (assignAll s l) n).1 ⟨by omega, by omega⟩
        have hn' : n' = n := by omega
        subst hn'
        rw [show (Assign.exec (.klass (.int n')) (assignAll s l)) = _ from he]
        intro old new
        exact ⟨by rw [old (by show (2 : Fin 10) ≠ 0; decide)]; exact ih.number,
          by rw [old (by show (2 : Fin 10) ≠ 1; decide)]; exact ih.csca,
          by rw [show lastTo 2 _ = _ from new]; rfl,
          by rw [old (by show (2 : Fin 10) ≠ 3; decide)]; exact ih.validity,
          by rw [old (by show (2 : Fin 10) ≠ 4; decide)]; exact ih.requestStatus,
          by rw [old (by show (2 : Fin 10) ≠ 5; decide)]; exact ih.ref,
          by rw [old (by show (2 : Fin 10) ≠ 6; decide)]; exact ih.randId,
          by rw [old (by show (2 : Fin 10) ≠ 7; decide)]; exact ih.pid,
          by rw [old (by show (2 : Fin 10) ≠ 8; decide)]; exact ih.text,
          by rw [old (by show (2 : Fin 10) ≠ 9; decide)]; exact ih.fmt,
          ih.idList,
          ih.dcs,
          ih.textGsm⟩
      | validity v =>
        obtain ⟨w, rfl⟩ := hx
        intro old new
        exact ⟨by rw [old (by show (3 : Fin 10) ≠ 0; decide)]; exact ih.number,
          by rw [old (by show (3 : Fin 10) ≠ 1; decide)]; exact ih.csca,
          by rw [old (by show (3 : Fin 10) ≠ 2; decide)]; exact ih.klass,
          by rw [show lastTo 3 _ = _ from new]; rfl,
          by rw [old (by show (3 : Fin 10) ≠ 4; decide)]; exact ih.requestStatus,
          by rw [old (by show (3 : Fin 10) ≠ 5; decide)]; exact ih.ref,
          by rw [old (by show (3 : Fin 10) ≠ 6; decide)]; exact ih.randId,
          by rw [old (by show (3 : Fin 10) ≠ 7; decide)]; exact ih.pid,
          by rw [old (by show (3 : Fin 10) ≠ 8; decide)]; exact ih.text,
          by rw [old (by show (3 : Fin 10) ≠ 9; decide)]; exact ih.fmt,
          ih.idList,
          ih.dcs,
          ih.textGsm⟩
      | requestStatus v =>
        intro old new
        exact ⟨by rw [old (by show (4 : Fin 10) ≠ 0; decide)]; exact ih.number,
          by rw [old (by show (4 : Fin 10) ≠ 1; decide)]; exact ih.csca,
          by rw [old (by show (4 : Fin 10) ≠ 2; decide)]; exact ih.klass,
          by rw [old (by show (4 : Fin 10) ≠ 3; decide)]; exact ih.validity,
          by rw [show lastTo 4 _ = _ from new]; rfl,
          by rw [old (by show (4 : Fin 10) ≠ 5; decide)]; exact ih.ref,
          by rw [old (by show (4 : Fin 10) ≠ 6; decide)]; exact ih.randId,
          by rw [old (by show (4 : Fin 10) ≠ 7; decide)]; exact ih.pid,
          by rw [old (by show (4 : Fin 10) ≠ 8; decide)]; exact ih.text,
          by rw [old (by show (4 : Fin 10) ≠ 9; decide)]; exact ih.fmt,
          ih.idList,
          ih.dcs,
          ih.textGsm⟩
      | ref v =>
        intro old new
        exact ⟨by rw [old (by show (5 : Fin 10) ≠ 0; decide)]; exact ih.number,
          by rw [old (by show (5 : Fin 10) ≠ 1; decide)]; exact ih.csca,
          by rw [old (by show (5 : Fin 10) ≠ 2; decide)]; exact ih.klass,
          by rw [old (by show (5 : Fin 10) ≠ 3; decide)]; exact ih.validity,
          by rw [old (by show (5 : Fin 10) ≠ 4; decide)]; exact ih.requestStatus,
          by rw [show lastTo 5 _ = _ from new]; rfl,
          by rw [old (by show (5 : Fin 10) ≠ 6; decide)]; exact ih.randId,
          by rw [old (by show (5 : Fin 10) ≠ 7; decide)]; exact ih.pid,
          by rw [old (by show (5 : Fin 10) ≠ 8; decide)]; exact ih.text,
          by rw [old (by show (5 : Fin 10) ≠ 9; decide)]; exact ih.fmt,
          ih.idList,
          ih.dcs,
          ih.textGsm⟩
      | randId v =>
        intro old new
        exact ⟨by rw [old (by show (6 : Fin 10) ≠ 0; decide)]; exact ih.number,
          by rw [old (by show (6 : Fin 10) ≠ 1; decide)]; exact ih.csca,
          by rw [old (by show (6 : Fin 10) ≠ 2; decide)]; exact ih.klass,
          by rw [old (by show (6 : Fin 10) ≠ 3; decide)]; exact ih.validity,
          by rw [old (by show (6 : Fin 10) ≠ 4; decide)]; exact ih.requestStatus,
          by rw [old (by show (6 : Fin 10) ≠ 5; decide)]; exact ih.ref,
          by rw [show lastTo 6 _ = _ from new]; rfl,
          by rw [old (by show (6 : Fin 10) ≠ 7; decide)]; exact ih.pid,
          by rw [old (by show (6 : Fin 10) ≠ 8; decide)]; exact ih.text,
          by rw [old (by show (6 : Fin 10) ≠ 9; decide)]; exact ih.fmt,
          ih.idList,
          ih.dcs,
          ih.textGsm⟩
      | pid v =>
        intro old new
        exact ⟨by rw [old (by show (7 : Fin 10) ≠ 0; decide)]; exact ih.number,
          by rw [old (by show (7 : Fin 10) ≠ 1; decide)]; exact ih.csca,
          by rw [old (by show (7 : Fin 10) ≠ 2; decide)]; exact ih.klass,
          by rw [old (by show (7 : Fin 10) ≠ 3; decide)]; exact ih.validity,
          by rw [old (by show (7 : Fin 10) ≠ 4; decide)]; exact ih.requestStatus,
          by rw [old (by show (7 : Fin 10) ≠ 5; decide)]; exact ih.ref,
          by rw [old (by show (7 : Fin 10) ≠ 6; decide)]; exact ih.randId,
          by rw [show lastTo 7 _ = _ from new]; rfl,
          by rw [old (by show (7 : Fin 10) ≠ 8; decide)]; exact ih.text,
          by rw [old (by show (7 : Fin 10) ≠ 9; decide)]; exact ih.fmt,
          ih.idList,
          ih.dcs,
          ih.textGsm⟩
      | text v =>
        intro old new
        exact ⟨by rw [old (by show (8 : Fin 10) ≠ 0; decide)]; exact ih.number,
          by rw [old (by show (8 : Fin 10) ≠ 1; decide)]; exact ih.csca,
          by rw [old (by show (8 : Fin 10) ≠ 2; decide)]; exact ih.klass,
          by rw [old (by show (8 : Fin 10) ≠ 3; decide)]; exact ih.validity,
          by rw [old (by show (8 : Fin 10) ≠ 4; decide)]; exact ih.requestStatus,
          by rw [old (by show (8 : Fin 10) ≠ 5; decide)]; exact ih.ref,
          by rw [old (by show (8 : Fin 10) ≠ 6; decide)]; exact ih.randId,
          by rw [old (by show (8 : Fin 10) ≠ 7; decide)]; exact ih.pid,
          by rw [show lastTo 8 _ = _ from new]; rfl,
          by rw [old (by show (8 : Fin 10) ≠ 9; decide)]; exact ih.fmt,
          ih.idList,
          ih.dcs,
          ih.textGsm⟩
      | fmt v =>
        intro old new
        exact ⟨by rw [old (by show (9 : Fin 10) ≠ 0; decide)]; exact ih.number,
          by rw [old (by show (9 : Fin 10) ≠ 1; decide)]; exact ih.csca,
          by rw [old (by show (9 : Fin 10) ≠ 2; decide)]; exact ih.klass,
          by rw [old (by show (9 : Fin 10) ≠ 3; decide)]; exact ih.validity,
          by rw [old (by show (9 : Fin 10) ≠ 4; decide)]; exact ih.requestStatus,
          by rw [old (by show (9 : Fin 10) ≠ 5; decide)]; exact ih.ref,
          by rw [old (by show (9 : Fin 10) ≠ 6; decide)]; exact ih.randId,
          by rw [old (by show (9 : Fin 10) ≠ 7; decide)]; exact ih.pid,
          by rw [old (by show (9 : Fin 10) ≠ 8; decide)]; exact ih.text,
          by rw [show lastTo 9 _ = _ from new]; rfl,
          ih.idList,
          ih.dcs,
          ih.textGsm⟩
    · rw [(C77_refused x _).2 hx]
      have hl : ∀ a, lastTo a (l ++ [x]) = lastTo a l := fun a => by rw [lastTo_snoc, if_neg (fun h => hx h.2)]
      exact ⟨by rw [hl]; exact ih.number, by rw [hl]; exact ih.csca, by rw [hl]; exact ih.klass, by rw [hl]; exact ih.validity,
        by rw [hl]; exact ih.requestStatus, by rw [hl]; exact ih.ref, by rw [hl]; exact ih.randId, by rw [hl]; exact ih.pid,
        by rw [hl]; exact ih.text, by rw [hl]; exact ih.fmt, ih.idList, ih.dcs, ih.textGsm⟩

/-- two sequences of assignments with the same last acceptable assignments, in whatever order and with whatever refused or
overwritten ones in between, give the same PDUs -/
theorem C77_order (s : State) (l l' : List Assign) (h : ∀ a, lastTo a l = lastTo a l') :
    toPdu (assignAll s l) = toPdu (assignAll s l') := by
  have e : assignAll s l = assignAll s l' := by
    have h1 := C77_last s l
    have h2 := C77_last s l'
    revert h1 h2
    generalize assignAll s l = x
    generalize assignAll s l' = y
    intro h1 h2
    cases x
    cases y
    simp only [State.mk.injEq]
    refine ⟨?_, ?_, ?_, ?_, ?_, ?_, ?_, ?_, ?_, ?_, ?_, ?_, ?_⟩
    · exact (h1.number.trans (by rw [h])).trans h2.number.symm
    · exact (h1.csca.trans (by rw [h])).trans h2.csca.symm
    · exact (h1.klass.trans (by rw [h])).trans h2.klass.symm
    · exact (h1.validity.trans (by rw [h])).trans h2.validity.symm
    · exact (h1.requestStatus.trans (by rw [h])).trans h2.requestStatus.symm
    · exact (h1.ref.trans (by rw [h])).trans h2.ref.symm
    · exact (h1.randId.trans (by rw [h])).trans h2.randId.symm
    · exact h1.idList.trans h2.idList.symm
    · exact (h1.pid.trans (by rw [h])).trans h2.pid.symm
    · exact (h1.text.trans (by rw [h])).trans h2.text.symm
    · exact (h1.fmt.trans (by rw [h])).trans h2.fmt.symm
    · exact h1.dcs.trans h2.dcs.symm
    · exact h1.textGsm.trans h2.textGsm.symm
  rw [e]

/-- the hypothesis of `C77_order` holds for two different sequences, one with a class that is refused and a protocol
identifier that is overwritten -/
example (a : Fin 10) : lastTo a [.pid 1, .klass (.int 2)] = lastTo a [.pid 0, .klass (.int 2), .klass (.int 7), .pid 1] := by
  have h2 : (Assign.klass (.int 2)).Ok := ⟨2, by decide, rfl⟩
  have h7 : ¬ (Assign.klass (.int 7)).Ok := by
    rintro ⟨n, hn, h⟩
    injection h with h
    omega
  have hp : ∀ n, (Assign.pid n).Ok := fun _ => trivial
  have e1 : ∀ k, (Assign.klass k).attr = 2 := fun _ => rfl
  have e2 : ∀ k, (Assign.pid k).attr = 7 := fun _ => rfl
  simp only [lastTo, List.foldl_cons, List.foldl_nil, h2, h7, hp, e1, e2, and_true, and_false, if_false]
  by_cases x : (2 : Fin 10) = a
  · have y : ¬ (7 : Fin 10) = a := by rw [← x]; decide
    rw [if_pos x, if_neg y, if_pos x]
  · rw [if_neg x, if_neg x]
    by_cases y : (7 : Fin 10) = a
    · rw [if_pos y, if_pos y]
    · rw [if_neg y, if_neg y, if_neg y]

end Verif.Props

import Verif.Model.Accessors
import Verif.Spec.MsgHistory
import Verif.Proofs.Mms2
import Verif.Proofs.MmsEnc2
/-!
# C81: what a message holds after any history
-/
set_option autoImplicit false

namespace Verif.Props
open Verif Verif.Mms
open Verif.Spec.MsgHistory

/-- the library's answer to a deed -/
def doDeed : Deed → M Msg Unit
  | .page p => Msg.addPage p
  | .part p => Msg.addDataPart p
  | .header n v => Msg.setHeader n v
  | .drop n => Msg.delHeader n

/-- the message after a deed, whether it raised or not -/
def deedState : Res Msg Unit → Msg
  | .ok _ m => m
  | .err _ m => m

/-- a new message after a history -/
def msgAfter (h : List Deed) : Msg := h.foldl (fun m d => deedState (doDeed d m)) Msg.new

theorem msgAfter_snoc (h : List Deed) (d : Deed) : msgAfter (h ++ [d]) = deedState (doDeed d (msgAfter h)) := by
  simp [msgAfter]

theorem first_iff {v : HVal} {t : Str} : v.first = .ok t ↔ First v t := by
  constructor
  · intro h
    unfold HVal.first at h
    split at h
    · injection h with h; subst h; exact .ct _ _
    · injection h with h; subst h; exact .tup _ _
    · split at h
      · cases h
      · injection h with h; subst h; exact .str _ _
    · split at h
      · cases h
      · injection h with h; subst h; exact .uni _ _
    · cases h
  · rintro (_ | _ | _ | _) <;> rfl

/-- the four ways of adding a slide -/
theorem addPage_cases (m : Msg) (p : Page) :
    (m.headers.get (py! "Content-Type") = none ∧ Msg.addPage p m = .err .keyError m) ∨
    (∃ v, m.headers.get (py! "Content-Type") = some v ∧
      ((∃ e, v.first = .error e ∧ Msg.addPage p m = .err e m) ∨
       (First v (py! "application/vnd.wap.multipart.related") ∧ Msg.addPage p m = .ok () { m with pages := m.pages ++ [p] }) ∨
       (∃ t, First v t ∧ t ≠ py! "application/vnd.wap.multipart.related" ∧ Msg.addPage p m = .ok () { m with
          headers := m.headers.set (py! "Content-Type") (.ct (py! "application/vnd.wap.multipart.related") [])
          pages := m.pages ++ [p] }))) := by
  cases hg : m.headers.get (py! "Content-Type") with
  | none =>
    refine .inl ⟨rfl, ?_⟩
    simp only [Msg.addPage, M.bind_apply, M.get, Msg.contentType, Dict.index, hg]
    rfl
  | some v =>
    refine .inr ⟨v, rfl, ?_⟩
    have hc : m.contentType = v.first := by
      simp only [Msg.contentType, Dict.index, hg]
      rfl
    cases hf : v.first with
    | error e =>
      refine .inl ⟨e, rfl, ?_⟩
      simp only [Msg.addPage, M.bind_apply, M.get, hc, hf]
      rfl
    | ok t =>
      refine .inr ?_
      by_cases ht : t = py! "application/vnd.wap.multipart.related"
      · subst ht
        refine .inl ⟨first_iff.1 hf, ?_⟩
        simp only [Msg.addPage, M.bind_apply, M.get, hc, hf]
        rfl
      · refine .inr ⟨t, first_iff.1 hf, ht, ?_⟩
        simp only [Msg.addPage, M.bind_apply, M.get, hc, hf, M.lift, if_pos ht]
        rfl

/-- C81: `add_page` is accepted exactly when Content-Type has a first item. -/
theorem C81_accepts (m : Msg) (p : Page) : (∃ m', Msg.addPage p m = .ok () m') ↔
    ∃ v t, m.headers.get (py! "Content-Type") = some v ∧ First v t := by
  rcases addPage_cases m p with ⟨hg, h⟩ | ⟨v, hg, ⟨e, hf, h⟩ | ⟨hf, h⟩ | ⟨t, hf, ht, h⟩⟩
  · rw [h]
    exact ⟨fun ⟨_, h⟩ => (by cases h), fun ⟨v, _, h, _⟩ => by rw [hg] at h; cases h⟩
  · rw [h]
    refine ⟨fun ⟨_, h⟩ => (by cases h), fun ⟨v', t, h, h'⟩ => ?_⟩
    rw [hg] at h
    injection h with h
    subst h
    rw [first_iff.2 h'] at hf
    cases hf
  · exact ⟨fun _ => ⟨v, _, hg, hf⟩, fun _ => ⟨_, h⟩⟩
  · exact ⟨fun _ => ⟨v, _, hg, hf⟩, fun _ => ⟨_, h⟩⟩

/-- C81: a deed that fails (`add_page` without a usable Content-Type, deleting a header that is not there) leaves the
message as it was. -/
theorem C81_failed (d : Deed) (m m' : Msg) (e : PyErr) (h : doDeed d m = .err e m') : m' = m := by
  cases d with
  | page p =>
    rcases addPage_cases m p with ⟨hg, h'⟩ | ⟨v, hg, ⟨e, hf, h'⟩ | ⟨hf, h'⟩ | ⟨t, hf, ht, h'⟩⟩ <;>
      rw [show doDeed (.page p) m = _ from h'] at h
    · injection h with _ h; exact h.symm
    · injection h with _ h; exact h.symm
    · cases h
    · cases h
  | part p => cases h
  | header n v => cases h
  | drop n =>
    simp only [doDeed, Msg.delHeader, M.bind_apply, M.get] at h
    cases hi : m.headers.index n with
    | error e => rw [hi] at h; injection h with _ h; exact h.symm
    | ok v => rw [hi] at h; cases h

/-- C81: data parts are those added, in order, whatever else is done; likewise the size of the screen and the meta tags
stay those of a new message. -/
theorem C81_parts (h : List Deed) : (msgAfter h).dataParts = parts h ∧ (msgAfter h).width = 176 ∧
    (msgAfter h).height = 220 ∧ (msgAfter h).metaTags = [] := by
  induction h using List.reverseRecOn with
  | nil => exact ⟨rfl, rfl, rfl, rfl⟩
  | append_singleton h d ih =>
    rw [msgAfter_snoc]
    obtain ⟨i1, i2, i3, i4⟩ := ih
    have hp : parts (h ++ [d]) = parts h ++ parts [d] := by simp [parts]
    rw [hp]
    cases d with
    | page p =>
      have : parts [.page p] = [] := rfl
      rw [this, List.append_nil]
      rcases addPage_cases (msgAfter h) p with ⟨hg, h'⟩ | ⟨v, hg, ⟨e, hf, h'⟩ | ⟨hf, h'⟩ | ⟨t, hf, ht, h'⟩⟩ <;>
        rw [show doDeed (.page p) _ = _ from h'] <;> exact ⟨i1, i2, i3, i4⟩
    | part p =>
      have : parts [.part p] = [p] := rfl
      rw [this]
      exact ⟨by rw [← i1]; rfl, i2, i3, i4⟩
    | header n v =>
      have : parts [.header n v] = [] := rfl
      rw [this, List.append_nil]
      exact ⟨i1, i2, i3, i4⟩
    | drop n =>
      have : parts [.drop n] = [] := rfl
      rw [this, List.append_nil]
      simp only [doDeed, Msg.delHeader, M.bind_apply, M.get]
      cases (msgAfter h).headers.index n <;> exact ⟨i1, i2, i3, i4⟩

theorem default_iff (n : Str) (v : HVal) : Msg.new.headers.get n = some v ↔ Default n v := by
  constructor
  · intro h
    simp only [Msg.new, Dict.get] at h
    split at h
    · next e => subst e; injection h with h; subst h; exact .type
    split at h
    · next e => subst e; injection h with h; subst h; exact .transaction
    split at h
    · next e => subst e; injection h with h; subst h; exact .version
    split at h
    · next e => subst e; injection h with h; subst h; exact .ct
    cases h
  · rintro (_ | _ | _ | _) <;> rfl

theorem msgAfter_ok (h : List Deed) : (msgAfter h).headers.Ok := by
  induction h using List.reverseRecOn with
  | nil => show Msg.new.headers.Ok; unfold Dict.Ok; decide
  | append_singleton h d ih =>
    rw [msgAfter_snoc]
    cases d with
    | page p =>
      rcases addPage_cases (msgAfter h) p with ⟨hg, h'⟩ | ⟨v, hg, ⟨e, hf, h'⟩ | ⟨hf, h'⟩ | ⟨t, hf, ht, h'⟩⟩ <;>
        rw [show doDeed (.page p) _ = _ from h']
      · exact ih
      · exact ih
      · exact ih
      · exact ih.set _ _
    | part p => exact ih
    | header n v => exact ih.set _ _
    | drop n =>
      simp only [doDeed, Msg.delHeader, M.bind_apply, M.get]
      cases (msgAfter h).headers.index n
      · exact ih
      · exact ih.del _

theorem drop_get (m : Msg) (hk : m.headers.Ok) (n n' : Str) :
    (deedState (doDeed (.drop n') m)).headers.get n = if n' = n then none else m.headers.get n := by
  simp only [doDeed, Msg.delHeader, M.bind_apply, M.get]
  cases hi : m.headers.index n' with
  | error e =>
    show m.headers.get n = _
    split
    · next he =>
      subst he
      unfold Dict.index at hi
      cases hg : m.headers.get n' with
      | none => rfl
      | some v => rw [hg] at hi; cases hi
    · rfl
  | ok v =>
    show (m.headers.del n').get n = _
    split
    · next he => subst he; exact hk.get_del _
    · next he => exact Dict.get_del_ne he

/-- C81: every header is as last assigned or deleted, or the default; a slide makes Content-Type
application/vnd.wap.multipart.related and drops its parameters, unless it is of this type already. -/
theorem C81_header (h : List Deed) (n : Str) (r : Option HVal) : (msgAfter h).headers.get n = r ↔ Worth n h r := by
  have key : ∀ h, Worth n h ((msgAfter h).headers.get n) := by
    intro h
    induction h using List.reverseRecOn with
    | nil =>
      show Worth n [] (Msg.new.headers.get n)
      cases hg : Msg.new.headers.get n with
      | none => exact .absent fun v hv => by rw [(default_iff n v).2 hv] at hg; cases hg
      | some v => exact .default v ((default_iff n v).1 hg)
    | append_singleton h d ih =>
      rw [msgAfter_snoc]
      cases d with
      | page p =>
        rcases addPage_cases (msgAfter h) p with ⟨hg, h'⟩ | ⟨v, hg, ⟨e, hf, h'⟩ | ⟨hf, h'⟩ | ⟨t, hf, ht, h'⟩⟩ <;>
          rw [show doDeed (.page p) _ = _ from h'] <;> simp only [deedState]
        · refine .keep _ _ _ id (fun _ hn v t hv => ?_) ih
          rw [hn, hg] at hv
          cases hv
        · refine .keep _ _ _ id (fun _ hn v' t hv hf' => ?_) ih
          rw [hn, hg] at hv
          injection hv with hv
          subst hv
          rw [first_iff.2 hf'] at hf
          cases hf
        · refine .keep _ _ _ id (fun _ hn v' t hv hf' => ?_) ih
          rw [hn, hg] at hv
          injection hv with hv
          subst hv
          have h1 := first_iff.2 hf'
          rw [first_iff.2 hf] at h1
          injection h1 with h1
          exact h1.symm
        · simp only [dict_get_set]
          split
          · next hn =>
            subst hn
            rw [hg] at ih
            exact .related _ _ _ _ rfl ih hf ht
          · next hn => exact .keep _ _ _ id (fun _ hn' => absurd hn'.symm hn) ih
      | part p => exact .keep _ _ _ id (fun ⟨_, h⟩ => by cases h) ih
      | header n' v =>
        simp only [doDeed, Msg.setHeader, M.modify, deedState, dict_get_set]
        split
        · next hn => subst hn; exact .set _ _
        · next hn => exact .keep _ _ _ hn (fun ⟨_, h⟩ => by cases h) ih
      | drop n' =>
        rw [drop_get _ (msgAfter_ok h)]
        split
        · next hn => subst hn; exact .del _
        · next hn => exact .keep _ _ _ hn (fun ⟨_, h⟩ => by cases h) ih
  have uniq : ∀ h r s, Worth n h r → Worth n h s → r = s := by
    intro h
    induction h using List.reverseRecOn with
    | nil =>
      intro r s h1 h2
      have : ∀ {h r}, Worth n h r → h = [] → r = Msg.new.headers.get n := by
        intro h r hw he
        cases hw with
        | default v hv => exact ((default_iff n v).2 hv).symm
        | absent hv =>
          cases hg : Msg.new.headers.get n with
          | none => rfl
          | some v => exact absurd ((default_iff n v).1 hg) (hv v)
        | _ => simp at he
      rw [this h1 rfl, this h2 rfl]
    | append_singleton h d ih =>
      -- the value is a function of the deed and the value before
      have fn : ∀ {g r}, Worth n g r → g = h ++ [d] → 
          (∃ v, d = .header n v ∧ r = some v) ∨ (d = .drop n ∧ r = none) ∨
          (∃ p v t, d = .page p ∧ n = py! "Content-Type" ∧ Worth n h (some v) ∧ First v t ∧
            t ≠ py! "application/vnd.wap.multipart.related" ∧ r = some (.ct (py! "application/vnd.wap.multipart.related") [])) ∨
          (¬ d.Touches n ∧ ((∃ p, d = .page p) → n = py! "Content-Type" →
            ∀ v t, r = some v → First v t → t = py! "application/vnd.wap.multipart.related") ∧ Worth n h r) := by
        intro g r hw hg
        cases hw with
        | default v hv => simp at hg
        | absent hv => simp at hg
        | set h' v =>
          obtain ⟨rfl, he⟩ := List.append_inj' hg rfl
          injection he with he
          exact .inl ⟨v, he.symm, rfl⟩
        | del h' =>
          obtain ⟨rfl, he⟩ := List.append_inj' hg rfl
          injection he with he
          exact .inr (.inl ⟨he.symm, rfl⟩)
        | related h' p v t hn hr hv ht =>
          obtain ⟨rfl, he⟩ := List.append_inj' hg rfl
          injection he with he
          exact .inr (.inr (.inl ⟨p, v, t, he.symm, hn, hr, hv, ht, rfl⟩))
        | keep h' d' r hd hp hr =>
          obtain ⟨rfl, he⟩ := List.append_inj' hg rfl
          injection he with he
          subst he
          exact .inr (.inr (.inr ⟨hd, hp, hr⟩))
      intro r s h1 h2
      rcases fn h1 rfl with ⟨v, rfl, rfl⟩ | ⟨rfl, rfl⟩ | ⟨p, v, t, rfl, hn, hr, hv, ht, rfl⟩ | ⟨hd, hp, hr⟩
      · rcases fn h2 rfl with ⟨v, e, rfl⟩ | ⟨e, rfl⟩ | ⟨p, v, t, e, _⟩ | ⟨hd, _⟩
        · injection e with _ e; rw [e]
        · cases e
        · cases e
        · exact absurd rfl hd
      · rcases fn h2 rfl with ⟨v, e, rfl⟩ | ⟨e, rfl⟩ | ⟨p, v, t, e, _⟩ | ⟨hd, _⟩
        · cases e
        · rfl
        · cases e
        · exact absurd rfl hd
      · rcases fn h2 rfl with ⟨v, e, rfl⟩ | ⟨e, rfl⟩ | ⟨p, v, t, e, _, _, _, _, rfl⟩ | ⟨hd, hp, hs⟩
        · cases e
        · cases e
        · rfl
        · exact absurd (hp ⟨_, rfl⟩ hn v t (ih _ _ hs hr) hv) ht
      · rcases fn h2 rfl with ⟨v, rfl, rfl⟩ | ⟨rfl, rfl⟩ | ⟨p, v, t, rfl, hn, hs, hv, ht, rfl⟩ | ⟨_, _, hs⟩
        · exact absurd rfl hd
        · exact absurd rfl hd
        · exact absurd (hp ⟨_, rfl⟩ hn v t (ih _ _ hr hs) hv) ht
        · exact ih _ _ hr hs
  exact ⟨fun e => e ▸ key h, fun hw => uniq _ _ _ (key h) hw⟩

/-- C81: as long as Content-Type keeps a first item, the pages are exactly those added, in order, and every deed on them
is accepted. -/
theorem C81_pages (h : List Deed) (hs : ∀ d ∈ h, d.Sane) : (msgAfter h).getPages = slides h ∧
    ∀ p, ∃ m', Msg.addPage p (msgAfter h) = .ok () m' ∧ m'.getPages = slides h ++ [p] := by
  have key : (msgAfter h).pages = slides h ∧ ∃ v t, (msgAfter h).headers.get (py! "Content-Type") = some v ∧ First v t := by
    induction h using List.reverseRecOn with
    | nil => exact ⟨rfl, _, _, rfl, .ct _ _⟩
    | append_singleton h d ih =>
      obtain ⟨i1, v, t, i2, i3⟩ := ih fun d hd => hs d (by simp [hd])
      have hd := hs d (by simp)
      rw [msgAfter_snoc]
      have hp : slides (h ++ [d]) = slides h ++ slides [d] := by simp [slides]
      rw [hp]
      cases d with
      | page p =>
        have : slides [.page p] = [p] := rfl
        rw [this]
        rcases addPage_cases (msgAfter h) p with ⟨hg, h'⟩ | ⟨v', hg, ⟨e, hf, h'⟩ | ⟨hf, h'⟩ | ⟨t, hf, ht, h'⟩⟩
        · rw [i2] at hg; cases hg
        · rw [i2] at hg
          injection hg with hg
          subst hg
          rw [first_iff.2 i3] at hf
          cases hf
        · rw [show doDeed (.page p) _ = _ from h']
          exact ⟨by rw [← i1]; rfl, v, t, i2, i3⟩
        · rw [show doDeed (.page p) _ = _ from h']
          refine ⟨by rw [← i1]; rfl, _, _, ?_, .ct (py! "application/vnd.wap.multipart.related") []⟩
          simp only [deedState, dict_get_set, if_true]
      | part p =>
        have : slides [.part p] = [] := rfl
        rw [this, List.append_nil]
        exact ⟨i1, v, t, i2, i3⟩
      | header n v' =>
        have : slides [.header n v'] = [] := rfl
        rw [this, List.append_nil]
        refine ⟨i1, ?_⟩
        simp only [doDeed, Msg.setHeader, M.modify, deedState, dict_get_set]
        split
        · next hn =>
          obtain ⟨t', ht'⟩ := hd hn
          exact ⟨v', t', rfl, ht'⟩
        · exact ⟨v, t, i2, i3⟩
      | drop n =>
        have : slides [.drop n] = [] := rfl
        rw [this, List.append_nil, drop_get _ (msgAfter_ok h), if_neg hd]
        refine ⟨?_, v, t, i2, i3⟩
        simp only [doDeed, Msg.delHeader, M.bind_apply, M.get]
        cases (msgAfter h).headers.index n <;> exact i1
  refine ⟨key.1, fun p => ?_⟩
  obtain ⟨m', hm⟩ := (C81_accepts (msgAfter h) p).2 key.2
  refine ⟨m', hm, ?_⟩
  rcases addPage_cases (msgAfter h) p with ⟨hg, h'⟩ | ⟨v', hg, ⟨e, hf, h'⟩ | ⟨hf, h'⟩ | ⟨t, hf, ht, h'⟩⟩ <;>
    rw [h'] at hm
  · cases hm
  · cases hm
  · injection hm with _ hm; rw [← hm, ← key.1]; rfl
  · injection hm with _ hm; rw [← hm, ← key.1]; rfl

/-- C81: which exception a refused slide raises. -/
theorem C81_refused (m : Msg) (p : Page) :
    (m.headers.get (py! "Content-Type") = none → Msg.addPage p m = .err .keyError m) ∧
    (m.headers.get (py! "Content-Type") = some (.v (.str [])) ∨ m.headers.get (py! "Content-Type") = some (.v (.uni [])) →
      Msg.addPage p m = .err .indexError m) ∧
    (∀ x, m.headers.get (py! "Content-Type") = some (.v x) → (∀ s, x ≠ .str s ∧ x ≠ .uni s) →
      Msg.addPage p m = .err .typeError m) := by
  rcases addPage_cases m p with ⟨hg, h⟩ | ⟨v, hg, h⟩
  · rw [hg]
    exact ⟨fun _ => h, fun h => (by rcases h with h | h <;> cases h), fun x h => by cases h⟩
  · rw [hg]
    refine ⟨fun h => (by cases h), fun h' => ?_, fun x h' hx => ?_⟩
    · have hv : v = .v (.str []) ∨ v = .v (.uni []) := by
        rcases h' with h' | h' <;> injection h' with h' <;> simp [h']
      rcases h with ⟨e, hf, h⟩ | ⟨hf, h⟩ | ⟨t, hf, ht, h⟩
      · rcases hv with rfl | rfl <;> · injection hf with hf; rw [h, ← hf]
      · rcases hv with rfl | rfl <;> cases hf
      · rcases hv with rfl | rfl <;> cases hf
    · injection h' with h'
      subst h'
      rcases h with ⟨e, hf, h⟩ | ⟨hf, h⟩ | ⟨t, hf, ht, h⟩
      · cases x with
        | str s => exact absurd rfl (hx s).1
        | uni s => exact absurd rfl (hx s).2
        | _ => injection hf with hf; rw [h, ← hf]
      · cases hf
      · cases hf
        · exact absurd rfl (hx _).1
        · exact absurd rfl (hx _).2

/-- a history with a slide, a header set twice, a string for Content-Type and a deleted header -/
def sampleDeeds : List Deed := [.header (py! "Subject") (.v (.str (py! "a"))), .page Page.new, .header (py! "Subject") (.v (.str (py! "b"))),
  .header (py! "Content-Type") (.v (.str (py! "text/plain"))), .drop (py! "Transaction-Id"), .page Page.new]

example : ∀ d ∈ sampleDeeds, d.Sane := by
  intro d hd
  simp only [sampleDeeds, List.mem_cons, List.not_mem_nil, or_false] at hd
  rcases hd with rfl | rfl | rfl | rfl | rfl | rfl
  · intro h; exact absurd h (by decide)
  · trivial
  · intro h; exact absurd h (by decide)
  · exact fun _ => ⟨_, .str _ _⟩
  · show (_ : Str) ≠ _; decide
  · trivial

example : Worth (py! "Content-Type") sampleDeeds (some (.ct (py! "application/vnd.wap.multipart.related") [])) :=
  (C81_header _ _ _).1 (by decide +kernel)

example : Worth (py! "Subject") sampleDeeds (some (.v (.str (py! "b")))) := (C81_header _ _ _).1 (by decide +kernel)

/-- deleting a header the message does not have, and adding a page when the content type is a number -/
example : ∃ m', doDeed (.drop (py! "Subject")) Msg.new = .err .keyError m' ∧ m' = Msg.new :=
  ⟨_, rfl, C81_failed (.drop (py! "Subject")) Msg.new _ .keyError rfl⟩

example : ∃ e m', doDeed (.page Page.new) (msgAfter [.header (py! "Content-Type") (.v (.int 7))]) = .err e m' ∧
    m'.pages = [] := ⟨_, _, rfl, by rw [C81_failed (.page Page.new) (msgAfter [.header (py! "Content-Type") (.v (.int 7))]) _ _ rfl]; rfl⟩

end Verif.Props

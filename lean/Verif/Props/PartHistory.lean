import Verif.Model.Accessors
import Verif.Spec.PartHistory
import Verif.Proofs.Mms2
/-!
# C80: what a part holds after any history
-/
set_option autoImplicit false

namespace Verif.Props
open Verif Verif.Mms
open Verif.Spec.PartHistory

/-- the part after an action, whether it raised or not -/
def actOn (p : DataPart) (s : Env × Act) : DataPart :=
  match s.2 with
  | .setData d ct ps => st (DataPart.setData d ct ps p)
  | .setText t => st (DataPart.setText t p)
  | .fromFile f => st (DataPart.fromFile s.1 f p)
  | .setContentType ct => st (DataPart.setContentType ct p)
  | .setHeader n v => st (DataPart.setHeader n v p)
  | .read => st (DataPart.getData s.1 p)
  | .size => p
where
  st {α : Type} : Res DataPart α → DataPart
    | .ok _ s => s
    | .err _ s => s

/-- the part after a history -/
def partHist (p : DataPart) (h : List (Env × Act)) : DataPart := h.foldl actOn p

/-- headers after actions that keep the contents -/
theorem hist_headers {h : List (Env × Act)} (hk : ∀ s ∈ h, Keeps s) (p : DataPart) (n : Str) :
    (partHist p h).headers.get n = (lastSet n h).or (p.headers.get n) := by
  induction h generalizing p with
  | nil => rfl
  | cons s r ih =>
    have h1 : (actOn p s).headers.get n = (lastSet n [s]).or (p.headers.get n) := by
      obtain ⟨e, a⟩ := s
      cases a with
      | setData d ct ps => exact False.elim (hk _ List.mem_cons_self)
      | setText t => exact False.elim (hk _ List.mem_cons_self)
      | fromFile f =>
        have : e.files f = none := hk _ List.mem_cons_self
        simp [actOn, actOn.st, DataPart.fromFile, this, M.throw, lastSet]
      | setContentType ct =>
        simp only [actOn, actOn.st, DataPart.setContentType, M.modify, dict_get_set, lastSet]
        split <;> rfl
      | setHeader n' v =>
        simp only [actOn, actOn.st, DataPart.setHeader, M.modify, dict_get_set, lastSet]
        split <;> rfl
      | read =>
        simp only [actOn, DataPart.getData, lastSet, Option.none_or]
        cases p.readData e with
        | error e => rfl
        | ok d => simp only; split <;> rfl
      | size => rfl
    have h2 := ih (fun t ht => hk t (by simp [ht])) (actOn p s)
    show (partHist (actOn p s) r).headers.get n = _
    rw [h2, h1]
    show _ = ((lastSet n (s :: r))).or _
    simp only [lastSet]
    cases lastSet n r <;> rfl

/-- a part that has contents of its own, or none and no file, keeps them -/
theorem hist_data {h : List (Env × Act)} (hk : ∀ s ∈ h, Keeps s) {p : DataPart} (hf : p.filename = none) :
    (partHist p h).filename = none ∧ (partHist p h).data = p.data := by
  induction h generalizing p with
  | nil => exact ⟨hf, rfl⟩
  | cons s r ih =>
    have h1 : (actOn p s).filename = none ∧ (actOn p s).data = p.data := by
      obtain ⟨e, a⟩ := s
      cases a with
      | setData d ct ps => exact False.elim (hk _ List.mem_cons_self)
      | setText t => exact False.elim (hk _ List.mem_cons_self)
      | fromFile f =>
        have : e.files f = none := hk _ List.mem_cons_self
        simp [actOn, actOn.st, DataPart.fromFile, this, M.throw, hf]
      | setContentType ct => exact ⟨hf, rfl⟩
      | setHeader n' v => exact ⟨hf, rfl⟩
      | read =>
        simp only [actOn, DataPart.getData, hf]
        cases p.readData e with
        | error e => exact ⟨hf, rfl⟩
        | ok d => simp [actOn.st, hf]
      | size => exact ⟨hf, rfl⟩
    obtain ⟨i1, i2⟩ := ih (fun t ht => hk t (by simp [ht])) h1.1
    exact ⟨i1, i2.trans h1.2⟩

/-- a part made from a file keeps the first contents that were read -/
theorem hist_file {h : List (Env × Act)} (hk : ∀ s ∈ h, Keeps s) {p : DataPart} {f : Str} (hf : p.filename = some f) :
    (partHist p h).filename = some f ∧ (partHist p h).data = p.data.or (firstRead f h) := by
  induction h generalizing p with
  | nil => exact ⟨hf, by simp [partHist, firstRead]⟩
  | cons s r ih =>
    have h1 : (actOn p s).filename = some f ∧ (actOn p s).data = p.data.or (firstRead f [s]) := by
      obtain ⟨e, a⟩ := s
      cases a with
      | setData d ct ps => exact False.elim (hk _ List.mem_cons_self)
      | setText t => exact False.elim (hk _ List.mem_cons_self)
      | fromFile f' =>
        have : e.files f' = none := hk _ List.mem_cons_self
        simp [actOn, actOn.st, DataPart.fromFile, this, M.throw, hf, firstRead]
      | setContentType ct => exact ⟨hf, by simp [actOn, actOn.st, DataPart.setContentType, M.modify, firstRead]⟩
      | setHeader n' v => exact ⟨hf, by simp [actOn, actOn.st, DataPart.setHeader, M.modify, firstRead]⟩
      | read =>
        simp only [actOn, DataPart.getData, DataPart.readData, hf, firstRead]
        cases hd : p.data with
        | some d => simp [actOn.st, hf, hd]
        | none =>
          cases e.files f with
          | none => simp [actOn.st, hf, hd]
          | some c => simp [actOn.st]
      | size => exact ⟨hf, by simp [actOn, firstRead]⟩
    obtain ⟨i1, i2⟩ := ih (fun t ht => hk t (by simp [ht])) h1.1
    refine ⟨i1, i2.trans ?_⟩
    rw [h1.2]
    have h3 : firstRead f (s :: r) = (firstRead f [s]).or (firstRead f r) := by
      simp only [firstRead]
      split <;> rfl
    rw [h3, Option.or_assoc]

theorem partHist_append (p : DataPart) (a : List (Env × Act)) (s : Env × Act) (b : List (Env × Act)) :
    partHist p (a ++ s :: b) = partHist (actOn (partHist p a) s) b := by
  unfold partHist
  rw [List.foldl_append, List.foldl_cons]

/-- C80: a part made without a file, and nothing set since: no data, and the headers that were assigned, with the default
content type. -/
theorem C80_new (h : List (Env × Act)) (hk : ∀ s ∈ h, Keeps s) (env : Env) :
    let p := partHist DataPart.new h
    p.readData env = .ok [] ∧ p.len env = .ok 0 ∧ ∀ n, p.headers.get n = (lastSet n h).or
      (if py! "Content-Type" = n then some (.ct (py! "application/octet-stream") []) else none) := by
  intro p
  obtain ⟨h1, h2⟩ := hist_data hk (p := DataPart.new) rfl
  refine ⟨?_, ?_, fun n => ?_⟩
  · show DataPart.readData env (partHist DataPart.new h) = _
    unfold DataPart.readData
    rw [h1, h2]
    rfl
  · show DataPart.len env (partHist DataPart.new h) = _
    unfold DataPart.len DataPart.readData
    rw [h1, h2]
    rfl
  · show (partHist DataPart.new h).headers.get n = _
    rw [hist_headers hk]
    rfl

/-- C80: whatever was done before, a part holds what `set_data` gave it until something else is set, whatever happens to
any files, and its headers are those assigned since, with the content type given. -/
theorem C80_data (p0 : DataPart) (h0 h : List (Env × Act)) (e : Env) (d ct : Str) (params : Dict Val)
    (hk : ∀ s ∈ h, Keeps s) (env : Env) :
    let p := partHist p0 (h0 ++ (e, .setData d ct params) :: h)
    p.readData env = .ok d ∧ p.len env = .ok d.length ∧ ∀ n, p.headers.get n = (lastSet n h).or
      (if py! "Content-Type" = n then some (.ct ct params) else none) := by
  intro p
  have hp : p = partHist (actOn (partHist p0 h0) (e, .setData d ct params)) h := partHist_append _ _ _ _
  obtain ⟨h1, h2⟩ := hist_data hk (p := actOn (partHist p0 h0) (e, .setData d ct params)) rfl
  rw [← hp] at h1 h2
  refine ⟨?_, ?_, fun n => ?_⟩
  · unfold DataPart.readData
    rw [h1, h2]
    rfl
  · unfold DataPart.len DataPart.readData
    rw [h1, h2]
    rfl
  · rw [hp, hist_headers hk]
    rfl

/-- C80: `set_text` is `set_data` with content type text/plain and no parameters. -/
theorem C80_text (p0 : DataPart) (h0 h : List (Env × Act)) (e : Env) (t : Str) :
    partHist p0 (h0 ++ (e, .setText t) :: h) = partHist p0 (h0 ++ (e, .setData t (py! "text/plain") []) :: h) := by
  rw [partHist_append, partHist_append]
  rfl

/-- C80: whatever was done before, a part holds, after `from_file` of a file that exists and until something else is set, the
contents the file had when they were first read, and if they never were, those it has; the length is that of the file
as it is.  The headers are those assigned since, with the name of the file without its directories, and the type guessed
from the name. -/
theorem C80_file (p0 : DataPart) (h0 h : List (Env × Act)) (e : Env) (f c : Str) (hc : e.files f = some c)
    (hk : ∀ s ∈ h, Keeps s) (env : Env) :
    let p := partHist p0 (h0 ++ (e, .fromFile f) :: h)
    (∀ c', firstRead f h = some c' → p.readData env = .ok c') ∧
    (firstRead f h = none → ∀ c', env.files f = some c' → p.readData env = .ok c') ∧
    (firstRead f h = none → env.files f = none → p.readData env = .error .ioError) ∧
    (∀ c', env.files f = some c' → p.len env = .ok c'.length) ∧ (env.files f = none → p.len env = .error .osError) ∧
    ∀ n, p.headers.get n = (lastSet n h).or
      (if py! "Content-Type" = n then some (.ct ((e.mime f).getD (py! "application/octet-stream")) [])
       else if py! "Content-Location" = n then some (.v (.str (f.reverse.takeWhile (· ≠ 47)).reverse)) else none) := by
  intro p
  have hp : p = partHist (actOn (partHist p0 h0) (e, .fromFile f)) h := partHist_append _ _ _ _
  have hq : actOn (partHist p0 h0) (e, .fromFile f) = { partHist p0 h0 with
      headers := Dict.set (Dict.set [] (py! "Content-Location") (.v (.str (DataPart.basename f))))
        (py! "Content-Type") (.ct ((e.mime f).getD (py! "application/octet-stream")) [])
      data := none
      filename := some f } := by
    simp only [actOn, DataPart.fromFile, hc]
    rfl
  obtain ⟨h1, h2⟩ := hist_file hk (p := actOn (partHist p0 h0) (e, .fromFile f)) (f := f) (by rw [hq])
  rw [← hp] at h1 h2
  have h2 : p.data = firstRead f h := by rw [h2, hq]; rfl
  refine ⟨fun c' hc' => ?_, fun hn c' hc' => ?_, fun hn hc' => ?_, fun c' hc' => ?_, fun hc' => ?_, fun n => ?_⟩
  · unfold DataPart.readData; rw [h2, hc']
  · unfold DataPart.readData; rw [h2, hn, h1]; simp only [hc']
  · unfold DataPart.readData; rw [h2, hn, h1]; simp only [hc']
  · unfold DataPart.len; rw [h1]; simp only [hc']
  · unfold DataPart.len; rw [h1]; simp only [hc']
  · rw [hp, hist_headers hk, hq]
    simp only [dict_get_set]
    rfl

/-- C80: `from_file` of something that is not a file raises OSError and changes nothing. -/
theorem C80_missing (p : DataPart) (e : Env) (f : Str) (h : e.files f = none) :
    DataPart.fromFile e f p = .err .osError p := by
  unfold DataPart.fromFile
  rw [h]
  rfl

example (p : DataPart) := C80_missing p ⟨fun _ => none, fun _ => none⟩ (py! "/tmp/a") rfl

/-- C80: `content_type` reads what was assigned last, and the assignment discards the parameters. -/
theorem C80_content_type (p : DataPart) (ct : Str) : ∃ p', DataPart.setContentType ct p = .ok () p' ∧
    p'.contentType = .ok ct ∧ p'.headers.get (py! "Content-Type") = some (.ct ct []) ∧ p'.data = p.data ∧
    p'.filename = p.filename ∧ ∀ n, n ≠ py! "Content-Type" → p'.headers.get n = p.headers.get n := by
  have hg : ∀ n, (p.headers.set (py! "Content-Type") (.ct ct [])).get n = if py! "Content-Type" = n then some (.ct ct []) else p.headers.get n :=
    fun n => dict_get_set _ _ _ _
  refine ⟨_, rfl, ?_, ?_, rfl, rfl, fun n hn => ?_⟩
  · unfold DataPart.contentType
    simp only [Dict.index, hg, if_true]
    rfl
  · simp only [hg, if_true]
  · simp only [hg]
    rw [if_neg (Ne.symm hn)]

/-- a history in which a file is read and then changes -/
example : let e1 : Env := ⟨fun _ => some [1, 2], fun _ => some (py! "image/jpeg")⟩
    let e2 : Env := ⟨fun _ => some [3], fun _ => none⟩
    let h : List (Env × Act) := [(e1, .setHeader (py! "Content-ID") (.v (.str (py! "x")))), (e1, .read), (e2, .read), (e2, .size)]
    (∀ s ∈ h, Keeps s) ∧ firstRead (py! "/tmp/a") h = some [1, 2] ∧ e1.files (py! "/tmp/a") = some [1, 2] := by
  refine ⟨?_, rfl, rfl⟩
  intro s hs
  simp only [List.mem_cons, List.not_mem_nil, or_false] at hs
  rcases hs with rfl | rfl | rfl | rfl <;> trivial

end Verif.Props

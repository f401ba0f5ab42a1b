import Verif.Model.Links
import Verif.Props.Changing
import Verif.Props.CutExact
/-!
# C113: files with several names, and disks that become full
-/
set_option autoImplicit false

namespace Verif.Props
open Verif Verif.Mms
open Verif.Spec.Mms Verif.Spec.Wsp
open Verif.Spec.Files (Holds loadedMsg)

/-- what the file of that name contains -/
def contentOf (fs : FileSys) (f : Str) : Option Str := (fs.node f).map fs.data

/-- After `to_file`, successful or not, `from_file` gives the message that was to be written, or raises an exception. -/
def C113_full : Prop := ∀ (ord : Dict HVal → Dict HVal) (rnd : Nat) (mime : Str → Option Str) (d : Disposal) (f : Str) (m m' : Msg)
  (fs : FileSys) (o : List Nat), d.writable f = true → (∀ g, fs.node g ≠ some d.fresh) →
  encodeC (fs.env mime) ord rnd m = .ok o m' →
  let fs' := (toFileL ord rnd mime d f (m, fs)).state.2
  decodeFile (fs'.env mime) f = decodeData o ∨ ∃ e, decodeFile (fs'.env mime) f = .error e

theorem opened_name {fs fs' : FileSys} {d : Disposal} {f : Str} {n : Str} (h : fs.openW d f = (fs', n)) :
    fs'.node f = some n ∧ fs'.data n = [] := by
  unfold FileSys.openW at h
  cases hn : fs.node f with
  | some k =>
    simp only [hn] at h
    injection h with h1 h2
    subst h1 h2
    exact ⟨hn, by simp [FileSys.fill]⟩
  | none =>
    simp only [hn] at h
    injection h with h1 h2
    subst h1 h2
    simp [FileSys.fill]

/-- a name of another file keeps its file, and the file its contents -/
theorem opened_other {fs fs' : FileSys} {d : Disposal} {f g : Str} {n k : Str} (hfr : ∀ g, fs.node g ≠ some d.fresh)
    (h : fs.openW d f = (fs', n)) (hg : fs.node g = some k) (hk : fs.node f ≠ some k) :
    fs'.node g = some k ∧ k ≠ n ∧ fs'.data k = fs.data k := by
  unfold FileSys.openW at h
  cases hn : fs.node f with
  | some j =>
    simp only [hn] at h
    injection h with h1 h2
    subst h1 h2
    have : k ≠ j := fun e => hk (by rw [hn, e])
    exact ⟨hg, this, by simp [FileSys.fill, this]⟩
  | none =>
    simp only [hn] at h
    injection h with h1 h2
    subst h1 h2
    have e1 : k ≠ d.fresh := fun e => hfr g (by rw [hg, e])
    have e2 : g ≠ f := fun e => by rw [e, hn] at hg; cases hg
    simp [FileSys.fill, e1, e2, hg]

theorem opened_encode {fs fs' : FileSys} {d : Disposal} {f : Str} {n : Str} {ord : Dict HVal → Dict HVal} {rnd : Nat}
    {mime : Str → Option Str} {m m' : Msg} {o : List Nat} (hfr : ∀ g, fs.node g ≠ some d.fresh)
    (hf : ∀ p g, Holds m p → p.filename = some g → ∃ k, fs.node g = some k ∧ fs.node f ≠ some k)
    (ho : fs.openW d f = (fs', n)) (h : encodeC (fs.env mime) ord rnd m = .ok o m') :
    encodeC (fs'.env mime) ord rnd m = .ok o m' := by
  obtain ⟨hp, m0, h0, rfl, hp0⟩ := encodeC_pages h
  have hsame : SameFiles (fs.env mime) (fs'.env mime) (slideParts m.pages) := by
    intro p hp
    refine same_of_files fun g hg => ?_
    obtain ⟨k, hk, hk'⟩ := hf p g ((mem_slideParts m p).1 hp) hg
    obtain ⟨a, _, c⟩ := opened_other hfr ho hk hk'
    simp only [FileSys.env, hk, a, Option.map_some, c]
  have h1 : encode (fs'.env mime) ord rnd m = .ok o m0 := (encode_same hsame).trans h0
  rcases encodeC_eq (fs'.env mime) ord rnd m with ⟨o2, m2, g1, g2⟩ | ⟨e, m2, m3, g1, _⟩
  · have := h1.symm.trans g1
    injection this with e1 e2
    subst e1 e2
    rw [g2]
    congr 1
    unfold loadedMsg
    rw [hp0, loadedPages_same hsame]
  · have := h1.symm.trans g1
    cases this

/-- C113: `to_file` on a disk with any room, with any links.  None of the parts comes from the file that is written, under
whatever name.  If there is room for the message it is in the file afterwards, under every name of the file; otherwise
IOError is raised, and the file contains as much of the message as there was room for.  No other file is changed.  A file that is made can be reached under the
other names that lead to it too, and no other name appears. -/
theorem C113_written (ord : Dict HVal → Dict HVal) (rnd : Nat) (mime : Str → Option Str) (d : Disposal) (f : Str) (m m' : Msg)
    (fs : FileSys) (o : List Nat) (hw : d.writable f = true) (hfr : ∀ g, fs.node g ≠ some d.fresh)
    (hf : ∀ p g, Holds m p → p.filename = some g → ∃ k, fs.node g = some k ∧ fs.node f ≠ some k)
    (h : encodeC (fs.env mime) ord rnd m = .ok o m') :
    ∃ fs', toFileL ord rnd mime d f (m, fs) =
        (if o.length ≤ d.room then .ok none (m', fs') else .err .ioError (m', fs')) ∧
      contentOf fs' f = some (o.take d.room) ∧
      (∀ g k, fs.node g = some k → fs.node f = some k → contentOf fs' g = some (o.take d.room)) ∧
      (∀ g k, fs.node g = some k → fs.node f ≠ some k → contentOf fs' g = contentOf fs g) ∧
      (∀ g, g ≠ f → fs.node g = none →
        contentOf fs' g = if fs.node f = none ∧ d.also g = true then some (o.take d.room) else none) := by
  cases ho : fs.openW d f with
  | mk fs1 n =>
  have hE := opened_encode (d := d) hfr hf ho h
  have hname := opened_name ho
  have names : ∀ g k, fs.node g = some k → fs.node f = some k → fs1.node g = some n := by
    intro g k hg hk
    unfold FileSys.openW at ho
    simp only [hk] at ho
    injection ho with h1 h2
    subst h1 h2
    exact hg
  have key : ∀ c, contentOf (fs1.fill n c) f = some c ∧
      (∀ g k, fs.node g = some k → fs.node f = some k → contentOf (fs1.fill n c) g = some c) ∧
      (∀ g k, fs.node g = some k → fs.node f ≠ some k → contentOf (fs1.fill n c) g = contentOf fs g) ∧
      (∀ g, g ≠ f → fs.node g = none →
        contentOf (fs1.fill n c) g = if fs.node f = none ∧ d.also g = true then some c else none) := by
    intro c
    refine ⟨by simp [contentOf, FileSys.fill, hname.1], fun g k hg hk => ?_, fun g k hg hk => ?_, fun g hne hg => ?_⟩
    · simp [contentOf, FileSys.fill, names g k hg hk]
    · obtain ⟨a, b, e⟩ := opened_other hfr ho hg hk
      simp [contentOf, FileSys.fill, a, b, e, hg]
    · unfold FileSys.openW at ho
      cases hn : fs.node f with
      | some k =>
        simp only [hn] at ho
        injection ho with h1 h2
        subst h1 h2
        simp [contentOf, FileSys.fill, hg]
      | none =>
        simp only [hn] at ho
        injection ho with h1 h2
        subst h1 h2
        by_cases ha : d.also g = true
        · simp [contentOf, FileSys.fill, hg, ha]
        · simp [contentOf, FileSys.fill, hg, ha, hne]
  refine ⟨fs1.fill n (o.take d.room), ?_, key _⟩
  unfold toFileL
  simp only [hw, ho, hE]
  by_cases hr : o.length ≤ d.room
  · rw [if_pos hr, List.take_of_length_le hr]
    simp only [Bool.true_eq_false, if_false]
    rw [if_neg (by omega)]
  · rw [if_neg hr]
    simp only [Bool.true_eq_false, if_false]
    rw [if_pos (by omega)]

/-- C113: a message with parts that `from_file` then returns is the one that was to be written, also if the disk was full.
Missing compared with `C113_full`: the exception when `from_file` returns a message without parts, and messages with parts
from the file that is written. -/
theorem C113_partial (ord : Dict HVal → Dict HVal) (rnd : Nat) (mime : Str → Option Str) (d : Disposal) (f : Str) (m m' r : Msg)
    (fs : FileSys) (o : List Nat) (hw : d.writable f = true) (hfr : ∀ g, fs.node g ≠ some d.fresh)
    (hf : ∀ p g, Holds m p → p.filename = some g → ∃ k, fs.node g = some k ∧ fs.node f ≠ some k)
    (h : encodeC (fs.env mime) ord rnd m = .ok o m')
    (hr : decodeFile ((toFileL ord rnd mime d f (m, fs)).state.2.env mime) f = .ok r) (hp : r.dataParts ≠ []) :
    decodeData o = .ok r := by
  obtain ⟨fs', h1, h2, _⟩ := C113_written ord rnd mime d f m m' fs o hw hfr hf h
  have hs : (toFileL ord rnd mime d f (m, fs)).state.2 = fs' := by
    rw [h1]
    split <;> rfl
  rw [hs] at hr
  have h2 : (fs'.env mime).files f = some (o.take d.room) := h2
  unfold decodeFile at hr
  rw [h2] at hr
  have := C73_parts_partial (o.take d.room) (o.drop d.room) r hr hp
  rwa [List.take_append_drop] at this

/-- C113: a conformant message for which there is not enough room is taken for a message without parts exactly if what fits
ends at one of the places of C73. -/
theorem C113_iff (ord : Dict HVal → Dict HVal) (rnd : Nat) (mime : Str → Option Str) (d : Disposal) (f : Str) (m m' : Msg)
    (fs : FileSys) (hs : List Hdr) (c : CType) (ps : List Part) (hh : ∀ h ∈ hs, h.WF) (hc : c.WF)
    (hp : ∀ p ∈ ps, p.WF) (hl : ps.length < 2 ^ 63) (hw : d.writable f = true) (hfr : ∀ g, fs.node g ≠ some d.fresh)
    (hf : ∀ p g, Holds m p → p.filename = some g → ∃ k, fs.node g = some k ∧ fs.node f ≠ some k)
    (h : encodeC (fs.env mime) ord rnd m = .ok (sent hs c ps) m') (hr : d.room < (sent hs c ps).length) :
    (∃ r, decodeFile ((toFileL ord rnd mime d f (m, fs)).state.2.env mime) f = .ok r) ↔ Unnoticed hs c ps d.room := by
  obtain ⟨fs', h1, h2, _⟩ := C113_written ord rnd mime d f m m' fs _ hw hfr hf h
  have hst : (toFileL ord rnd mime d f (m, fs)).state.2 = fs' := by
    rw [h1]
    split <;> rfl
  have h2 : (fs'.env mime).files f = some ((sent hs c ps).take d.room) := h2
  rw [hst, ← C73_iff hs c ps d.room hh hc hp hl hr]
  unfold decodeFile
  rw [h2]

/-- C113: a part that holds nothing yet and whose file is the one that is written, be it under another name, is written
without contents. -/
theorem C113_self (fs fs' : FileSys) (d : Disposal) (mime : Str → Option Str) (f g : Str) (n k : Str) (p : DataPart)
    (ho : fs.openW d f = (fs', n)) (hf : fs.node f = some k) (hg : fs.node g = some k) (hp : p.filename = some g)
    (hd : p.data = none) : p.readData (fs'.env mime) = .ok [] ∧ p.len (fs'.env mime) = .ok 0 := by
  have h : (fs'.env mime).files g = some [] := by
    unfold FileSys.openW at ho
    simp only [hf] at ho
    injection ho with h1 h2
    subst h1 h2
    simp [FileSys.env, FileSys.fill, hg]
  unfold DataPart.readData DataPart.len
  rw [hd, hp]
  simp [h]

/-- C113: a file that cannot be opened for writing: IOError, and nothing has happened. -/
theorem C113_unwritable (ord : Dict HVal → Dict HVal) (rnd : Nat) (mime : Str → Option Str) (d : Disposal) (f : Str)
    (s : Msg × FileSys) (hw : d.writable f = false) : toFileL ord rnd mime d f s = .err .ioError s := by
  unfold toFileL
  rw [if_pos hw]

/-- C113: a message that cannot be encoded: whatever the file contained before is lost, under all its names, whatever else
happens; no other file is changed. -/
theorem C113_lost (ord : Dict HVal → Dict HVal) (rnd : Nat) (mime : Str → Option Str) (d : Disposal) (f : Str)
    (m m' : Msg) (fs fs' : FileSys) (e : PyErr) (hw : d.writable f = true) (hfr : ∀ g, fs.node g ≠ some d.fresh)
    (h : toFileL ord rnd mime d f (m, fs) = .err e (m', fs')) :
    (∃ c : List Nat, c.length ≤ d.room ∧ contentOf fs' f = some c ∧ (e ≠ .ioError → c = []) ∧
      ∀ g k, fs.node g = some k → fs.node f = some k → contentOf fs' g = some c) ∧
    (∀ g k, fs.node g = some k → fs.node f ≠ some k → contentOf fs' g = contentOf fs g) := by
  unfold toFileL at h
  simp only [hw, Bool.true_eq_false, if_false] at h
  cases ho : fs.openW d f with
  | mk fs1 n =>
  have hname := opened_name ho
  have names : ∀ g k, fs.node g = some k → fs.node f = some k → fs1.node g = some n := by
    intro g k hg hk
    unfold FileSys.openW at ho
    simp only [hk] at ho
    injection ho with h1 h2
    subst h1 h2
    exact hg
  simp only [ho] at h
  split at h
  · injection h with h1 h2
    injection h2 with h2 h3
    subst h3
    refine ⟨⟨[], Nat.zero_le _, by simp [contentOf, hname.1, hname.2], fun _ => rfl, fun g k hg hk => ?_⟩,
      fun g k hg hk => ?_⟩
    · simp [contentOf, names g k hg hk, hname.2]
    · obtain ⟨a, b, c⟩ := opened_other hfr ho hg hk
      simp [contentOf, a, c, hg]
  · rename_i o m1 _
    split at h
    · injection h with h1 h2
      injection h2 with h2 h3
      subst h3
      refine ⟨⟨o.take d.room, by simp, by simp [contentOf, FileSys.fill, hname.1], fun hne => absurd h1.symm hne,
        fun g k hg hk => ?_⟩, fun g k hg hk => ?_⟩
      · simp [contentOf, FileSys.fill, names g k hg hk]
      · obtain ⟨a, b, c⟩ := opened_other hfr ho hg hk
        simp [contentOf, FileSys.fill, a, b, c, hg]
    · cases h

/-- the files of a file system in which every name is that of a file of its own -/
def oneName (env : Env) : FileSys := {
  node := fun f => (env.files f).map fun _ => f
  data := fun f => (env.files f).elim [] id }

theorem oneName_env (env : Env) : (oneName env).env env.mime = env := by
  unfold oneName FileSys.env
  have : (fun f => ((env.files f).map fun _ => f).map fun f => (env.files f).elim [] id) = env.files := by
    funext f
    cases h : env.files f with
    | none => rfl
    | some c => simp [h]
  rw [this]

/-- C113: while every name is that of a file of its own and there is room, this is the `to_file` of C68: the same result,
the same message, the same files. -/
theorem C113_agrees (env : Env) (ord : Dict HVal → Dict HVal) (rnd : Nat) (writable : Str → Bool) (f : Str) (m : Msg) (room : Nat)
    (hroom : ∀ o m', encodeC (env.write f []) ord rnd m = .ok o m' → o.length ≤ room) :
    let r := toFileL ord rnd env.mime { writable := writable, fresh := f, also := fun _ => false, room := room } f
      (m, oneName env)
    let r' := toFile ord rnd writable f (m, env)
    r.val = r'.val ∧ r.state.1 = r'.state.1 ∧ r.state.2.env env.mime = r'.state.2 := by
  intro r r'
  cases hw : writable f with
  | false =>
    have h1 : r = .err .ioError (m, oneName env) := C113_unwritable _ _ _ _ _ _ hw
    have h2 : r' = .err .ioError (m, env) := C68_unwritable _ _ _ _ _ hw
    rw [h1, h2]
    exact ⟨rfl, rfl, oneName_env env⟩
  | true =>
    have ho : ∃ fs, (oneName env).openW { writable := writable, fresh := f, also := fun _ => false, room := room } f
        = (fs, f) ∧ ∀ c, (fs.fill (f) c).env env.mime = env.write f c := by
      unfold FileSys.openW
      cases hn : env.files f with
      | some c0 =>
        have : (oneName env).node f = some (f) := by simp [oneName, hn]
        simp only [this]
        refine ⟨_, rfl, fun c => ?_⟩
        unfold Env.write FileSys.env FileSys.fill oneName
        simp only
        congr 1
        funext g
        by_cases e : g = f
        · subst e; simp [hn]
        · simp only [if_neg e]
          cases hg : env.files g with
          | none => rfl
          | some x => simp [e, hg]
      | none =>
        have : (oneName env).node f = none := by simp [oneName, hn]
        simp only [this]
        refine ⟨_, rfl, fun c => ?_⟩
        unfold Env.write FileSys.env FileSys.fill oneName
        simp only
        congr 1
        funext g
        by_cases e : g = f
        · subst e; simp
        · simp only [if_neg e]
          cases hg : env.files g with
          | none => simp [e]
          | some x => simp [e, hg]
    obtain ⟨fs, ho, hc⟩ := ho
    have h0 : fs.env env.mime = env.write f [] := by
      have := hc []
      have h2 : fs.fill (f) [] = fs := by
        have := (opened_name ho).2
        unfold FileSys.fill
        congr 1
        funext k
        by_cases e : k = f
        · rw [if_pos e, e, this]
        · rw [if_neg e]
      rwa [h2] at this
    have hr : r = match encodeC (env.write f []) ord rnd m with
        | .err e m => .err e (m, fs)
        | .ok o m => .ok none (m, fs.fill (f) o) := by
      show toFileL _ _ _ _ _ _ = _
      unfold toFileL
      simp only [hw, Bool.true_eq_false, if_false, ho, h0]
      cases hE : encodeC (env.write f []) ord rnd m with
      | err e m => rfl
      | ok o m1 =>
        have := hroom o m1 hE
        simp only
        rw [if_neg (by omega)]
    have hr' : r' = match encodeC (env.write f []) ord rnd m with
        | .err e m => .err e (m, env.write f [])
        | .ok o m => .ok none (m, env.write f o) := by
      show toFile _ _ _ _ _ = _
      unfold toFile
      simp only [hw, Bool.true_eq_false, if_false]
      cases encodeC (env.write f []) ord rnd m <;> rfl
    rw [hr, hr']
    cases encodeC (env.write f []) ord rnd m with
    | err e m => exact ⟨rfl, rfl, h0⟩
    | ok o m => exact ⟨rfl, rfl, hc o⟩

/-! ### a full disk, and a photo under another name -/

/-- two files; the photo has two names -/
def twoNames : FileSys := { node := fun f => if f = py! "/tmp/a.jpg" ∨ f = py! "/tmp/b" then some (py! "1")
    else if f = py! "/tmp/c" then some (py! "2") else none, data := fun n => if n = py! "1" then [1, 2, 3] else [9] }

/-- a disk with room for so many octets -/
def diskOf (n : Nat) : Disposal := { writable := fun _ => true, fresh := py! "5", also := fun _ => false, room := n }

theorem twoNames_fresh (n : Nat) : ∀ g, twoNames.node g ≠ some (diskOf n).fresh := by
  intro g
  unfold twoNames diskOf
  simp only
  split
  · decide
  · split <;> decide

theorem twoNames_first : lastOctets 11 (encodeC (twoNames.env fun _ => none) id 7 fileMsg) =
    some [158, 142, 97, 46, 106, 112, 103, 0, 1, 2, 3] := by decide +kernel

theorem fileMsg_other : ∀ p g, Holds fileMsg p → p.filename = some g →
    ∃ k, twoNames.node g = some k ∧ twoNames.node (py! "/tmp/c") ≠ some k := by
  rintro p g ⟨s, hs, x, hx⟩ hg
  simp only [fileMsg, List.mem_singleton] at hs
  subst hs
  rcases hx with hx | hx | hx
  · cases hx
    cases hg
    exact ⟨py! "1", by decide, by decide⟩
  · cases hx
  · cases hx

/-- what the parts of a message that was read hold -/
def partsIn : Py Msg → Option (List (Option Str))
  | .ok m => some (m.dataParts.map (fun p => p.data))
  | .error _ => none

/-- the same for octets -/
def partsSent : Res Msg (List Nat) → Option (List (Option Str))
  | .ok o _ => partsIn (decodeData o)
  | .err _ _ => none

def sizeSent : Res Msg (List Nat) → Nat
  | .ok o _ => o.length
  | .err _ _ => 0

/-- the octets of the message have two parts, those of the file none -/
theorem fullDisk_parts : (partsSent (encodeC (twoNames.env fun _ => none) id 7 fileMsg)).map List.length = some 2 ∧
    partsIn (decodeFile ((toFileL id 7 (fun _ => none) (diskOf 0) (py! "/tmp/c") (fileMsg, twoNames)).state.2.env fun _ => none)
      (py! "/tmp/c")) = some [] := by decide +kernel

/-- a full disk: the file is read as a message without parts -/
theorem C113_refuted : ¬ C113_full := by
  intro h
  obtain ⟨o, ho, _⟩ := lastOctets_some twoNames_first
  have h1 := fullDisk_parts.1
  rw [ho] at h1
  have h1 : (partsIn (decodeData o)).map List.length = some 2 := h1
  have h2 := fullDisk_parts.2
  have := h id 7 (fun _ => none) (diskOf 0) (py! "/tmp/c") fileMsg _ twoNames o rfl (twoNames_fresh 0) ho
  simp only at this
  rcases this with h3 | ⟨e, h3⟩
  · rw [h3] at h2
    rw [h2] at h1
    cases h1
  · rw [h3] at h2
    cases h2

/-- so is, on a disk with room, a message written to another name of the file of its only photo: the photo is gone -/
theorem link_lost : (partsSent (encodeC (twoNames.env fun _ => none) id 7 fileMsg)).map (List.drop 1) = some [some [1, 2, 3]] ∧
    (partsIn (decodeFile
      ((toFileL id 7 (fun _ => none) (diskOf 1000) (py! "/tmp/b") (fileMsg, twoNames)).state.2.env fun _ => none)
      (py! "/tmp/b"))).map (List.drop 1) = some [some []] := by decide +kernel

/-- a disk with room, one for 100 octets only, and the theorem on what is read then -/
example : ∃ o m', encodeC (twoNames.env fun _ => none) id 7 fileMsg = .ok o m' ∧ 100 < o.length ∧ o.length ≤ 1000 ∧
    (∃ fs', toFileL id 7 (fun _ => none) (diskOf 1000) (py! "/tmp/c") (fileMsg, twoNames) = .ok none (m', fs')) ∧
    ∃ fs', toFileL id 7 (fun _ => none) (diskOf 100) (py! "/tmp/c") (fileMsg, twoNames) = .err .ioError (m', fs') ∧
      contentOf fs' (py! "/tmp/c") = some (o.take 100) ∧ contentOf fs' (py! "/tmp/b") = some [1, 2, 3] := by
  obtain ⟨o, ho, _⟩ := lastOctets_some twoNames_first
  have hl : 100 < sizeSent (encodeC (twoNames.env fun _ => none) id 7 fileMsg) ∧
      sizeSent (encodeC (twoNames.env fun _ => none) id 7 fileMsg) ≤ 1000 := by decide +kernel
  rw [ho] at hl
  refine ⟨o, _, ho, hl.1, hl.2, ?_, ?_⟩
  · obtain ⟨fs', h, _⟩ := C113_written id 7 (fun _ => none) (diskOf 1000) (py! "/tmp/c") fileMsg _ twoNames o rfl
      (twoNames_fresh _) fileMsg_other ho
    rw [if_pos (show o.length ≤ (diskOf 1000).room from hl.2)] at h
    exact ⟨fs', h⟩
  · obtain ⟨fs', h, h2, _, h3, _⟩ := C113_written id 7 (fun _ => none) (diskOf 100) (py! "/tmp/c") fileMsg _ twoNames o rfl
      (twoNames_fresh _) fileMsg_other ho
    rw [if_neg (show ¬ o.length ≤ (diskOf 100).room from Nat.not_le.2 hl.1)] at h
    exact ⟨fs', h, h2, h3 (py! "/tmp/b") (py! "1") (by decide) (by decide)⟩

/-- a disk on which "new" can be reached as "./new" too -/
def otherNames : Disposal := { diskOf 1000 with also := fun g => g = py! "./new" }

/-- a file that did not exist, reached under a second name ("./new" for "new") -/
example : ∃ o m' fs', encodeC (twoNames.env fun _ => none) id 7 fileMsg = .ok o m' ∧
    toFileL id 7 (fun _ => none) otherNames (py! "new") (fileMsg, twoNames) = .ok none (m', fs') ∧
      contentOf fs' (py! "./new") = some o ∧ contentOf fs' (py! "./old") = none := by
  obtain ⟨o, ho, _⟩ := lastOctets_some twoNames_first
  have hl : sizeSent (encodeC (twoNames.env fun _ => none) id 7 fileMsg) ≤ 1000 := by decide +kernel
  rw [ho] at hl
  have hl : o.length ≤ 1000 := hl
  obtain ⟨fs', h, _, _, _, h2⟩ := C113_written id 7 (fun _ => none) otherNames
    (py! "new") fileMsg _ twoNames o rfl (twoNames_fresh 1000) (by
      intro p g hp hg
      obtain ⟨k, h1, h2⟩ := fileMsg_other p g hp hg
      exact ⟨k, h1, by rw [show twoNames.node (py! "new") = none by decide]; simp⟩) ho
  rw [if_pos (show o.length ≤ otherNames.room from hl)] at h
  have e1 := h2 (py! "./new") (by decide) (by decide)
  have e2 := h2 (py! "./old") (by decide) (by decide)
  rw [if_pos ⟨by decide, by decide⟩, List.take_of_length_le (show o.length ≤ otherNames.room from hl)] at e1
  rw [if_neg (by decide)] at e2
  exact ⟨o, _, fs', ho, h, e1, e2⟩

example := C113_partial id 7 (fun _ => none) (diskOf 1000) (py! "/tmp/c") fileMsg (h := (lastOctets_some twoNames_first).choose_spec.1)
  (hw := rfl) (hfr := twoNames_fresh _) (hf := fileMsg_other)

example := C113_self twoNames _ (diskOf 9) (fun _ => none) (py! "/tmp/b") (py! "/tmp/a.jpg") _ (py! "1")
  { DataPart.new with filename := some (py! "/tmp/a.jpg") } rfl (by decide) (by decide) rfl rfl

example (s : Msg × FileSys) := C113_unwritable id 7 (fun _ => none) { diskOf 9 with writable := fun _ => false } (py! "out") s rfl

/-- a message that cannot be encoded, written to the photo: both names of the photo are empty then -/
example : ∃ e s, toFileL id 7 (fun _ => none) (diskOf 9) (py! "/tmp/b") (badMsg, twoNames) = .err e s ∧ e ≠ .ioError ∧
    contentOf s.2 (py! "/tmp/a.jpg") = some [] := by
  cases h : toFileL id 7 (fun _ => none) (diskOf 9) (py! "/tmp/b") (badMsg, twoNames) with
  | err e s =>
    have h0 : (match toFileL id 7 (fun _ => none) (diskOf 9) (py! "/tmp/b") (badMsg, twoNames) with
      | .ok _ _ => true
      | .err e _ => e == .ioError) = false := by decide +kernel
    rw [h] at h0
    have he : e ≠ .ioError := by
      rintro rfl
      cases h0
    obtain ⟨⟨c, _, _, h2, h3⟩, _⟩ := C113_lost id 7 (fun _ => none) (diskOf 9) (py! "/tmp/b") badMsg s.1 twoNames s.2 e rfl
      (twoNames_fresh _) h
    have := h3 (py! "/tmp/a.jpg") (py! "1") (by decide) (by decide)
    rw [h2 he] at this
    exact ⟨e, s, rfl, he, this⟩
  | ok r s =>
    have : (match toFileL id 7 (fun _ => none) (diskOf 9) (py! "/tmp/b") (badMsg, twoNames) with
      | .ok _ _ => true
      | .err _ _ => false) = false := by decide +kernel
    rw [h] at this
    cases this

example : (toFileL id 7 (fileEnv [1, 2, 3]).mime { writable := fun _ => true, fresh := py! "out", also := fun _ => false, room := 1000 }
    (py! "out") (fileMsg, oneName (fileEnv [1, 2, 3]))).val = (toFile id 7 (fun _ => true) (py! "out") (fileMsg, fileEnv [1, 2, 3])).val := by
  refine (C113_agrees (fileEnv [1, 2, 3]) id 7 (fun _ => true) (py! "out") fileMsg 1000 ?_).1
  intro o m' h
  have : (match encodeC ((fileEnv [1, 2, 3]).write (py! "out") []) id 7 fileMsg with
      | .ok o _ => decide (o.length ≤ 1000)
      | .err _ _ => true) = true := by decide +kernel
  rw [h] at this
  simpa using this

/-! the message without slides, as sent: its headers, its type and the presentation -/

def bareHeaders : List Hdr := [.messageType 4, .transactionId (py! "1234"), .version 1 0]
def bareType : CType := .constrained (.known 35 (py! "application/vnd.wap.multipart.mixed"))
def bareParts (smil : Str) : List Part := [{
  ctype := .constrained (.text (py! "application/smil"))
  headers := [.app (py! "Content-ID") (py! "<0000>")]
  data := smil }]

def sentAs (hs : List Hdr) (c : CType) (ps : Str → List Part) : Py Str → Res Msg (List Nat) → Bool
  | .ok smil, .ok o _ => decide (o = sent hs c (ps smil)) && decide (smil.length < 1000)
  | _, _ => false

theorem bare_sent : sentAs bareHeaders bareType bareParts (Msg.new.smil (twoNames.env fun _ => none))
    (encodeC (twoNames.env fun _ => none) id 1234 Msg.new) = true := by decide +kernel

/-- room for two headers and none of the octets of the third -/
example : ∃ ps m', encodeC (twoNames.env fun _ => none) id 1234 Msg.new = .ok (sent bareHeaders bareType ps) m' ∧
    ∃ r, decodeFile ((toFileL id 1234 (fun _ => none) (diskOf 8) (py! "/tmp/c") (Msg.new, twoNames)).state.2.env fun _ => none)
      (py! "/tmp/c") = .ok r := by
  have h := bare_sent
  cases hs : Msg.new.smil (twoNames.env fun _ => none) with
  | error e => rw [hs] at h; cases h
  | ok smil =>
  cases he : encodeC (twoNames.env fun _ => none) id 1234 Msg.new with
  | err e m => rw [hs, he] at h; cases h
  | ok o m' =>
  rw [hs, he] at h
  simp only [sentAs, Bool.and_eq_true, decide_eq_true_eq] at h
  obtain ⟨rfl, hl⟩ := h
  refine ⟨_, m', rfl, ?_⟩
  refine (C113_iff id 1234 (fun _ => none) (diskOf 8) (py! "/tmp/c") Msg.new m' twoNames bareHeaders bareType _ ?_ ?_ ?_ ?_
    rfl (twoNames_fresh _) ?_ he ?_).2 (Or.inl ⟨bareHeaders.take 2, bareHeaders.drop 2, rfl, rfl⟩)
  · intro h hm
    simp only [bareHeaders, List.mem_cons, List.not_mem_nil, or_false] at hm
    rcases hm with rfl | rfl | rfl
    · show 4 < 7; omega
    · show IsText _; unfold IsText; decide
    · exact ⟨by omega, by omega, by omega⟩
  · exact ⟨by decide, rfl⟩
  · intro p hp
    simp only [bareParts, List.mem_singleton] at hp
    subst hp
    refine ⟨?_, ?_, ?_, ?_⟩
    · show IsAsciiText _
      exact ⟨by decide, 97, rfl, by omega, by omega⟩
    · intro h hm
      simp only [List.mem_singleton] at hm
      subst hm
      refine ⟨⟨by decide, by decide⟩, ?_⟩
      unfold IsText
      decide
    · simp [Part.head, CType.enc, Media.enc, PHdr.enc, text]
    · exact Nat.lt_trans hl (by decide)
  · simp [bareParts]
  · rintro p g ⟨s, hs, _⟩
    cases hs
  · unfold sent diskOf; simp [bareHeaders, bareType, Hdr.enc, text]
end Verif.Props

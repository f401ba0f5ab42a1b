import Verif.Proofs.Cache
import Verif.Props.MmsMsg
/-!
# C67, C68: parts whose contents come from files, and messages written to files
-/
set_option autoImplicit false

namespace Verif.Props
open Verif Verif.Mms
open Verif.Spec.Files

/-! ### C67 file contents in encoded messages -/

/-- every encoding sends the contents the files have at that time: the second one is what it would be had the first not
read the files -/
def C67_full : Prop := ∀ (env env2 : Env) (ord : Dict HVal → Dict HVal) (rnd rnd' : Nat) (m m' m'' : Msg) (o o' : List Nat),
  (∀ d, (ord d).Perm d) → m.headers.Ok → (∀ p, Holds m p → p.data = none ∨ p.filename = none) →
  encodeC env ord rnd m = .ok o m' → encodeC env2 ord rnd' m' = .ok o' m'' →
  ∃ m3, encodeC env2 ord rnd' { m' with pages := m.pages } = .ok o' m3

/-- one slide with an image from a file -/
def fileMsg : Msg := { Msg.new with pages := [{ Page.new with image := some (
  { DataPart.new with
    headers := [(py! "Content-Location", .v (.str (py! "a.jpg"))), (py! "Content-Type", .ct (py! "image/jpeg") [])]
    filename := some (py! "/tmp/a.jpg") }, 0, 0) }] }

/-- the file holds `c` -/
def fileEnv (c : Str) : Env :=
  { files := fun f => if f = py! "/tmp/a.jpg" then some c else none, mime := fun _ => some (py! "image/jpeg") }

/-- the image is the one a program gets from `DataPart('/tmp/a.jpg')` -/
example : DataPart.ofFile (fileEnv [1, 2, 3]) (py! "/tmp/a.jpg") = .ok
  { DataPart.new with
    headers := [(py! "Content-Location", .v (.str (py! "a.jpg"))), (py! "Content-Type", .ct (py! "image/jpeg") [])]
    filename := some (py! "/tmp/a.jpg") } := by decide +kernel

/-- the last octets of an encoded message -/
def lastOctets (n : Nat) : Res Msg (List Nat) → Option (List Nat)
  | .ok o _ => some (o.drop (o.length - n))
  | .err _ _ => none

/-- the message after -/
def afterRes {σ α : Type} : Res σ α → σ
  | .ok _ s => s
  | .err _ s => s

theorem encodeC_pages {env : Env} {ord : Dict HVal → Dict HVal} {rnd : Nat} {m m' : Msg} {o : List Nat}
    (h : encodeC env ord rnd m = .ok o m') : m'.pages = m.pages.map (loadedPage env) ∧
      ∃ m0, encode env ord rnd m = .ok o m0 ∧ m' = loadedMsg env m0 ∧ m0.pages = m.pages := by
  rcases encodeC_eq env ord rnd m with ⟨o2, m2, h2, h3⟩ | ⟨e, m2, m3, h2, h3, _⟩
  · have := h.symm.trans h3
    injection this with e1 e2
    subst e1 e2
    have hp := (C48_partial env ord rnd m o m2 h2).1
    refine ⟨?_, m2, h2, rfl, hp⟩
    show m2.pages.map _ = _
    rw [hp]
  · have := h.symm.trans h3
    cases this

/-- C67: encoding gives the octets or the exception that C45 to C49 and C61 are about; every part of every slide keeps
what was read from its file; nothing else is changed by reading. -/
theorem C67_encode (env : Env) (ord : Dict HVal → Dict HVal) (rnd : Nat) (m : Msg) :
    (∃ o m', encode env ord rnd m = .ok o m' ∧ encodeC env ord rnd m = .ok o (loadedMsg env m')) ∨
    (∃ e m' m'', encode env ord rnd m = .err e m' ∧ encodeC env ord rnd m = .err e m'' ∧ MaybeMsg env m' m'') :=
  encodeC_eq env ord rnd m

/-- C67: while the files keep their contents, encoding any number of times sends them each time.  Missing: files that
change between encodings. -/
theorem C67_history_partial (env : Env) (ord : Dict HVal → Dict HVal) (rnd : Nat) (m m' : Msg) (o : List Nat)
    (hk : m.headers.Ok) (h : encodeC env ord rnd m = .ok o m') : ∃ first tail, o = first ++ tail ∧
      ∀ rnds, callAll (encodeC env ord) (rnd :: rnds) m = (some o :: rnds.map (fun r => some (preamble r ++ tail)), m') := by
  obtain ⟨_, m0, h0, rfl, _⟩ := encodeC_pages h
  obtain ⟨first, tail, h1, _, h2⟩ := C48_second env ord rnd m o m0 hk h0
  refine ⟨first, tail, h1, fun rnds => ?_⟩
  have key : callAll (encodeC env ord) rnds (loadedMsg env m0) =
      (rnds.map (fun r => some (preamble r ++ tail)), loadedMsg env m0) := by
    induction rnds with
    | nil => rfl
    | cons r rs ih =>
      rw [callAll_ok (encodeC_loaded (h2 r)), ih]
      rfl
  rw [callAll_ok h, key]

/-- C67: the same in an environment where only other files have changed. -/
theorem C67_unchanged_partial (env env2 : Env) (ord : Dict HVal → Dict HVal) (rnd rnd' : Nat) (m m' m'' : Msg)
    (o o' : List Nat) (hs : ∀ p, Holds m p → ∀ f, p.filename = some f → env2.files f = env.files f)
    (h : encodeC env ord rnd m = .ok o m') (h' : encodeC env2 ord rnd' m' = .ok o' m'') :
    encodeC env2 ord rnd' { m' with pages := m.pages } = .ok o' m'' := by
  obtain ⟨hp, m0, h0, hm, hp0⟩ := encodeC_pages h
  have hsame : SameFiles env env2 (slideParts m.pages) := fun p hp => same_of_files (hs p ((mem_slideParts m p).1 hp))
  have hload : m'.pages = m.pages.map (loadedPage env2) := by rw [hp, loadedPages_same hsame]
  obtain ⟨_, m2, h2, rfl, hp2⟩ := encodeC_pages h'
  -- encode the message with unread parts
  rcases encodeC_eq env2 ord rnd' { m' with pages := m.pages } with ⟨o3, m3, h3, h4⟩ | ⟨e, m3, m4, h3, h4, _⟩
  · have h5 := encode_maybe (loadedPages_maybe env2 ({ m' with pages := m.pages } : Msg).pages) h3
    have h6 : ({ ({ m' with pages := m.pages } : Msg) with pages := ({ m' with pages := m.pages } : Msg).pages.map (loadedPage env2) } : Msg)
        = m' := by
      show ({ m' with pages := m.pages.map (loadedPage env2) } : Msg) = m'
      rw [← hload]
    rw [h6, h2] at h5
    injection h5 with e1 e2
    subst e1
    rw [h4]
    congr 1
    have hp3 := (C48_partial _ _ _ _ _ _ h3).1
    rw [e2]
    unfold loadedMsg
    simp only [hp3, maybePages_loaded (loadedPages_maybe env2 m.pages)]
  · exfalso
    have h5 := encode_err_maybe (loadedPages_maybe env2 ({ m' with pages := m.pages } : Msg).pages) h3
    have h6 : ({ ({ m' with pages := m.pages } : Msg) with pages := ({ m' with pages := m.pages } : Msg).pages.map (loadedPage env2) } : Msg)
        = m' := by
      show ({ m' with pages := m.pages.map (loadedPage env2) } : Msg) = m'
      rw [← hload]
    rw [h6, h2] at h5
    cases h5

/-- C67: what a part sends after its file has changed: the contents that were read first, announced with the length the
file has now. -/
theorem C67_length (env env2 : Env) (ord : Dict HVal → Dict HVal) (p p' : DataPart) (o : List Nat) (f c c2 : Str)
    (hf : p.filename = some f) (hd : p.data = none) (hc : env.files f = some c) (hc2 : env2.files f = some c2)
    (h : encodePartC env ord p = .ok o p') :
    ∃ n head, o = Spec.Wsp.uintvar n ++ Spec.Wsp.uintvar c.length ++ head ++ c ∧
      encodePartC env2 ord p' = .ok (Spec.Wsp.uintvar n ++ Spec.Wsp.uintvar c2.length ++ head ++ c) p' := by
  rw [encodePartC_eq] at h
  cases he : encodePart env ord p with
  | error e => rw [he] at h; cases h
  | ok o2 =>
    rw [he] at h
    injection h with h1 h2
    subst h1 h2
    have hL : Maybe env p (loaded env p) := .inr rfl
    rw [← maybe_encodePart hL ord] at he
    have hfile : (loaded env p).filename = some f := by rw [loaded_filename, hf]
    have hdata : (loaded env p).data = some c := by
      unfold loaded
      rw [hd, hf]
      exact hc
    have hlen : ∀ (e : Env) (x : Str), e.files f = some x → (loaded env p).len e = .ok x.length := by
      intro e x hx
      unfold DataPart.len
      rw [hfile]
      simp only [hx]
    have hread : ∀ e : Env, (loaded env p).readData e = .ok c := by
      intro e
      unfold DataPart.readData
      rw [hdata]
    obtain ⟨k, n, a, b, data, g1, g2, rfl, g4⟩ := encodePart_inv he
    rw [hlen env c hc] at g1
    rw [hread] at g2
    injection g1 with g1
    injection g2 with g2
    subst g1 g2
    refine ⟨k, a ++ b, rfl, ?_⟩
    rw [encodePartC_eq, g4 env2 c2.length c (hlen env2 c2 hc2) (hread env2)]
    have : loaded env2 (loaded env p) = loaded env p := by
      generalize loaded env p = q at hdata ⊢
      unfold loaded
      rw [hdata]
    simp only [this]

/-- C67: if the files have changed but not their lengths, everything after the beginning of the message is sent as it was
the first time, with the old contents. -/
theorem C67_stale (env env2 : Env) (ord : Dict HVal → Dict HVal) (rnd : Nat) (m m' : Msg) (o : List Nat)
    (hk : m.headers.Ok) (h : encodeC env ord rnd m = .ok o m')
    (hs : ∀ p, Holds m p → ∀ f, p.filename = some f → ∃ c c2, env.files f = some c ∧ env2.files f = some c2 ∧
      c2.length = c.length) :
    ∃ first tail, o = first ++ tail ∧ ∀ rnd', encodeC env2 ord rnd' m' = .ok (preamble rnd' ++ tail) m' := by
  obtain ⟨hp, m0, h0, rfl, hp0⟩ := encodeC_pages h
  obtain ⟨first, tail, h1, _, h2⟩ := C48_second env ord rnd m o m0 hk h0
  refine ⟨first, tail, h1, fun rnd' => ?_⟩
  have hsame : SameFiles env env2 (slideParts (loadedMsg env m0).pages) := by
    rw [hp, slideParts_loaded]
    intro q hq
    obtain ⟨p, hpm, rfl⟩ := List.mem_map.1 hq
    have hs' := hs p ((mem_slideParts m p).1 hpm)
    cases hf : p.filename with
    | none => exact same_of_files (by rw [loaded_filename, hf]; intro f h; cases h)
    | some f =>
      obtain ⟨c, c2, g1, g2, g3⟩ := hs' f hf
      obtain ⟨d, hd⟩ : ∃ d, (loaded env p).data = some d := by
        unfold loaded
        cases hd : p.data with
        | some d => exact ⟨d, hd⟩
        | none => rw [hf]; exact ⟨c, g1⟩
      constructor
      · unfold DataPart.readData
        rw [hd]
      · unfold DataPart.len
        rw [loaded_filename, hf]
        simp only [g1, g2, g3]
  have hE := encode_maybe (loadedPages_maybe env m0.pages) (h2 rnd')
  have hE2 : encode env2 ord rnd' (loadedMsg env m0) = .ok (preamble rnd' ++ tail) (loadedMsg env m0) := by
    rw [encode_same hsame]
    exact hE
  have hL : loadedMsg env2 (loadedMsg env m0) = loadedMsg env m0 := by
    show ({ m0 with pages := (m0.pages.map (loadedPage env)).map (loadedPage env2) } : Msg) = _
    rw [loadedPages_same (env := env) (env' := env2) (l := m0.pages.map (loadedPage env)) hsame,
      maybePages_loaded (loadedPages_maybe env m0.pages)]
    rfl
  rcases encodeC_eq env2 ord rnd' (loadedMsg env m0) with ⟨o2, m2, g1, g2⟩ | ⟨e, m2, m3, g1, _⟩
  · have := hE2.symm.trans g1
    injection this with e1 e2
    subst e1 e2
    rw [g2, hL]
  · have := hE2.symm.trans g1
    cases this

theorem fileMsg_stale : lastOctets 11 (encodeC (fileEnv [9]) id 8 (afterRes (encodeC (fileEnv [1, 2, 3]) id 7 fileMsg))) =
    some [158, 142, 97, 46, 106, 112, 103, 0, 1, 2, 3] := by decide +kernel

theorem fileMsg_fresh : lastOctets 9 (encodeC (fileEnv [9]) id 8
    { (afterRes (encodeC (fileEnv [1, 2, 3]) id 7 fileMsg)) with pages := fileMsg.pages }) =
    some [158, 142, 97, 46, 106, 112, 103, 0, 9] := by decide +kernel

theorem fileMsg_first : lastOctets 11 (encodeC (fileEnv [1, 2, 3]) id 7 fileMsg) =
    some [158, 142, 97, 46, 106, 112, 103, 0, 1, 2, 3] := by decide +kernel

theorem lastOctets_some {n : Nat} {r : Res Msg (List Nat)} {l : List Nat} (h : lastOctets n r = some l) :
    ∃ o, r = .ok o (afterRes r) ∧ o.drop (o.length - n) = l := by
  cases r with
  | ok o m =>
    injection h with h
    exact ⟨o, rfl, h⟩
  | err e m => cases h

/-- an image file of three octets, replaced by one of one octet between two encodings -/
theorem C67_refuted : ¬ C67_full := by
  intro h
  obtain ⟨o, ho, _⟩ := lastOctets_some fileMsg_first
  obtain ⟨o', ho', hl⟩ := lastOctets_some fileMsg_stale
  obtain ⟨o3, ho3, hl3⟩ := lastOctets_some fileMsg_fresh
  obtain ⟨m3, h3⟩ := h _ _ id 7 8 fileMsg _ _ o o' (fun d => List.Perm.refl d) (by unfold Dict.Ok; decide)
    (by
      rintro p ⟨s, hs, t, ht⟩
      left
      simp only [fileMsg, List.mem_singleton] at hs
      subst hs
      rcases ht with ht | ht | ht
      · injection ht with ht
        injection ht with ht
        rw [← ht]
        rfl
      · cases ht
      · cases ht) ho ho'
  have := h3.symm.trans ho3
  injection this with e1 _
  subst e1
  have e : (o'.drop (o'.length - 11)).reverse.take 1 = [3] := by rw [hl]; decide
  have e' : (o'.drop (o'.length - 9)).reverse.take 1 = [9] := by rw [hl3]; decide
  have hne : o'.length ≠ 0 := by
    intro h0
    rw [List.length_eq_zero_iff.1 h0] at hl
    cases hl
  rw [List.reverse_drop, List.take_take] at e e'
  rw [show min 1 (o'.length - (o'.length - 11)) = 1 by omega] at e
  rw [show min 1 (o'.length - (o'.length - 9)) = 1 by omega] at e'
  rw [e] at e'
  cases e'

/-- the hypotheses of the theorems above -/
example : ∃ o m', encodeC (fileEnv [1, 2, 3]) id 7 fileMsg = .ok o m' ∧ fileMsg.headers.Ok := by
  obtain ⟨o, ho, _⟩ := lastOctets_some fileMsg_first
  exact ⟨o, _, ho, by unfold Dict.Ok; decide⟩

example : Holds fileMsg { DataPart.new with
    headers := [(py! "Content-Location", .v (.str (py! "a.jpg"))), (py! "Content-Type", .ct (py! "image/jpeg") [])]
    filename := some (py! "/tmp/a.jpg") } := ⟨_, List.mem_singleton.2 rfl, (0, 0), .inl rfl⟩

/-! ### C68 messages in files -/

/-- `to_file` writes the encoded message to the file, returns it, and changes no other file -/
def C68_full : Prop := ∀ (env : Env) (ord : Dict HVal → Dict HVal) (rnd : Nat) (writable : Str → Bool) (f : Str) (m m' : Msg)
  (o : List Nat), (∀ d, (ord d).Perm d) → m.headers.Ok → writable f = true → encodeC env ord rnd m = .ok o m' →
  ∃ env', toFile ord rnd writable f (m, env) = .ok (some o) (m', env') ∧ env'.files f = some o ∧
    ∀ g, g ≠ f → env'.files g = env.files g

/-- C68: a message none of whose parts comes from the file itself: `to_file` writes the octets `encode` would give, leaves
the message as `encode` would, touches no other file; `from_file` then decodes these octets.  Missing: the result, which
is `None` instead of the octets, and messages with parts from the file itself. -/
theorem C68_partial (env : Env) (ord : Dict HVal → Dict HVal) (rnd : Nat) (writable : Str → Bool) (f : Str) (m m' : Msg)
    (o : List Nat) (hw : writable f = true) (hf : ∀ p, Holds m p → p.filename ≠ some f)
    (h : encodeC env ord rnd m = .ok o m') :
    ∃ env', toFile ord rnd writable f (m, env) = .ok none (m', env') ∧ env'.files f = some o ∧
      (∀ g, g ≠ f → env'.files g = env.files g) ∧ decodeFile env' f = decodeData o := by
  obtain ⟨hp, m0, h0, rfl, hp0⟩ := encodeC_pages h
  have hsame : SameFiles env (env.write f []) (slideParts m.pages) := by
    intro p hp
    refine same_of_files fun g hg => ?_
    have : g ≠ f := by
      rintro rfl
      exact hf p ((mem_slideParts m p).1 hp) hg
    simp [Env.write, this]
  have hE : encodeC (env.write f []) ord rnd m = .ok o (loadedMsg env m0) := by
    have h1 : encode (env.write f []) ord rnd m = .ok o m0 := (encode_same hsame).trans h0
    rcases encodeC_eq (env.write f []) ord rnd m with ⟨o2, m2, g1, g2⟩ | ⟨e, m2, m3, g1, _⟩
    · have := h1.symm.trans g1
      injection this with e1 e2
      subst e1 e2
      rw [g2]
      congr 1
      unfold loadedMsg
      rw [hp0, loadedPages_same hsame]
    · have := h1.symm.trans g1
      cases this
  refine ⟨env.write f o, ?_, by simp [Env.write], fun g hg => by simp [Env.write, hg], ?_⟩
  · unfold toFile
    simp only [hw, hE]
    rfl
  · unfold decodeFile
    simp [Env.write]

/-- C68: the result is never the octets -/
theorem C68_result (ord : Dict HVal → Dict HVal) (rnd : Nat) (writable : Str → Bool) (f : Str) (s s' : Msg × Env)
    (r : Option (List Nat)) (h : toFile ord rnd writable f s = .ok r s') : r = none := by
  unfold toFile at h
  split at h
  · cases h
  · split at h
    · cases h
    · injection h with h _
      exact h.symm

example : ∃ s', toFile id 7 (fun _ => true) (py! "out") (fileMsg, fileEnv [1, 2, 3]) = .ok none s' := by
  cases h : toFile id 7 (fun _ => true) (py! "out") (fileMsg, fileEnv [1, 2, 3]) with
  | ok r s => exact ⟨s, by rw [C68_result _ _ _ _ _ _ _ h]⟩
  | err e s =>
    have : (match toFile id 7 (fun _ => true) (py! "out") (fileMsg, fileEnv [1, 2, 3]) with
      | .ok _ _ => true
      | .err _ _ => false) = true := by decide +kernel
    rw [h] at this
    cases this

/-- C68: whenever encoding fails, whatever the file held before is lost -/
theorem C68_lost (ord : Dict HVal → Dict HVal) (rnd : Nat) (writable : Str → Bool) (f : Str) (m : Msg) (env : Env)
    (e : PyErr) (s : Msg × Env) (hw : writable f = true) (h : toFile ord rnd writable f (m, env) = .err e s) :
    s.2.files f = some [] ∧ ∀ g, g ≠ f → s.2.files g = env.files g := by
  unfold toFile at h
  rw [if_neg (by rw [hw]; decide)] at h
  split at h
  · injection h with _ h
    subst h
    exact ⟨by simp [Env.write], fun g hg => by simp [Env.write, hg]⟩
  · cases h

/-- C68: a file that cannot be written: IOError, and nothing has happened -/
theorem C68_unwritable (ord : Dict HVal → Dict HVal) (rnd : Nat) (writable : Str → Bool) (f : Str) (s : Msg × Env)
    (hw : writable f = false) : toFile ord rnd writable f s = .err .ioError s := by
  unfold toFile
  rw [if_pos hw]

example (s : Msg × Env) := C68_unwritable id 7 (fun _ => false) (py! "out") s rfl

/-- C68: a message written to the file of one of its parts has no contents for that part -/
theorem C68_self (env : Env) (f : Str) (p : DataPart) (hf : p.filename = some f) (hd : p.data = none) :
    p.readData (env.write f []) = .ok [] ∧ p.len (env.write f []) = .ok 0 := by
  unfold DataPart.readData DataPart.len
  rw [hd, hf]
  simp [Env.write]

example (env : Env) := C68_self env (py! "/tmp/a.jpg") { DataPart.new with filename := some (py! "/tmp/a.jpg") } rfl rfl

theorem C68_refuted : ¬ C68_full := by
  intro h
  obtain ⟨o, ho, _⟩ := lastOctets_some fileMsg_first
  obtain ⟨env', h1, _⟩ := h (fileEnv [1, 2, 3]) id 7 (fun _ => true) (py! "out") fileMsg _ o
    (fun d => List.Perm.refl d) (by unfold Dict.Ok; decide) rfl ho
  have := C68_result _ _ _ _ _ _ _ h1
  cases this

/-- the same claim without the result -/
def C68_written_full : Prop := ∀ (env : Env) (ord : Dict HVal → Dict HVal) (rnd : Nat) (f : Str) (m m' : Msg)
  (o : List Nat), (∀ d, (ord d).Perm d) → m.headers.Ok → encodeC env ord rnd m = .ok o m' →
  (afterRes (toFile ord rnd (fun _ => true) f (m, env))).2.files f = some o

/-- a message with an image, written to the file of the image -/
theorem C68_written_refuted : ¬ C68_written_full := by
  intro h
  obtain ⟨o, ho, hl⟩ := lastOctets_some fileMsg_first
  have h1 := h (fileEnv [1, 2, 3]) id 7 (py! "/tmp/a.jpg") fileMsg _ o (fun d => List.Perm.refl d)
    (by unfold Dict.Ok; decide) ho
  have h2 : (((afterRes (toFile id 7 (fun _ => true) (py! "/tmp/a.jpg") (fileMsg, fileEnv [1, 2, 3]))).2.files
      (py! "/tmp/a.jpg")).map fun o => o.drop (o.length - 11)) ≠ some [158, 142, 97, 46, 106, 112, 103, 0, 1, 2, 3] := by
    decide +kernel
  rw [h1] at h2
  exact h2 (congrArg some hl)

/-- a message that cannot be encoded -/
def badMsg : Msg := { Msg.new with headers := (Msg.new.headers).set (py! "Date") (.v (.int 0)) }

example : ∃ e s, toFile id 7 (fun _ => true) (py! "/tmp/a.jpg") (badMsg, fileEnv [1, 2, 3]) = .err e s ∧
    s.2.files (py! "/tmp/a.jpg") = some [] ∧ (fileEnv [1, 2, 3]).files (py! "/tmp/a.jpg") = some [1, 2, 3] := by
  cases h : toFile id 7 (fun _ => true) (py! "/tmp/a.jpg") (badMsg, fileEnv [1, 2, 3]) with
  | err e s => exact ⟨e, s, rfl, (C68_lost _ _ _ _ _ _ _ _ rfl h).1, by decide⟩
  | ok r s =>
    have : (match toFile id 7 (fun _ => true) (py! "/tmp/a.jpg") (badMsg, fileEnv [1, 2, 3]) with
      | .ok _ _ => true
      | .err _ _ => false) = false := by decide +kernel
    rw [h] at this
    cases this

/-- the hypotheses of `C68_partial` -/
example : ∀ p, Holds fileMsg p → p.filename ≠ some (py! "out") := by
  intro p hp
  rw [← mem_slideParts] at hp
  have : slideParts fileMsg.pages = [{ DataPart.new with
    headers := [(py! "Content-Location", .v (.str (py! "a.jpg"))), (py! "Content-Type", .ct (py! "image/jpeg") [])]
    filename := some (py! "/tmp/a.jpg") }] := by decide +kernel
  rw [this, List.mem_singleton] at hp
  subst hp
  decide

end Verif.Props

import Verif.Spec.Changing
import Verif.Props.CutExact
/-!
# C112: message files that change while they are read
-/
set_option autoImplicit false

namespace Verif.Props
open Verif Verif.Mms Verif.Spec.Mms Verif.Spec.Wsp
open Verif.Spec.Changing

/-- A message file that another program is writing is read as the message, or an exception is raised. -/
def C112_full : Prop := ∀ (w : World) (t : Nat) (f : Str) (hs : List Hdr) (c : CType) (ps : List Part), (∀ h ∈ hs, h.WF) →
  c.WF → (∀ p ∈ ps, p.WF) → ps.length < 2 ^ 63 → Growing w t f (sent hs c ps) →
  (∃ e, decodeFileT w f t = .error e) ∨ ∃ m, decodeFileT w f t = .ok m ∧ decodeData (sent hs c ps) = .ok m

/-- the octets that are decoded -/
theorem decodeFileT_ok {w : World} {f : Str} {t : Nat} {m : Msg} (h : decodeFileT w f t = .ok m) :
    ∃ n c, (w t).size f = some n ∧ (w (t + 1)).content f = some c ∧ n ≤ c.length ∧ decodeData (c.take n) = .ok m := by
  unfold decodeFileT at h
  split at h
  · cases h
  · rename_i n hn
    split at h
    · cases h
    · rename_i c hc
      split at h
      · cases h
      · split at h
        · rename_i m' hm
          cases h
          exact ⟨n, c, hn, hc, by omega, hm⟩
        · cases h

/-- C112: whatever other programs do to the file during the call, a message that is returned with parts is the one the
file contained when it was read. -/
theorem C112_parts (w : World) (f : Str) (t : Nat) (m : Msg) (h : decodeFileT w f t = .ok m) (hp : m.dataParts ≠ []) :
    ∃ c, (w (t + 1)).content f = some c ∧ decodeData c = .ok m := by
  obtain ⟨n, c, _, h2, _, h4⟩ := decodeFileT_ok h
  refine ⟨c, h2, ?_⟩
  have := C73_parts_partial (c.take n) (c.drop n) m h4 hp
  rwa [List.take_append_drop] at this

/-- C112: a message returned without parts has the headers of the file as it was when it was read, if that is a message,
or the first of them. -/
theorem C112_headers (w : World) (f : Str) (t : Nat) (m m' : Msg) (c : List Nat) (h : decodeFileT w f t = .ok m)
    (hc : (w (t + 1)).content f = some c) (h' : decodeData c = .ok m') :
    ∃ hs hs' : List (Str × HVal), m.headers = hs.foldl (fun d h => d.set h.1 h.2) Msg.new.headers ∧
      m'.headers = (hs ++ hs').foldl (fun d h => d.set h.1 h.2) Msg.new.headers := by
  obtain ⟨n, c', _, h2, _, h4⟩ := decodeFileT_ok h
  rw [hc] at h2
  injection h2 with h2
  subst h2
  exact C73_headers (c.take n) (c.drop n) m m' h4 (by rwa [List.take_append_drop])

/-- C112: of a file that another program is writing, what was there at the beginning of the call is decoded. -/
theorem C112_growing (w : World) (t : Nat) (f : Str) (o : List Nat) (h : Growing w t f o) :
    ∃ n, n ≤ o.length ∧ (w t).size f = some n ∧
      (∀ m, decodeData (o.take n) = .ok m → decodeFileT w f t = .ok m) ∧
      ∀ e, decodeData (o.take n) = .error e → decodeFileT w f t = .error (.other e) := by
  obtain ⟨n, h1, h2, _⟩ := h.there t (Nat.le_refl _)
  obtain ⟨k, h3, h4, h5⟩ := h.there (t + 1) (Nat.le_succ _)
  have hk := h.more t (t + 1) n k (Nat.le_refl _) (Nat.le_succ _) h2 h4
  have hl : ¬ (o.take k).length < n := by rw [List.length_take]; omega
  have ht : (o.take k).take n = o.take n := by rw [List.take_take, Nat.min_eq_left hk]
  refine ⟨n, h1, h2, fun m hm => ?_, fun e he => ?_⟩
  · unfold decodeFileT
    simp only [h2, h5, if_neg hl, ht, hm]
  · unfold decodeFileT
    simp only [h2, h5, if_neg hl, ht, he]

/-- C112: of a conformant message that another program is writing, a beginning is taken for a message exactly if it ends
at one of the places of C73: between two headers, inside an application header, or in front of the end of the number of
parts. -/
theorem C112_iff (w : World) (t : Nat) (f : Str) (hs : List Hdr) (c : CType) (ps : List Part) (n : Nat)
    (hw : ∀ h ∈ hs, h.WF) (hc : c.WF) (hp : ∀ p ∈ ps, p.WF) (hl : ps.length < 2 ^ 63) (h : Growing w t f (sent hs c ps))
    (hn : (w t).size f = some n) (hlt : n < (sent hs c ps).length) :
    (∃ m, decodeFileT w f t = .ok m) ↔ Unnoticed hs c ps n := by
  rw [← C73_iff hs c ps n hw hc hp hl hlt]
  obtain ⟨n', _, h2, h3, h4⟩ := C112_growing w t f _ h
  rw [hn] at h2
  injection h2 with h2
  subst h2
  constructor
  · rintro ⟨m, hm⟩
    cases hd : decodeData ((sent hs c ps).take n) with
    | ok m' => exact ⟨m', rfl⟩
    | error e => rw [h4 e hd] at hm; cases hm
  · rintro ⟨m, hm⟩
    exact ⟨m, h3 m hm⟩

/-- C112: a conformant message that another program is writing is read as the message itself, or as one without parts, or
an exception is raised.  Missing compared with `C112_full`: the exception instead of a message without parts (exactly when:
`C112_iff`). -/
theorem C112_partial (w : World) (t : Nat) (f : Str) (hs : List Hdr) (c : CType) (ps : List Part) (hw : ∀ h ∈ hs, h.WF)
    (hc : c.WF) (hp : ∀ p ∈ ps, p.WF) (hl : ps.length < 2 ^ 63) (h : Growing w t f (sent hs c ps)) :
    (∃ e, decodeFileT w f t = .error e) ∨ ∃ m, decodeFileT w f t = .ok m ∧
      (decodeData (sent hs c ps) = .ok m ∨ m.dataParts = []) := by
  obtain ⟨n, h1, h2, h3, h4⟩ := C112_growing w t f _ h
  by_cases hn : n = (sent hs c ps).length
  · subst hn
    rw [List.take_length] at h3 h4
    cases hd : decodeData (sent hs c ps) with
    | ok m => exact .inr ⟨m, h3 m hd, .inl rfl⟩
    | error e => exact .inl ⟨_, h4 e hd⟩
  · rcases C73_partial hs c ps n hw hc hp hl (by omega) with ⟨e, he⟩ | ⟨m, hm, hm'⟩
    · exact .inl ⟨_, h4 e he⟩
    · exact .inr ⟨m, h3 m hm, .inr hm'⟩

/-- C112: while a file keeps its size and contents it is decoded as `from_data` decodes its contents. -/
theorem C112_agrees (env : Env) (f : Str) (t : Nat) : decodeFileT (still env) f t = (decodeFile env f).mapError .other := by
  unfold decodeFileT decodeFile still
  simp only
  cases env.files f with
  | none => rfl
  | some c =>
    simp only [Option.map_some, lt_self_iff_false, if_false, List.take_length]
    cases decodeData c <;> rfl

theorem decodeData_nil : decodeData [] = .ok Msg.new := by decide +kernel

/-- C112: a file that was just emptied, as `to_file` does before it writes, is read as a message without headers, parts
and slides. -/
theorem C112_emptied (w : World) (f : Str) (t : Nat) (c : List Nat) (h : (w t).size f = some 0)
    (hc : (w (t + 1)).content f = some c) : decodeFileT w f t = .ok Msg.new := by
  unfold decodeFileT
  simp only [h, hc, Nat.not_lt_zero, if_false, List.take_zero, decodeData_nil]

/-- a file that is complete at the moment `n` -/
def slowly (o : List Nat) : World := fun u => { size := fun _ => some (min u o.length), content := fun _ => some (o.take (min u o.length)) }

theorem slowly_growing (o : List Nat) (f : Str) (t : Nat) : Growing (slowly o) t f o :=
  ⟨fun u _ => ⟨min u o.length, Nat.min_le_right _ _, rfl, rfl⟩, fun u v k l _ h hk hl => by
    injection hk with hk
    injection hl with hl
    subst hk hl
    omega⟩

/-- a message with parts, read when nothing is written yet -/
theorem C112_refuted : ¬ C112_full := by
  intro h
  have hc : (CType.constrained (.text (py! "a/b"))).WF := ⟨by decide, 97, rfl, by decide⟩
  have h0 := C112_emptied (slowly (sent sampleHeaders (.constrained (.text (py! "a/b"))) sampleParts)) [] 0 _ rfl rfl
  rcases h _ 0 [] sampleHeaders (.constrained (.text (py! "a/b"))) sampleParts sampleHeaders_wf hc sampleParts_wf (by decide)
    (slowly_growing _ _ _) with ⟨e, he⟩ | ⟨m, hm, hm'⟩
  · rw [h0] at he; cases he
  · rw [h0] at hm
    injection hm with hm
    subst hm
    have : decodeData (sent sampleHeaders (.constrained (.text (py! "a/b"))) sampleParts) ≠ .ok Msg.new := by decide +kernel
    exact this hm'

/-- read when the end of a part is missing -/
example := C112_partial (slowly (sent sampleHeaders (.constrained (.text (py! "a/b"))) sampleParts)) 95 [] sampleHeaders
  (.constrained (.text (py! "a/b"))) sampleParts sampleHeaders_wf ⟨by decide, 97, rfl, by decide⟩ sampleParts_wf (by decide)
  (slowly_growing _ _ _)

example : (slowly (sent sampleHeaders (.constrained (.text (py! "a/b"))) sampleParts) 95).size [] = some 95 ∧
    95 < (sent sampleHeaders (.constrained (.text (py! "a/b"))) sampleParts).length ∧
    decodeFileT (slowly (sent sampleHeaders (.constrained (.text (py! "a/b"))) sampleParts)) [] 95 =
      .error (.other .stopIteration) := by decide +kernel

/-- a message with a part to which octets are appended during the call -/
example : ∃ m, decodeFileT (fun u => {
      size := fun _ => some (8 + u),
      content := fun _ => some ([0x84, 0xa3, 1, 1, 2, 0x83, 72, 105] ++ List.replicate u 7) }) [] 3 = .ok m ∧ m.dataParts ≠ [] :=
  ⟨_, rfl, by decide +kernel⟩

/-- two headers, then a third one -/
example : ∃ m m', decodeFileT (fun _ => { size := fun _ => some 2, content := fun _ => some [0x8c, 0x82, 0x98, 65, 0] }) [] 0 =
    .ok m ∧ decodeData [0x8c, 0x82, 0x98, 65, 0] = .ok m' ∧ m ≠ m' := ⟨_, _, rfl, rfl, by decide +kernel⟩

/-- a file that has become shorter -/
example : decodeFileT (fun _ => { size := fun _ => some 2, content := fun _ => some [0x8c] }) [] 0 = .error .eofError := rfl

end Verif.Props

import Verif.Proofs.MmsEnc3
import Verif.Proofs.Safe2
import Verif.Props.Slides
/-!
# Properties of the MMS encoder: headers, message type, whole messages (C44, C47, C48, C49, C61)
-/
set_option autoImplicit false

namespace Verif.Props
open Verif Verif.Mms
open Verif.Spec.Wsp Verif.Spec.Mms Verif.Spec.MmsEnc

/-! ### C44 single headers -/

/-- every header the encoder accepts is read back, and what follows is untouched -/
def C44_full : Prop := ∀ (n : Str) (v : HVal) (l : List Nat), headerOctets n v = .ok l →
  ∀ rest, decodeHeader ⟨l ++ rest, 0⟩ = .ok (n, v) ⟨rest, 0⟩

/-- A Message-Size of `n` octets is sent with its octets in the wrong order: what is read is the number whose base-256
digits are those of `n` backwards. -/
theorem C44_size (o : List Nat) (ho : ∀ x ∈ o, x < 256) (h0 : o.head? ≠ some 0) (hlt : beVal o < 2 ^ 63) :
    ∃ l, headerOctets (py! "Message-Size") (.v (.int (beVal o))) = .ok l ∧
      ∀ rest, decodeHeader ⟨l ++ rest, 0⟩ = .ok (py! "Message-Size", .v (.int (beVal o.reverse))) ⟨rest, 0⟩ := by
  have hd := leDigits_beVal o ho h0
  have hl := leDigits_length (n := beVal o) (k := 8) (Nat.lt_of_lt_of_le hlt (by decide))
  rw [hd] at hl
  have hs := size_octets hlt
  rw [hd] at hs
  exact ⟨_, hs, fun rest => size_read _ (by omega) (fun x hx => ho x (List.mem_reverse.1 hx)) rest⟩

example : beVal [1, 0] = 256 ∧ beVal [1, 0].reverse = 1 := by decide

theorem C44_refuted : ¬ C44_full := by
  intro h
  obtain ⟨l, h1, h2⟩ := C44_size [1, 0] (by decide) (by decide) (by decide)
  have h3 := h _ _ l h1 []
  rw [h2 []] at h3
  revert h3
  decide

/-- Headers with values as described by `Faithful` are accepted, read back with the same name and value, and leave
what follows untouched.  Not covered: Message-Size other than palindromes (`C44_size`), unknown message types
(`C44_unknown_type`), texts starting with the Quote octet (`C44_quote`), empty texts (`C44_empty`) and texts starting
with a control character, unicode (`C44_unicode`). -/
theorem C44_partial (n : Str) (v : HVal) (h : Faithful n v) :
    ∃ l, headerOctets n v = .ok l ∧ ∀ rest, decodeHeader ⟨l ++ rest, 0⟩ = .ok (n, v) ⟨rest, 0⟩ := by
  obtain ⟨l, h1, h2⟩ := faithful_ok h
  exact ⟨l, h1, h2.dec⟩

example : Faithful (py! "Subject") (.v (.str (py! "Hello"))) :=
  .text .subject _ ⟨by decide, by decide, 72, rfl, by decide, by decide⟩
example : Faithful (py! "MMS-Version") (.v (.str (py! "1.2"))) := by
  have := Faithful.version 1 2 (by decide)
  have e : dotted 1 2 = py! "1.2" := by decide +kernel
  rwa [e] at this
example : Faithful (py! "Message-Size") (.v (.int 257)) := .size [1, 1] ⟨by decide, by decide, rfl, by decide⟩
example : Faithful (py! "X-Spam") (.v (.str (py! "no"))) :=
  .app _ _ ⟨by decide, by decide⟩ (by decide) ⟨by decide, by decide, by decide⟩

/-- a message type that is not one of the seven is sent as m-send-req -/
theorem C44_unknown_type (s : Str) (h : s ∉ typeNames) : headerOctets (py! "Message-Type") (.v (.str s)) = .ok [0x8c, 0x80] ∧
    ∀ rest, decodeHeader ⟨[0x8c, 0x80] ++ rest, 0⟩ = .ok (py! "Message-Type", .v (.str (py! "m-send-req"))) ⟨rest, 0⟩ := by
  have hn : lookupName messageTypes s = none := by
    have key : ∀ t : List (Nat × Str), s ∉ t.map Prod.snd → lookupName t s = none := by
      intro t
      induction t with
      | nil => intro _; rfl
      | cons e t ih =>
        intro hm
        obtain ⟨k, x⟩ := e
        simp only [List.map_cons, List.mem_cons, not_or] at hm
        unfold lookupName
        rw [if_neg (fun e => hm.1 e.symm), ih hm.2]
    refine key _ (fun hm => h ?_)
    have e : messageTypes.map Prod.snd = typeNames := by decide +kernel
    rwa [e] at hm
  have hv : encodeMmsValue .messageTypeValue (.v (.str s)) = .ok (ints (toInts [0x80])) := by
    simp only [encodeMmsValue, encodeMessageTypeValue, hn]
    rfl
  refine ⟨headerOctets_field (n := 12) rfl (by decide) hv (by decide), ?_⟩
  obtain ⟨l, h1, h2⟩ := C44_partial _ _ (.type (py! "m-send-req") (by decide))
  have : l = [0x8c, 0x80] := by
    have : headerOctets (py! "Message-Type") (.v (.str (py! "m-send-req"))) = .ok [0x8c, 0x80] := rfl
    rw [this] at h1
    injection h1 with h1
    exact h1.symm
  rw [this] at h2
  exact h2

example : py! "m-read-rec-ind" ∉ typeNames := by decide

/-- a leading Quote octet is lost -/
theorem C44_quote (n : Str) (hn : n = py! "Message-ID" ∨ n = py! "Transaction-Id") (s : Str) (h0 : 0 ∉ s) (h8 : ∀ c ∈ s, c < 256) :
    ∃ l, headerOctets n (.v (.str (127 :: s))) = .ok l ∧
      ∀ rest, decodeHeader ⟨l ++ rest, 0⟩ = .ok (n, .v (.str s)) ⟨rest, 0⟩ := by
  have hb : ∀ x ∈ (127 :: s) ++ [0], x < 256 := text_body (fun c hc => by
    rcases List.mem_cons.1 hc with h | h
    · omega
    · exact h8 c h)
  have hd : ∀ rest, decodeMmsValue .textString ⟨(127 :: s) ++ [0] ++ rest, 0⟩ = .ok (.v (.str s)) ⟨rest, 0⟩ := by
    intro rest
    refine mmsValue_str rfl ?_
    have := decodeTextString_quoted s h0 rest 0
    rwa [show (127 :: s) ++ [0] ++ rest = 127 :: (s ++ 0 :: rest) by simp]
  have he : encodeMmsValue .textString (.v (.str (127 :: s))) = .ok (ints (toInts ((127 :: s) ++ [0]))) := by
    simp only [encodeMmsValue, encodeTextH_str, bind, Except.bind]
  rcases hn with rfl | rfl
  · exact ⟨_, headerOctets_field (n := 11) rfl (by decide) he hb, fun rest => decodeHeader_field (by decide) rfl (hd rest)⟩
  · exact ⟨_, headerOctets_field (n := 0x18) rfl (by decide) he hb, fun rest => decodeHeader_field (by decide) rfl (hd rest)⟩

theorem encoded_empty (rest : List Nat) : (∀ a s', decodeEncodedStringValue ⟨0 :: rest, 0⟩ = .ok a s' →
    s'.rem.length < rest.length) ∧ (∀ s', decodeEncodedStringValue ⟨0 :: rest, 0⟩ ≠ .err .decodeError s') := by
  have hv : decodeValueLength ⟨0 :: rest, 0⟩ = .ok 0 ⟨rest, 0⟩ := decodeValueLength_ok 0 rest
  have hcs : ∀ x u, M.tryCatch decodeWellKnownCharset (fun e => e == .decodeError) (fun _ => M.throw .exception) ⟨rest, 0⟩ = .ok x u →
      u.rem.length ≤ rest.length := by
    intro x u h1
    unfold M.tryCatch at h1
    cases hc : decodeWellKnownCharset ⟨rest, 0⟩ with
    | ok b w =>
      rw [hc] at h1
      injection h1 with _ h1
      subst h1
      exact List.IsSuffix.length_le ((wellKnownCharset_safe ⟨rest, 0⟩).1 b w hc)
    | err e w =>
      rw [hc] at h1
      simp only [] at h1
      split at h1
      · cases h1
      · cases h1
  have hce : ∀ u, M.tryCatch decodeWellKnownCharset (fun e => e == .decodeError) (fun _ => M.throw .exception) ⟨rest, 0⟩ ≠
      .err .decodeError u := by
    intro u h1
    unfold M.tryCatch at h1
    cases hc : decodeWellKnownCharset ⟨rest, 0⟩ with
    | ok b w =>
      rw [hc] at h1
      cases h1
    | err e w =>
      rw [hc] at h1
      simp only [beq_iff_eq] at h1
      split at h1
      · cases h1
      · rename_i hne
        injection h1 with h1 _
        exact hne h1
  cases hi : (do
      let _ ← decodeValueLength
      let _ ← M.tryCatch decodeWellKnownCharset (fun e => e == .decodeError) (fun _ => M.throw .exception)
      decodeTextString : D Str) ⟨0 :: rest, 0⟩ with
  | ok a t =>
    have ho : decodeEncodedStringValue ⟨0 :: rest, 0⟩ = .ok a t := orDE_ok hi
    rw [M.bind_ok hv] at hi
    obtain ⟨x, u, h1, h2⟩ := bind_ok_invM hi
    have h3 := textString_prog u _ t h2
    have h4 := hcs x u h1
    rw [ho]
    refine ⟨fun b s' h => ?_, fun s' h => by cases h⟩
    injection h with _ h
    subst h
    omega
  | err e t =>
    have hne : e ≠ .decodeError := by
      rintro rfl
      rw [M.bind_ok hv, M.bind_apply] at hi
      cases hc : M.tryCatch decodeWellKnownCharset (fun e => e == .decodeError) (fun _ => M.throw .exception) ⟨rest, 0⟩ with
      | ok x u =>
        rw [hc] at hi
        have := ((textString_safe u).2 _ _ hi).1
        simp at this
      | err x u =>
        rw [hc] at hi
        injection hi with h1 h2
        subst h1
        exact hce _ hc
    have ho : decodeEncodedStringValue ⟨0 :: rest, 0⟩ = .err e t := orDE_other hi hne
    rw [ho]
    refine ⟨fun b s' h => (by cases h), fun s' h => ?_⟩
    injection h with h _
    exact hne h

example : (0 : Nat) ∉ (py! "id-1" : Str) ∧ ∀ c ∈ (py! "id-1" : Str), c < 256 := by decide

/-- An empty text in an addressing or descriptive header is never read back correctly: whatever follows, the octets of
the next header are consumed (or an exception is raised). -/
theorem C44_empty (f : StrField) : ∃ l, headerOctets f.name (.v (.str [])) = .ok l ∧
    ∀ rest n v, decodeHeader ⟨l ++ rest, 0⟩ ≠ .ok (n, v) ⟨rest, 0⟩ := by
  have key : ∀ (name : Str) (n : Nat), findField mmsFieldNames name = some (n, .encodedStringValue) →
      lookupNum mmsFieldNames n = some (name, .encodedStringValue) → n < 128 →
      ∃ l, headerOctets name (.v (.str [])) = .ok l ∧ ∀ rest n v, decodeHeader ⟨l ++ rest, 0⟩ ≠ .ok (n, v) ⟨rest, 0⟩ := by
    intro name n hf hl hn
    refine ⟨_, headerOctets_field (body := [0]) hf hn ?_ (by decide), ?_⟩
    · simp only [encodeMmsValue, encodeEncodedStringValue, encodeTextH_str, bind, Except.bind]
      rfl
    · intro rest n' v hd
      obtain ⟨h1, h2⟩ := encoded_empty rest
      have hp : preview ⟨(0x80 + n) :: 0 :: rest, 0⟩ = .ok (0x80 + n) ⟨(0x80 + n) :: 0 :: rest, 1⟩ := rfl
      have hb : decodeShortIntegerFromByte (0x80 + n) = .ok n := by
        rw [fromByte_ok (by omega) (by omega), Nat.add_sub_cancel_left]
      simp only [List.cons_append, List.nil_append] at hd
      cases hm : decodeMmsHeader ⟨(0x80 + n) :: 0 :: rest, 0⟩ with
      | ok a t =>
        have hd' : decodeHeader ⟨(0x80 + n) :: 0 :: rest, 0⟩ = .ok a t := orDE_ok hm
        rw [hd'] at hd
        injection hd with ha ht
        subst ht
        unfold decodeMmsHeader at hm
        rw [M.bind_ok hp, hb, M.bind_ok (M.lift_ok _ _)] at hm
        simp only [hl] at hm
        obtain ⟨_, u, g1, g2⟩ := bind_ok_invM hm
        injection g1 with _ g1
        subst g1
        obtain ⟨v', u, g3, g4⟩ := bind_ok_invM g2
        injection g4 with _ g4
        subst g4
        unfold wrapFatal M.tryCatch at g3
        cases hv : decodeMmsValue .encodedStringValue ⟨0 :: rest, 0⟩ with
        | ok w t =>
          rw [hv] at g3
          injection g3 with _ g3
          subst g3
          obtain ⟨x, y, k1, k2⟩ := bind_ok_invM hv
          injection k2 with _ k2
          subst k2
          have := h1 _ _ k1
          simp at this
        | err e t =>
          rw [hv] at g3
          simp only [] at g3
          split at g3 <;> cases g3
      | err e t =>
        have hne : e ≠ .decodeError := by
          rintro rfl
          unfold decodeMmsHeader at hm
          rw [M.bind_ok hp, hb, M.bind_ok (M.lift_ok _ _)] at hm
          simp only [hl] at hm
          have hx : next ⟨(0x80 + n) :: 0 :: rest, 1⟩ = .ok (0x80 + n) ⟨0 :: rest, 0⟩ := rfl
          rw [M.bind_ok hx, M.bind_apply] at hm
          unfold wrapFatal M.tryCatch at hm
          cases hv : decodeMmsValue .encodedStringValue ⟨0 :: rest, 0⟩ with
          | ok w t =>
            rw [hv] at hm
            cases hm
          | err e u =>
            rw [hv] at hm
            simp only [] at hm
            split at hm
            · cases hm
            · rename_i heq
              split at heq
              · cases heq
                cases hm
              · injection heq with e1 _
                subst e1
                injection hm with e4 _
                change (decodeEncodedStringValue >>= fun s => pure (HVal.v (.str s))) _ = _ at hv
                rw [M.bind_apply] at hv
                cases hq : decodeEncodedStringValue ⟨0 :: rest, 0⟩ with
                | ok a b => rw [hq] at hv; cases hv
                | err a b =>
                  rw [hq] at hv
                  injection hv with e3 _
                  exact h2 b (by rw [hq, e3, e4])
        have hd' : decodeHeader ⟨(0x80 + n) :: 0 :: rest, 0⟩ = .err e t := orDE_other hm hne
        rw [hd'] at hd
        cases hd
  cases f
  · exact key (py! "Bcc") 1 rfl rfl (by decide)
  · exact key (py! "Cc") 2 rfl rfl (by decide)
  · exact key (py! "Response-Text") 0x13 rfl rfl (by decide)
  · exact key (py! "Subject") 0x16 rfl rfl (by decide)
  · exact key (py! "To") 0x17 rfl rfl (by decide)

/-- Unicode header values are sent like the byte string with the same code points, if these are below 256 -/
theorem C44_unicode (n s : Str) (h : n ≠ py! "MMS-Version") :
    headerOctets n (.v (.uni s)) = headerOctets n (.v (.str s)) := by
  have hv : ∀ t : List (Nat × Str × MType), (∀ e ∈ t, e.2.2 = .versionValue → e.2.1 = py! "MMS-Version") →
      ∀ k, findField t n ≠ some (k, .versionValue) := by
    intro t
    induction t with
    | nil => intro _ k e; cases e
    | cons x t ih =>
      obtain ⟨a, b, ty⟩ := x
      intro ht k e
      unfold findField at e
      split at e
      · rename_i hb
        injection e with e
        injection e with _ e
        exact h (hb ▸ ht _ (List.mem_cons_self ..) e)
      · exact ih (fun x hx => ht x (List.mem_cons_of_mem _ hx)) k e
  have hv := hv mmsFieldNames (by decide +kernel)
  unfold headerOctets encodeHeader
  cases hf : findField mmsFieldNames n with
  | none => rfl
  | some e =>
    obtain ⟨k, ty⟩ := e
    cases ty <;> first | rfl | exact absurd hf (hv k)

example := C44_unicode (py! "Subject") (py! "Hello") (by decide)

end Verif.Props

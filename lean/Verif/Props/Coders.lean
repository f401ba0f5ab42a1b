import Verif.Proofs.Coders
/-!
# C102: decoders and encoders can be used again
-/
set_option autoImplicit false

namespace Verif.Props
open Verif Verif.Mms

/-- C102: whatever was decoded or encoded before, and whatever is left in the decoder, `decode_data` returns a new message
that is the one `MMSMessage.from_data` gives, or raises what that raises; no other message is changed. -/
theorem C102_decode (s : Coders) (k : Nat) (data : List Nat) :
    (∀ m, decodeData data = .ok m → ∃ s', decodeDataO k data s = .ok s.msgs.length s' ∧ s'.msgs = s.msgs ++ [m] ∧
      s'.encoders = s.encoders ∧ ∀ k' ≠ k, s'.decoders[k']? = s.decoders[k']?) ∧
    (∀ e, decodeData data = .error e → ∃ s' x, decodeDataO k data s = .err e s' ∧ s'.msgs = s.msgs ++ [x] ∧
      s'.encoders = s.encoders ∧ ∀ k' ≠ k, s'.decoders[k']? = s.decoders[k']?) := by
  obtain ⟨h1, h2⟩ := fill_eq data
  have hd : ∀ x : List Nat × Nat, ∀ k' ≠ k, (s.decoders.set k x)[k']? = s.decoders[k']? :=
    fun x k' hk => List.getElem?_set_ne (Ne.symm hk)
  unfold decodeDataO
  constructor
  · intro m hm
    obtain ⟨i, hi⟩ := h1 m hm
    rw [hi]
    exact ⟨_, rfl, rfl, rfl, hd _⟩
  · intro e he
    obtain ⟨f, hf⟩ := h2 e he
    rw [hf]
    exact ⟨_, _, rfl, rfl, rfl, hd _⟩

/-- C102: the same for files: what `MMSMessage.from_file` gives or raises -/
theorem C102_file (s : Coders) (env : Env) (k : Nat) (f : Str) :
    (∀ m, decodeFile env f = .ok m → ∃ s', decodeFileO env k f s = .ok s.msgs.length s' ∧ s'.msgs = s.msgs ++ [m]) ∧
    (∀ e, decodeFile env f = .error e → ∃ s' l, decodeFileO env k f s = .err e s' ∧ s'.msgs = s.msgs ++ l) := by
  unfold decodeFile decodeFileO
  cases env.files f with
  | none =>
    refine ⟨fun m h => (by cases h), fun e h => ⟨s, [], ?_, by simp⟩⟩
    injection h with h
    subst h
    rfl
  | some d =>
    obtain ⟨h1, h2⟩ := C102_decode s k d
    refine ⟨fun m h => ?_, fun e h => ?_⟩
    · obtain ⟨s', a, b, _⟩ := h1 m h
      exact ⟨s', a, b⟩
    · obtain ⟨s', x, a, b, _⟩ := h2 e h
      exact ⟨s', [x], a, b⟩

/-- C102: `encode` of any encoder does with a message what `MMSMessage.encode` does, whatever was encoded before, and changes
no other message, no decoder and no other encoder. -/
theorem C102_encode (s : Coders) (env : Env) (ord : Dict HVal → Dict HVal) (rnd k m : Nat) (msg : Msg) (hm : s.msgs[m]? = some msg) :
    (∀ l msg', encode env ord rnd msg = .ok l msg' → ∃ s', encodeO env ord rnd k m s = .ok l s' ∧
      s'.msgs[m]? = some msg' ∧ (∀ m' ≠ m, s'.msgs[m']? = s.msgs[m']?) ∧ s'.msgs.length = s.msgs.length ∧
      s'.decoders = s.decoders ∧ ∀ k' ≠ k, s'.encoders[k']? = s.encoders[k']?) ∧
    (∀ e msg', encode env ord rnd msg = .err e msg' → ∃ s', encodeO env ord rnd k m s = .err e s' ∧
      s'.msgs[m]? = some msg' ∧ (∀ m' ≠ m, s'.msgs[m']? = s.msgs[m']?) ∧ s'.msgs.length = s.msgs.length ∧
      s'.decoders = s.decoders ∧ ∀ k' ≠ k, s'.encoders[k']? = s.encoders[k']?) := by
  have hlt := (List.getElem?_eq_some_iff.1 hm).1
  have hs : ∀ x, (s.msgs.set m x)[m]? = some x ∧ ∀ m' ≠ m, (s.msgs.set m x)[m']? = s.msgs[m']? :=
    fun x => ⟨List.getElem?_set_self hlt, fun m' h => List.getElem?_set_ne (Ne.symm h)⟩
  unfold encodeO
  rw [hm]
  constructor
  · intro l msg' h
    simp only [h]
    exact ⟨_, rfl, (hs msg').1, (hs msg').2, List.length_set, rfl, fun k' hk => List.getElem?_set_ne (Ne.symm hk)⟩
  · intro e msg' h
    simp only [h]
    exact ⟨_, rfl, (hs msg').1, (hs msg').2, List.length_set, rfl, fun k' hk => List.getElem?_set_ne (Ne.symm hk)⟩

example (env : Env) := C102_encode ⟨[Msg.new, Msg.new], [], []⟩ env id 0 0 1 Msg.new rfl

/-- C102: the file name given to `MMSDecoder` makes no difference: the file is not decoded -/
theorem C102_filename (s : Coders) (f : Str) : newDecoder (some f) s = newDecoder none s := rfl

/-- C102: making a decoder or an encoder leaves all messages, decoders and encoders as they were, and the message it starts
with is a new one: changing it changes no other. -/
theorem C102_new (s : Coders) (f : Option Str) :
    (∃ s', newDecoder f s = .ok s.decoders.length s' ∧ s'.msgs = s.msgs ++ [Msg.new] ∧ s'.encoders = s.encoders ∧
      s'.decoders = s.decoders ++ [([], s.msgs.length)]) ∧
    (∃ s', newEncoder s = .ok s.encoders.length s' ∧ s'.msgs = s.msgs ++ [Msg.new] ∧ s'.decoders = s.decoders ∧
      s'.encoders = s.encoders ++ [s.msgs.length]) :=
  ⟨⟨_, rfl, rfl, rfl, rfl⟩, ⟨_, rfl, rfl, rfl, rfl⟩⟩

/-- C102: when the headers can be decoded and the parts cannot, the message left in the decoder is the one `decode_data` was
filling: it has those headers, and the parts that could be decoded. -/
theorem C102_left (s s' : Coders) (k : Nat) (hk : k < s.decoders.length) (data : List Nat) (hdrs : Dict HVal) (i : It)
    (hh : decodeMessageHeader (It.new data) = .ok hdrs i) (e : PyErr) (h : decodeDataO k data s = .err e s') :
    s'.decoders[k]? = some (data, s.msgs.length) ∧
      ∃ ps, s'.msgs[s.msgs.length]? = some { Msg.new with headers := hdrs, dataParts := ps } := by
  obtain ⟨h1, _⟩ := headerLoopO_eq ((It.new data).rem.length + 1) (It.new data) Msg.new
  have hho : headerO (It.new data, Msg.new) = .ok () (i, { Msg.new with headers := hdrs }) := h1 _ _ hh
  unfold decodeDataO at h
  simp only [M.bind_apply, hho] at h
  cases hb : bodyO (i, { Msg.new with headers := hdrs }) with
  | ok u f => rw [hb] at h; cases h
  | err e' f =>
    rw [hb] at h
    injection h with he hs
    subst hs
    refine ⟨List.getElem?_set_self hk, f.2.dataParts, ?_⟩
    rw [List.getElem?_concat_length, bodyO_frame hb]

/-- one decoder: octets that cannot be decoded, then a message, then another -/
example :
    let s0 : Coders := ⟨[Msg.new], [([], 0)], []⟩
    ∃ s1 s2 s3, decodeDataO 0 [0x84, 0xa3, 1, 4] s0 = .err .stopIteration s1 ∧
      decodeDataO 0 [0x84, 0xa3, 1, 1, 2, 0x83, 72, 105] s1 = .ok 2 s2 ∧ decodeDataO 0 [0x8c, 0x82] s2 = .ok 3 s3 ∧
      s3.msgs[2]? = s2.msgs[2]? ∧ (s3.msgs[2]?.map fun m => m.dataParts.length) = some 1 ∧ s3.decoders = [([0x8c, 0x82], 3)] :=
  ⟨_, _, _, rfl, rfl, rfl, rfl, by decide +kernel, rfl⟩

end Verif.Props

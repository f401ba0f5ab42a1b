import Verif.Props.Names
import Verif.Props.Survive
/-!
# C47 with all headers that come back
-/
set_option autoImplicit false

namespace Verif.Props
open Verif Verif.Mms
open Verif.Spec.Wsp Verif.Spec.Mms Verif.Spec.MmsEnc Verif.Spec.Names Verif.Spec.Survive

theorem survives_comes {n : Str} {v : HVal} (hb : ∀ s, v = .v (.str s) → ∀ c ∈ s, c < 256) (hn : n ≠ CT) (h : Survives n v) :
    Comes n v := by
  obtain ⟨l, h1, h2⟩ := (C44_iff n v hb).2 h
  refine ⟨l, h1, ?_, hn, h2⟩
  rintro rfl
  have h3 := h2 []
  have h4 : (match decodeHeader ⟨[] ++ [], 0⟩ with | .ok _ _ => false | .err _ _ => true) = true := by decide +kernel
  rw [h3] at h4
  cases h4

theorem faithful_survives {n : Str} {v : HVal} (hb : ∀ s, v = .v (.str s) → ∀ c ∈ s, c < 256) (h : Faithful n v) :
    Survives n v := (C44_iff n v hb).1 (C44_partial n v h)

/-- `C47_names_partial` for messages with any headers that come back by themselves (`C44_iff`: `Survives` are all of
those): within the message they come back as well, in any order, and so do the data of all parts.  Missing: headers that do
not come back, the Content-Location of files, loose data parts. -/
theorem C47_survive_partial (env : Env) (ord : Dict HVal → Dict HVal) (rnd : Nat) (m : Msg) (media smil : Str)
    (ho : ∀ d, (ord d).Perm d) (hk : m.headers.Ok) (hset : Settled m.headers)
    (hct : m.headers.get CT = some (.ct media [])) (hm : Sends media)
    (hb : ∀ n s, m.headers.get n = some (.v (.str s)) → ∀ c ∈ s, c < 256)
    (hf : ∀ n v, m.headers.get n = some v → n ≠ CT → Survives n v)
    (hsm : m.smil env = .ok smil) (hlen : smil.length < 2 ^ 63)
    (hp : ∀ p ∈ partsOf m.pages, Brought env p)
    (hd : m.dataParts = []) (hn : 3 * m.pages.length < 2 ^ 63 - 1) :
    ∃ o m' m2 q qs, encode env ord rnd m = .ok o m' ∧ decodeData o = .ok m2 ∧ (∀ n, m2.headers.get n = m.headers.get n) ∧
      m2.dataParts = q :: qs ∧
      q.data = some smil ∧ (∀ n, q.headers.get n = Dict.get [(CT, .ct (py! "application/smil") []),
        (py! "Content-ID", .v (.str (py! "<0000>")))] n) ∧
      List.Forall₂ (PartRead env) (partsOf m.pages) qs :=
  names_read env ord rnd m media smil ho hk hset hct hm
    (fun n v h1 h2 => survives_comes (fun s hs => hb n s (by rw [h1, hs])) h2 (hf n v h1 h2)) hsm hlen hp hd hn

/-- Loose data parts, with any headers that come back by themselves and files of any usual name: the message is encoded, the
parts are counted but not sent, and what is sent cannot be decoded. -/
theorem C47_loose_survive (env : Env) (ord : Dict HVal → Dict HVal) (rnd : Nat) (m : Msg) (media smil : Str)
    (ho : ∀ d, (ord d).Perm d) (hk : m.headers.Ok) (hset : Settled m.headers)
    (hct : m.headers.get CT = some (.ct media [])) (hm : Sends media)
    (hb : ∀ n s, m.headers.get n = some (.v (.str s)) → ∀ c ∈ s, c < 256)
    (hf : ∀ n v, m.headers.get n = some v → n ≠ CT → Survives n v)
    (hsm : m.smil env = .ok smil) (hlen : smil.length < 2 ^ 63)
    (hp : ∀ p ∈ partsOf m.pages, Brought env p)
    (hd : m.dataParts ≠ []) (hn : 3 * m.pages.length + m.dataParts.length < 2 ^ 63 - 1) :
    ∃ o m', encode env ord rnd m = .ok o m' ∧ decodeData o = .error .stopIteration := by
  have hP := prepare_settled hk hset rnd
  obtain ⟨o, h1, _, h3⟩ := message_ok (env := env) ho (rnd := rnd) hk hct hm
    (fun n v hg hc => survives_comes (fun s hs => hb n s (by rw [← hP n, hg, hs])) hc (hf n v (by rw [← hP n]; exact hg) hc))
    (smil := smil) (R := fun _ _ => True) hsm (by
      intro p hmem
      have hc : Brought env p := by
        rcases List.mem_cons.1 hmem with rfl | hmem
        · exact .inl ⟨_, _, smilPart_plain env hlen⟩
        · rw [slideParts_eq] at hmem
          exact hp p hmem
      rcases hc with ⟨media, data, hc⟩ | ⟨media, data, t, hc⟩
      · obtain ⟨o, q, e1, _, e3⟩ := plainPart_ok ho hc
        exact ⟨o, q, e1, trivial, e3⟩
      · obtain ⟨o, q, e1, _, e3⟩ := namedPart_ok ho hc
        exact ⟨o, q, e1, trivial, e3⟩) (numEntries_lt hn)
  exact ⟨o, _, h1, h3 hd⟩

/-- a message with a header of its own whose name is beyond ASCII -/
def accentMsg : Msg := { photoMsg with headers := photoMsg.headers ++ [([97, 98, 233], .v (.str (py! "x")))], pages := [textPage (py! "Hi")] }

theorem accent_smil : ∃ smil, accentMsg.smil sampleEnv = .ok smil ∧ smil.length < 2 ^ 63 := by
  have : (match accentMsg.smil sampleEnv with | .ok s => decide (s.length < 1000) | .error _ => false) = true := by
    decide +kernel
  split at this
  · rename_i s hs
    exact ⟨s, hs, Nat.lt_trans (of_decide_eq_true this) (by decide)⟩
  · cases this

theorem accent_bytes : ∀ n s, accentMsg.headers.get n = some (.v (.str s)) → ∀ c ∈ s, c < 256 := by
  intro n s h
  have : ∀ e ∈ accentMsg.headers, (match e.2 with | .v (.str s) => s.all (· < 256) | _ => true) = true := by decide +kernel
  have := this _ (Dict.mem_of_get h)
  simpa using this

theorem accent_survives (n : Str) (v : HVal) (h : accentMsg.headers.get n = some v) (hn : n ≠ CT) : Survives n v := by
  have cases_ : (photoMsg.headers.get n = some v) ∨ (n = [97, 98, 233] ∧ v = .v (.str (py! "x"))) := by
    unfold accentMsg at h
    simp only [Dict.get_append] at h
    cases hp : photoMsg.headers.get n with
    | some w => rw [hp] at h; exact .inl h
    | none =>
      rw [hp] at h
      simp only [Dict.get] at h
      split at h
      · rename_i e; cases h; exact .inr ⟨e.symm, rfl⟩
      · cases h
  have hb := accent_bytes
  rcases cases_ with h' | ⟨rfl, rfl⟩
  · exact faithful_survives (fun s hs => hb n s (by rw [← hs]; assumption)) (sample_faithful n v h' hn)
  · exact .app _ _ (by decide) ⟨by decide, by decide, by decide, by decide, by decide⟩ ⟨by decide, by decide, by decide⟩

theorem accent_brought : ∀ p ∈ partsOf accentMsg.pages, Brought sampleEnv p := by
  intro p hp
  have hp : p ∈ [textPart (py! "Hi")] := hp
  rw [List.mem_singleton] at hp
  subst hp
  obtain ⟨md, d, h | h⟩ := C47_text sampleEnv (py! "Hi") DataPart.new _ rfl (by decide)
  · exact .inl ⟨_, _, h⟩
  · obtain ⟨t, ht, _⟩ := h.loc
    cases ht

example (ord : Dict HVal → Dict HVal) (ho : ∀ d, (ord d).Perm d) (rnd : Nat) :
    ∃ o m' m2, encode sampleEnv ord rnd accentMsg = .ok o m' ∧ decodeData o = .ok m2 ∧
      m2.headers.get [97, 98, 233] = some (.v (.str (py! "x"))) := by
  obtain ⟨smil, hs, hl⟩ := accent_smil
  obtain ⟨o, m', m2, q, qs, h1, h2, h3, _⟩ := C47_survive_partial sampleEnv ord rnd accentMsg
    (py! "application/vnd.wap.multipart.mixed") smil ho (by unfold Dict.Ok; decide)
    ⟨⟨_, rfl⟩, ⟨_, rfl⟩, ⟨_, rfl⟩, ⟨rfl, rfl, rfl⟩, fun _ => .inl ⟨_, rfl⟩⟩ rfl
    ⟨⟨by decide, 97, rfl, by decide, by decide⟩, by decide⟩ accent_bytes accent_survives hs hl accent_brought rfl (by decide)
  exact ⟨o, m', m2, h1, h2, by rw [h3]; rfl⟩

/-- the same message with a loose part -/
example (ord : Dict HVal → Dict HVal) (ho : ∀ d, (ord d).Perm d) (rnd : Nat) :
    ∃ o m', encode sampleEnv ord rnd { accentMsg with dataParts := [textPart (py! "loose")] } = .ok o m' ∧
      decodeData o = .error .stopIteration := by
  obtain ⟨smil, hs, hl⟩ := accent_smil
  exact C47_loose_survive sampleEnv ord rnd { accentMsg with dataParts := [textPart (py! "loose")] }
    (py! "application/vnd.wap.multipart.mixed") smil ho (by unfold Dict.Ok; decide)
    ⟨⟨_, rfl⟩, ⟨_, rfl⟩, ⟨_, rfl⟩, ⟨rfl, rfl, rfl⟩, fun _ => .inl ⟨_, rfl⟩⟩ rfl
    ⟨⟨by decide, 97, rfl, by decide, by decide⟩, by decide⟩ accent_bytes accent_survives hs hl accent_brought
    (by intro h; cases h) (by decide)

end Verif.Props

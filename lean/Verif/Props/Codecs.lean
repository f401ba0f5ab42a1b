import Verif.Proofs.Codecs
/-!
# C103: the codec under its name
-/
set_option autoImplicit false

namespace Verif.Props
open Verif Verif.Codecs Verif.Spec.Codecs

/-- C103: once the package was imported, whatever was imported, registered and looked up before and after, `text.encode` and
`octets.decode` use its codec under every spelling of the name, whatever is said about errors. -/
theorem C103_named (evs : List Ev) (hu : Unclaimed evs) (hi : Ev.imported ∈ evs) (name : Str) (hn : Spelling name)
    (errors : Option Str) (e : Gsm.Errors) (he : Asks errors e) :
    (∀ text, textEncode name errors text (run evs) = some (Gsm.encode text e)) ∧
    (∀ octets, octetsDecode name errors octets (run evs) = some (Gsm.decode e octets)) := by
  have h : (lookup name (run evs)).1 = some gsmCodec := by
    rw [run_lookup, (normalize_iff name).2 hn]
    exact (search_gsm evs hu).1 hi
  unfold textEncode octetsDecode
  rw [h, ← errorsOf_eq he]
  exact ⟨fun _ => rfl, fun _ => rfl⟩

example := C103_named [.lookedUp (py! "gsm0338"), .imported] (by intro f hf; simp at hf) (by simp) (py! "gsm0338")
  ⟨'g', 's', 'm', by simp, by simp, by simp, rfl⟩ (some (py! "xmlcharrefreplace")) .other (.unknown _ (by decide +kernel))

/-- C103: under any other name, and before the import, a lookup gives what it gives in the same program without the
package. -/
theorem C103_others (evs : List Ev) (name : Str) :
    (¬ Spelling name → (lookup name (run evs)).1 = (lookup name (run (without evs))).1) ∧
    (Unclaimed evs → Ev.imported ∉ evs → Spelling name → (lookup name (run evs)).1 = none) := by
  refine ⟨fun hn => ?_, fun hu hi hn => ?_⟩
  · rw [run_lookup, run_lookup, search_without]
    exact fun h => hn ((normalize_iff name).1 h)
  · rw [run_lookup, (normalize_iff name).2 hn]
    exact (search_gsm evs hu).2 hi

/-- C103: another package that offers a codec of this name wins exactly if it was registered first. -/
theorem C103_first (evs after : List Ev) (f : Search) (c : Codec) (name : Str) (hn : Spelling name) (hf : f (py! "gsm0338") = some c)
    (hu : Unclaimed evs) :
    (Ev.imported ∈ evs → (lookup name (run (evs ++ .registered f :: after))).1 = some gsmCodec) ∧
    (Ev.imported ∉ evs → (lookup name (run (evs ++ .registered f :: after))).1 = some c) := by
  have hfu : ∀ a b, funcsOf (a ++ b) = funcsOf a ++ funcsOf b := by
    intro a b
    induction a with
    | nil => rfl
    | cons e es ih => cases e <;> simp [funcsOf, ih]
  rw [run_lookup, (normalize_iff name).2 hn, hfu, search_append]
  refine ⟨fun hi => ?_, fun hi => ?_⟩
  · rw [(search_gsm evs hu).1 hi]
  · rw [(search_gsm evs hu).2 hi]
    simp only [funcsOf, search, hf]

/-- looked up too early, imported, another package registered, looked up again, imported again -/
example :
    let evs : List Ev := [.lookedUp (py! "gsm0338"), .imported, .registered (fun n => if n = py! "x" then some gsmCodec else none),
      .lookedUp (py! "GSM0338"), .lookedUp (py! "x"), .imported]
    Unclaimed evs ∧ Ev.imported ∈ evs ∧ Spelling (py! "Gsm0338") ∧
      textEncode (py! "Gsm0338") none ⟨true, [0x20ac]⟩ (run evs) = some (.ok [0x1b, 0x65]) ∧
      Asks (some (py! "xmlcharrefreplace")) .other := by
  refine ⟨?_, ?_, ?_, rfl, .unknown _ (by decide +kernel)⟩
  · intro f hf
    simp only [List.mem_cons, reduceCtorEq, Ev.registered.injEq, List.not_mem_nil, or_false, false_or] at hf
    subst hf
    rfl
  · simp
  · exact ⟨'G', 's', 'm', by simp, by simp, by simp, rfl⟩

/-- another package that was first -/
example : ∃ c, (lookup (py! "gsm0338") (run ([] ++ .registered (fun _ => some ⟨fun t _ => .ok t.s, fun o _ => .ok o⟩) :: [.imported]))).1
    = some c ∧ c.encode ⟨true, [0x20ac]⟩ none = .ok [0x20ac] := ⟨_, rfl, rfl⟩

/-- a name that is no spelling -/
example : ¬ Spelling (py! "gsm-0338") := by
  rw [← normalize_iff]
  decide +kernel

end Verif.Props

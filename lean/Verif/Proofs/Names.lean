import Verif.Spec.Names
import Verif.Proofs.MmsEnc3
/-!
# Lemmas on the names of files
-/
set_option autoImplicit false

namespace Verif.Mms
open Verif.Spec.Wsp Verif.Spec.Mms Verif.Spec.MmsEnc Verif.Spec.Names

theorem ends_iff (c : Nat) : ends c = false ↔ c > 31 ∧ c ∉ separators := by
  unfold ends separators
  simp only [Bool.or_eq_false_iff, decide_eq_false_iff_not, List.contains_eq_mem, List.mem_cons, List.not_mem_nil, or_false]
  omega

theorem tokenLoop_run (u r : List Nat) (acc : Str) (hu : ∀ c ∈ u, ends c = false) :
    tokenLoop acc (u ++ r) = tokenLoop (acc ++ u) r := by
  induction u generalizing acc with
  | nil => simp
  | cons c u ih =>
    rw [List.cons_append, tokenLoop, if_pos ((ends_iff c).1 (hu c (by simp))), ih _ fun x hx => hu x (by simp [hx])]
    simp

theorem textLoop_run (u : List Nat) (acc : Str) (hu : 0 ∉ u) : textLoop acc (u ++ [0]) = .ok (acc ++ u) ⟨[], 0⟩ := by
  induction u generalizing acc with
  | nil => simp [textLoop]
  | cons c u ih =>
    rw [List.cons_append, textLoop, if_pos (fun e => hu (by simp [e])), ih _ fun h => hu (by simp [h])]
    simp

theorem textString_run (u : List Nat) (hu : 0 ∉ u) : decodeTextString ⟨u ++ [0], 0⟩ = .ok (unquote u) ⟨[], 0⟩ := by
  cases u with
  | nil => rfl
  | cons c u =>
    by_cases hc : c = 127
    · subst hc
      show textLoop [] (u ++ [0]) = _
      rw [textLoop_run u [] fun h => hu (by simp [h])]
      rfl
    · have : decodeTextString ⟨c :: u ++ [0], 0⟩ = textLoop [] (c :: u ++ [0]) := by
        unfold decodeTextString
        split
        · next h => injection h with h; exact absurd h hc
        · rfl
      rw [this, textLoop_run _ [] hu]
      unfold unquote
      split
      · next h => injection h with h; exact absurd h hc
      · rfl

/-- what the library makes of a name where it expects a header -/
theorem appHeader_name (u : List Nat) (hu : 0 ∉ u) : decodeApplicationHeader ⟨u ++ [0], 0⟩ =
    match stray u with
    | some (k, v) => .ok (k, .v (.str v)) ⟨[], 0⟩
    | none => .err .stopIteration ⟨[], 0⟩ := by
  have htw : ∀ c ∈ u.takeWhile (fun c => !ends c), ends c = false := by
    intro c hc
    have := List.all_takeWhile (p := fun c => !ends c) (l := u)
    have := List.all_eq_true.1 this c hc
    simpa using this
  have hsplit := List.takeWhile_append_dropWhile (p := fun c => !ends c) (l := u)
  have hbad : ∀ c r, u.dropWhile (fun c => !ends c) = c :: r → ends c = true := by
    intro c r h
    have := List.head_dropWhile_not (l := u) (fun c => !ends c) (by rw [h]; simp)
    simp only [h, List.head_cons] at this
    simpa using this
  -- a name that starts with an octet that ends tokens
  have fail : ∀ r : List Nat, r.head? = some 0 ∨ (∃ c, r.head? = some c ∧ ends c = true) →
      decodeTokenText ⟨r, 0⟩ = .err .decodeError ⟨r, 0⟩ := by
    intro r hr
    obtain ⟨c, r', rfl, hc⟩ : ∃ c r', r = c :: r' ∧ (c ≤ 31 ∨ c ∈ separators) := by
      cases r with
      | nil => rcases hr with h | ⟨_, h, _⟩ <;> cases h
      | cons c r =>
        refine ⟨c, r, rfl, ?_⟩
        rcases hr with h | ⟨c', h, h'⟩
        · injection h with h; left; omega
        · injection h with h
          subst h
          by_contra hn
          rw [not_or] at hn
          rw [(ends_iff c).2 ⟨by omega, hn.2⟩] at h'
          cases h'
    unfold decodeTokenText
    rw [M.bind_ok (preview_zero _ _), if_pos hc, M.bind_ok (resetPreview_apply _)]
    rfl
  unfold decodeApplicationHeader
  unfold stray
  cases hk : u.takeWhile (fun c => !ends c) with
  | nil =>
    rw [hk, List.nil_append] at hsplit
    simp only
    have h1 := textString_run u hu
    have hf : decodeTokenText ⟨u ++ [0], 0⟩ = .err .decodeError ⟨u ++ [0], 0⟩ := by
      apply fail
      cases hd : u with
      | nil => exact .inl rfl
      | cons c r => exact .inr ⟨c, rfl, hbad c r (by rw [hsplit, hd])⟩
    rw [M.bind_ok (show orDecodeError decodeTokenText decodeTextString ⟨u ++ [0], 0⟩ = .ok (unquote u) ⟨[], 0⟩ by
      rw [orDE_err hf, h1])]
    rfl
  | cons k0 ks =>
    rw [hk] at hsplit htw
    have hk0 : ends k0 = false := htw k0 (by simp)
    have htok : ∀ w, decodeTokenText ⟨k0 :: ks ++ w, 0⟩ = tokenLoop (k0 :: ks) w := by
      intro w
      unfold decodeTokenText
      have := (ends_iff k0).1 hk0
      rw [List.cons_append, M.bind_ok (preview_zero _ _), if_neg (by rintro (h | h); · omega
                                                                     · exact this.2 h)]
      have h2 := tokenLoop_run (k0 :: ks) w [] htw
      rw [List.nil_append, List.cons_append] at h2
      exact h2
    cases hd : u.dropWhile (fun c => !ends c) with
    | nil =>
      rw [hd, List.append_nil] at hsplit
      simp only
      rw [M.bind_ok (show orDecodeError decodeTokenText decodeTextString ⟨u ++ [0], 0⟩ = .ok (k0 :: ks) ⟨[], 0⟩ by
        refine orDE_ok ?_
        rw [← hsplit, htok]
        rfl)]
      rfl
    | cons c r =>
      rw [hd] at hsplit
      have hc := hbad c r hd
      have h0 : 0 ∉ r := fun h => hu (by rw [← hsplit]; simp [h])
      have h1 := textString_run r h0
      have hb : orDecodeError decodeTokenText decodeTextString ⟨u ++ [0], 0⟩ = .ok (k0 :: ks) ⟨r ++ [0], 0⟩ := by
        refine orDE_ok ?_
        rw [← hsplit, List.append_assoc, htok, List.cons_append, tokenLoop, if_neg]
        rintro ⟨a, b⟩
        rw [(ends_iff c).2 ⟨a, b⟩] at hc
        cases hc
      rw [M.bind_ok hb, M.bind_ok h1]
      rfl

/-- the Content-Location of a file is not read as such -/
theorem location_any {t : List Nat} (h : Nameable t) : decodeHeader ⟨0x8e :: (t ++ [0]), 0⟩ =
    match stray (seen t) with
    | some (k, v) => .ok (k, .v (.str v)) ⟨[], 0⟩
    | none => .err .stopIteration ⟨[], 0⟩ := by
  obtain ⟨h0, h8, c, hh, hc⟩ := h
  obtain ⟨r, rfl⟩ : ∃ r, t = c :: r := by
    cases t with
    | nil => cases hh
    | cons a r => injection hh with hh; subst hh; exact ⟨r, rfl⟩
  have hc8 := h8 c (by simp)
  have hm : decodeMmsHeader ⟨0x8e :: c :: (r ++ [0]), 0⟩ = .err .decodeError ⟨c :: (r ++ [0]), 0⟩ := by
    unfold decodeMmsHeader
    have h14 : decodeShortIntegerFromByte 0x8e = .ok 14 := rfl
    rw [M.bind_ok (preview_zero _ _), h14, M.bind_ok (M.lift_ok _ _)]
    show (do let _ ← next; let v ← wrapFatal (decodeMmsValue .longInteger); pure (py! "Message-Size", v) : D _) _ = _
    rw [M.bind_ok (next_cons _ _ _)]
    apply M.bind_err
    unfold wrapFatal M.tryCatch
    have : decodeMmsValue .longInteger ⟨c :: (r ++ [0]), 0⟩ = .err .decodeError ⟨c :: (r ++ [0]), 0⟩ :=
      M.bind_err (decodeLongInteger_err (by omega) _)
    rw [this]
    rfl
  unfold decodeHeader
  rw [List.cons_append, orDE_err hm]
  unfold decodeWspHeader
  by_cases h128 : 128 ≤ c
  · have hw : decodeWellKnownHeader ⟨c :: (r ++ [0]), 0⟩ = .err .decodeError ⟨r ++ [0], 0⟩ := by
      unfold decodeWellKnownHeader
      rw [M.bind_ok (decodeShortInteger_ok h128 hc8 _), names12, M.bind_ok (M.lift_ok _ _)]
      have : wspNames[c - 128]? = none := by
        rw [List.getElem?_eq_none_iff]
        have : wspNames.length = 56 := rfl
        omega
      rw [this]
      rfl
    rw [orDE_err hw, appHeader_name r fun h => h0 (by simp [h])]
    simp only [seen, if_pos h128]
  · have hw : decodeWellKnownHeader ⟨c :: (r ++ [0]), 0⟩ = .err .decodeError ⟨c :: (r ++ [0]), 0⟩ :=
      M.bind_err (decodeShortInteger_err (by omega) _)
    have := appHeader_name (c :: r) h0
    rw [List.cons_append] at this
    rw [orDE_err hw, this]
    simp only [seen, if_neg h128]

theorem namedPart_ok {env : Env} {ord : Dict HVal → Dict HVal} (ho : ∀ d, (ord d).Perm d) {part : DataPart}
    {media data t : List Nat} (h : NamedPart env part media data t) :
    ∃ o q, encodePart env ord part = .ok o ∧ (q.filename = none ∧ q.data = some data ∧
        ∀ n, q.headers.get n = namedHeader media t n) ∧
      ∀ rest, decodePart ⟨o ++ rest, 0⟩ = .ok q ⟨rest, 0⟩ := by
  obtain ⟨ct, hl, hne, h8, he, hd⟩ := sends_ok h.sends
  have hloc := h.loc
  have hord : (ord part.headers).Ok := ((ho part.headers).map Prod.fst).nodup_iff.2 h.keys
  have hg : ∀ n, (ord part.headers).get n = part.headers.get n := Dict.get_perm (ho part.headers) hord
  have hfil := filter_single hord (by rw [hg, hloc]) (fun n a b => by rw [hg, h.only n a b])
  have henc : encodePartHeaders (ord part.headers) = .ok (ints (toInts (0x8e :: (t ++ [0])))) := by
    rw [encodePartHeaders_filter, hfil]
    have hw : encodeWspHeader (py! "Content-Location") (.v (.str t)) = .ok (ints (toInts (0x8e :: (t ++ [0])))) := by
      have hi : indexOf wspNames (py! "Content-Location") = some 14 := rfl
      have h1 : ¬ (py! "Content-Location" = py! "Accept") := by decide
      have h2 : ¬ (py! "Content-Location" = py! "Pragma") := by decide
      unfold encodeWspHeader
      simp only [names12, hi, encodeShortInteger_nat (n := 14) (by decide), encodeWapValue, if_neg h1, if_neg h2,
        encodeTextH_str, bind, Except.bind]
      rw [← ints_append, ← toInts_append]
      rfl
    have h0 : ¬ (py! "Content-Location" = py! "Content-Type") := by decide
    simp only [encodePartHeaders, if_neg h0, hw, bind, Except.bind, List.append_nil]
  have hsum := entry_sum h.ct
  have hfil2 := filter_single h.keys hloc h.only
  rw [hfil2] at hsum
  have hsmall : (ct ++ 0x8e :: (t ++ [0])).length < 2 ^ 63 := by
    have := h.small.1
    simp only [entrySize, List.map_cons, List.map_nil, List.sum_cons, List.sum_nil] at hsum
    simp only [List.length_append, List.length_cons, List.length_nil]
    omega
  have hctd : ∀ n, Dict.get [(CT, HVal.ct media [])] n = if n = CT then some (.ct media []) else none := by
    intro n
    simp only [Dict.get]
    by_cases hn : n = CT
    · rw [if_pos hn, if_pos hn.symm]
    · rw [if_neg hn, if_neg (fun e => hn e.symm)]
  have hloop : ∃ hdrs : Dict HVal, (∀ n, hdrs.get n = namedHeader media t n) ∧
      ∀ fuel, partHeaderLoop (fuel + 2) [(CT, .ct media [])] ⟨0x8e :: (t ++ [0]), 0⟩ = .ok hdrs ⟨[], 0⟩ := by
    have hx := location_any h.name
    unfold namedHeader
    cases hs : stray (seen t) with
    | none =>
      rw [hs] at hx
      refine ⟨[(CT, .ct media [])], hctd, fun fuel => ?_⟩
      simp only [partHeaderLoop, hx]
    | some kv =>
      obtain ⟨k, v⟩ := kv
      rw [hs] at hx
      refine ⟨Dict.set [(CT, .ct media [])] k (.v (.str v)), fun n => ?_, fun fuel => ?_⟩
      · rw [dict_get_set, hctd]
        by_cases hn : n = k
        · rw [if_pos hn.symm]; simp only [if_pos hn]
        · rw [if_neg (fun e => hn e.symm)]; simp only [if_neg hn]
      · simp only [partHeaderLoop, hx, decodeHeader_nil]
  obtain ⟨hdrs, hh1, hh2⟩ := hloop
  refine ⟨uintvar (ct ++ 0x8e :: (t ++ [0])).length ++ uintvar data.length ++ (ct ++ 0x8e :: (t ++ [0])) ++ data,
    { ctParams := [], headers := hdrs, filename := none, data := some data },
    encodePart_eq h.ct he h8 henc ?_ h.read h.len, ⟨rfl, rfl, hh1⟩, ?_⟩
  · intro x hx
    simp only [List.mem_append, List.mem_cons, List.mem_nil_iff, or_false] at hx
    rcases hx with h' | h' | h'
    · omega
    · exact h.name.2.1 x h'
    · omega
  · intro rest
    refine decodePart_gen (c := media) (s := ⟨[], 0⟩) ?_ hsmall h.small.2 rest
    unfold partHeaders It.new
    rw [M.bind_ok (hd _)]
    simp only []
    have hf : (ct ++ 0x8e :: (t ++ [0])).length + 1 = (ct.length + t.length + 1) + 2 := by
      simp only [List.length_append, List.length_cons, List.length_nil]; omega
    rw [hf]
    exact (M.bind_ok (hh2 _)).trans rfl

end Verif.Mms

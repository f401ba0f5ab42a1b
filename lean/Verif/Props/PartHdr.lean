import Verif.Spec.PartHdr
import Verif.Proofs.Names
/-!
# C86, C87: headers of parts, sent and received
-/
set_option autoImplicit false

namespace Verif.Props
open Verif Verif.Mms
open Verif.Spec.Wsp Verif.Spec.Mms Verif.Spec.MmsEnc Verif.Spec.PartHdr Verif.Spec.Names

/-! ### C86 headers of parts -/

/-- the header is accepted for a part, read back with name and value, and what follows is left -/
def Returns (n : Str) (v : HVal) : Prop :=
  ∃ l, (encodeWspHeader n v >>= toOctets) = .ok l ∧ ∀ rest, decodeHeader ⟨l ++ rest, 0⟩ = .ok (n, v) ⟨rest, 0⟩

/-- C86 in full: a text under any name is read back. -/
def C86_full : Prop := ∀ n s, IsToken n → Unquoted s → Returns n (.v (.str s))

/-- Texts under names without a number in WAP-230, or with a number that is no MMS field, and media types under Accept are
read back.  Missing compared with `C86_full`: the names with numbers 1 to 24, which are read as MMS fields, Pragma, and
Accept values that are no media types (`C86_exact` has them all). -/
theorem C86_kept_partial (n : Str) (v : HVal) (h : Kept n v) : Returns n v := by
  obtain ⟨o, h1, h2, h3, _⟩ := kept_ok h
  exact ⟨o, by rw [h1]; exact toOctets_ints h3, h2.dec⟩

example : Kept (py! "User-Agent") (.v (.str (py! "python-messaging"))) :=
  .numbered _ _ (by decide +kernel) ⟨by decide, by decide, by decide⟩
example : Kept (py! "Accept") (.v (.str (py! "image/png"))) :=
  .accept _ ⟨⟨by decide, 105, rfl, by decide, by decide⟩, by decide⟩

/-- the header is not read back when nothing follows it -/
def fails (n s : Str) : Bool :=
  match (encodeWspHeader n (.v (.str s)) >>= toOctets) with
  | .ok l => decodeHeader ⟨l, 0⟩ ≠ .ok (n, .v (.str s)) ⟨[], 0⟩
  | .error _ => true

theorem early_names : ∀ n ∈ wspNames, n ∉ lateNames → ∃ s ∈ [py! "", py! "abc"], fails n s = true := by decide +kernel

/-- C86: exactly which names can carry every text. -/
theorem C86_exact (n : Str) (hn : IsToken n) :
    (∀ s, Unquoted s → Returns n (.v (.str s))) ↔ n ∉ wspNames ∨ n ∈ lateNames := by
  constructor
  · intro h
    by_contra hc
    rw [not_or, not_not] at hc
    obtain ⟨s, hs, hb⟩ := early_names n hc.1 hc.2
    obtain ⟨l, h1, h2⟩ := h s (by
      simp only [List.mem_cons, List.not_mem_nil, or_false] at hs
      rcases hs with rfl | rfl <;> exact ⟨by decide, by decide, by decide⟩)
    have := h2 []
    rw [List.append_nil] at this
    simp [fails, h1, this] at hb
  · rintro (h | h) s hs
    · exact C86_kept_partial _ _ (.app n s hn h hs)
    · exact C86_kept_partial _ _ (.numbered n s h hs)

theorem C86_refuted : ¬ C86_full := by
  intro h
  have hn : IsToken (py! "Content-Location") := ⟨by decide, by decide⟩
  rcases (C86_exact _ hn).1 (fun s hs => h _ s hn hs) with h | h
  · exact h (by decide)
  · revert h; decide +kernel

/-- C86: a Pragma header cannot be sent at all. -/
theorem C86_pragma (v : HVal) : encodeWspHeader (py! "Pragma") v = .error .attributeError := rfl

/-! ### C87 labels of received parts -/

/-- C87 in full: a part with a Content-ID and a Content-Location is read with both. -/
def C87_full : Prop := ∀ (c : CType), c.WF → ∀ id t data rest : List Nat, IsToken id → IsToken t →
  (c.enc ++ (contentId id ++ contentLocation t)).length < 2 ^ 63 → data.length < 2 ^ 63 →
  ∃ d, decodePart ⟨labelled c (contentId id ++ contentLocation t) data ++ rest, 0⟩ = .ok d ⟨rest, 0⟩ ∧
    d.headers.get (py! "Content-ID") = some (.v (.str (60 :: (id ++ [62])))) ∧
    d.headers.get (py! "Content-Location") = some (.v (.str t))

theorem text_unquote (u rest : List Nat) (h : 0 ∉ u) : decodeTextString ⟨u ++ 0 :: rest, 0⟩ = .ok (unquote u) ⟨rest, 0⟩ := by
  by_cases hq : u.head? = some 127
  · obtain ⟨r, rfl⟩ : ∃ r, u = 127 :: r := by
      cases u with
      | nil => cases hq
      | cons a r => injection hq with hq; subst hq; exact ⟨r, rfl⟩
    exact decodeTextString_quoted r (fun hm => h (by simp [hm])) rest 0
  · rw [decodeTextString_plain u h hq]
    congr 1
    unfold unquote
    split
    · simp at hq
    · rfl

theorem contentId_read (id rest : List Nat) (h : 0 ∉ id) :
    decodeHeader ⟨contentId id ++ rest, 0⟩ = .ok (py! "\"", .v (.str (unquote (id ++ [62])))) ⟨rest, 0⟩ := by
  have e : contentId id ++ rest = 0xC0 :: 34 :: 60 :: ((id ++ [62]) ++ 0 :: rest) := by simp [contentId]
  rw [e]
  generalize hr : (id ++ [62]) ++ 0 :: rest = r
  have hm : decodeMmsHeader ⟨0xC0 :: 34 :: 60 :: r, 0⟩ = .err .decodeError ⟨0xC0 :: 34 :: 60 :: r, 0⟩ := rfl
  have hw : decodeWellKnownHeader ⟨0xC0 :: 34 :: 60 :: r, 0⟩ = .err .decodeError ⟨34 :: 60 :: r, 0⟩ := rfl
  have ht : decodeTokenText ⟨34 :: 60 :: r, 0⟩ = .ok (py! "\"") ⟨r, 0⟩ := rfl
  unfold decodeHeader
  rw [orDE_err hm]
  unfold decodeWspHeader
  rw [orDE_err hw]
  unfold decodeApplicationHeader
  rw [M.bind_ok (orDE_ok ht), ← hr, M.bind_ok (text_unquote _ _ (by simp [h]))]
  rfl

theorem location_swallows {t : List Nat} (ht : IsToken t) (u rest : List Nat) (hu : 0 ∉ u) :
    decodeHeader ⟨contentLocation t ++ (u ++ 0 :: rest), 0⟩ = .ok (t, .v (.str (unquote u))) ⟨rest, 0⟩ := by
  have hd := decodeTokenText_token ht (u ++ 0 :: rest)
  obtain ⟨c, t', rfl, h1, h2, _⟩ := token_head ht
  have htext : contentLocation (c :: t') ++ (u ++ 0 :: rest) = 0x8e :: c :: (t' ++ 0 :: (u ++ 0 :: rest)) := by
    unfold contentLocation text
    simp [if_neg (show ¬ c ≥ 127 by omega)]
  rw [htext]
  rw [List.cons_append] at hd
  generalize hr : t' ++ 0 :: (u ++ 0 :: rest) = r at hd
  have hm : decodeMmsHeader ⟨0x8e :: c :: r, 0⟩ = .err .decodeError ⟨c :: r, 0⟩ := by
    unfold decodeMmsHeader
    have h14 : decodeShortIntegerFromByte 0x8e = .ok 14 := rfl
    rw [M.bind_ok (preview_zero _ _), h14, M.bind_ok (M.lift_ok _ _)]
    show (do let _ ← next; let v ← wrapFatal (decodeMmsValue .longInteger); pure (py! "Message-Size", v) : D _) _ = _
    rw [M.bind_ok (next_cons _ _ _)]
    apply M.bind_err
    unfold wrapFatal M.tryCatch
    have : decodeMmsValue .longInteger ⟨c :: r, 0⟩ = .err .decodeError ⟨c :: r, 0⟩ :=
      M.bind_err (decodeLongInteger_err (by omega) _)
    rw [this]
    rfl
  unfold decodeHeader
  rw [orDE_err hm]
  unfold decodeWspHeader
  have hw : decodeWellKnownHeader ⟨c :: r, 0⟩ = .err .decodeError ⟨c :: r, 0⟩ :=
    M.bind_err (decodeShortInteger_err (by omega) _)
  rw [orDE_err hw]
  unfold decodeApplicationHeader
  rw [M.bind_ok (orDE_ok hd), M.bind_ok (text_unquote _ _ hu)]
  rfl

/-- a part read, given what the loop over its headers makes of the labels -/
theorem labelled_read_gen {c : CType} (hc : c.WF) {labels data : List Nat} {hs : Dict HVal} (k : Nat)
    (hl : (c.enc ++ labels).length < 2 ^ 63) (hd : data.length < 2 ^ 63)
    (h : ∀ fuel, partHeaderLoop (fuel + k) [(CT, .ct c.media c.params)] ⟨labels, 0⟩ = .ok hs ⟨[], 0⟩)
    (rest : List Nat) (h0 : k ≤ (c.enc ++ labels).length + 1) :
    decodePart ⟨labelled c labels data ++ rest, 0⟩ = .ok
      { ctParams := c.params, headers := hs, filename := none, data := some data } ⟨rest, 0⟩ := by
  unfold labelled
  refine decodePart_gen (c := c.media) (s := ⟨[], 0⟩) ?_ hl hd rest
  unfold partHeaders It.new
  rw [M.bind_ok (ctype_ok hc _)]
  simp only []
  obtain ⟨f, hf⟩ : ∃ f, (c.enc ++ labels).length + 1 = f + k := ⟨(c.enc ++ labels).length + 1 - k, by omega⟩
  rw [hf]
  have := h f
  unfold CT at this
  rw [M.bind_ok this]
  rfl

theorem labelled_read {c : CType} (hc : c.WF) {labels data : List Nat} {hs : Dict HVal}
    (hl : (c.enc ++ labels).length < 2 ^ 63) (hd : data.length < 2 ^ 63)
    (h : ∀ fuel, partHeaderLoop (fuel + 2) [(CT, .ct c.media c.params)] ⟨labels, 0⟩ = .ok hs ⟨[], 0⟩)
    (rest : List Nat) (h0 : 1 ≤ (c.enc ++ labels).length) :
    decodePart ⟨labelled c labels data ++ rest, 0⟩ = .ok
      { ctParams := c.params, headers := hs, filename := none, data := some data } ⟨rest, 0⟩ :=
  labelled_read_gen hc 2 hl hd h rest (by omega)

theorem noNul {t : List Nat} (h : IsToken t) : 0 ∉ t := by
  intro hm
  have := (isTokenChar_sep (h.2 0 hm)).1
  omega

/-- C87: Content-ID, then Content-Location (the usual order).  Content type and data are right; the identifier is found
under the name `"`, without its first bracket, and the location is lost. -/
theorem C87_id_location_partial (c : CType) (hc : c.WF) (id t data rest : List Nat) (hi : 0 ∉ id) (ht : IsToken t)
    (hl : (c.enc ++ (contentId id ++ contentLocation t)).length < 2 ^ 63) (hd : data.length < 2 ^ 63) :
    decodePart ⟨labelled c (contentId id ++ contentLocation t) data ++ rest, 0⟩ = .ok
      { ctParams := c.params, filename := none, data := some data,
        headers := [(CT, .ct c.media c.params), (py! "\"", .v (.str (unquote (id ++ [62]))))] } ⟨rest, 0⟩ := by
  refine labelled_read hc hl hd (fun fuel => ?_) rest (by simp [contentId]; omega)
  simp only [partHeaderLoop, contentId_read id _ hi]
  rw [contentLocation, location_lost ht]
  rfl

example := C87_id_location_partial (.constrained (.text (py! "application/smil"))) ⟨by decide, 97, rfl, by decide⟩ (py! "0000")
  (py! "a.smil") [1, 2] [7] (by decide) ⟨by decide, by decide⟩ (by decide +kernel) (by decide)

/-- C87: a Content-ID alone. -/
theorem C87_id_partial (c : CType) (hc : c.WF) (id data rest : List Nat) (hi : 0 ∉ id)
    (hl : (c.enc ++ contentId id).length < 2 ^ 63) (hd : data.length < 2 ^ 63) :
    decodePart ⟨labelled c (contentId id) data ++ rest, 0⟩ = .ok
      { ctParams := c.params, filename := none, data := some data,
        headers := [(CT, .ct c.media c.params), (py! "\"", .v (.str (unquote (id ++ [62]))))] } ⟨rest, 0⟩ := by
  refine labelled_read hc hl hd (fun fuel => ?_) rest (by simp [contentId]; omega)
  have h := contentId_read id [] hi
  rw [List.append_nil] at h
  simp only [partHeaderLoop, h, decodeHeader_nil]
  rfl

example := C87_id_partial (.constrained (.text (py! "application/smil"))) ⟨by decide, 97, rfl, by decide⟩ (py! "0000")
  [1, 2] [7] (by decide) (by decide +kernel) (by decide)

/-- C87: Content-Location, then Content-ID.  The location is taken for the name of a header, and the whole Content-ID for its
value. -/
theorem C87_location_id_partial (c : CType) (hc : c.WF) (id t data rest : List Nat) (hi : 0 ∉ id) (ht : IsToken t)
    (hl : (c.enc ++ (contentLocation t ++ contentId id)).length < 2 ^ 63) (hd : data.length < 2 ^ 63) :
    ∃ d, decodePart ⟨labelled c (contentLocation t ++ contentId id) data ++ rest, 0⟩ = .ok d ⟨rest, 0⟩ ∧
      d.ctParams = c.params ∧ d.data = some data ∧
      ∀ n, d.headers.get n = if n = t then some (.v (.str (0xC0 :: 34 :: 60 :: (id ++ [62]))))
        else if n = CT then some (.ct c.media c.params) else none := by
  refine ⟨_, labelled_read hc hl hd (hs := Dict.set [(CT, .ct c.media c.params)] t
    (.v (.str (0xC0 :: 34 :: 60 :: (id ++ [62]))))) (fun fuel => ?_) rest (by simp [contentId, contentLocation]; omega), rfl, rfl,
    fun n => ?_⟩
  · have e : contentId id = (0xC0 :: 34 :: 60 :: (id ++ [62])) ++ 0 :: [] := by simp [contentId]
    simp only [partHeaderLoop]
    rw [e, location_swallows ht _ _ (by simp [hi])]
    simp only [decodeHeader_nil]
    rfl
  · simp only [Dict.set]
    by_cases h1 : CT = t
    · subst h1
      simp only [if_true, Dict.get]
      by_cases h2 : n = CT
      · rw [if_pos h2, if_pos h2.symm]
      · rw [if_neg h2, if_neg (fun e => h2 e.symm), if_neg h2]
    · rw [if_neg h1]
      simp only [Dict.get]
      by_cases h2 : n = t
      · subst h2
        rw [if_neg h1, if_pos rfl, if_pos rfl]
      · rw [if_neg (c := t = n) (fun e => h2 e.symm), if_neg h2]
        by_cases h3 : n = CT
        · rw [if_pos h3, if_pos h3.symm]
        · rw [if_neg h3, if_neg (fun e => h3 e.symm)]

example := C87_location_id_partial (.constrained (.text (py! "application/smil"))) ⟨by decide, 97, rfl, by decide⟩ (py! "0000")
  (py! "a.smil") [1, 2] [7] (by decide) ⟨by decide, by decide⟩ (by decide +kernel) (by decide)

theorem C87_refuted : ¬ C87_full := by
  intro h
  have hc : (CType.constrained (.text (py! "image/jpeg"))).WF := ⟨by decide, 105, rfl, by decide, by decide⟩
  have hi : IsToken (py! "img1") := ⟨by decide, by decide⟩
  have hl : ((CType.constrained (.text (py! "image/jpeg"))).enc ++
    (contentId (py! "img1") ++ contentLocation (py! "img1"))).length < 2 ^ 63 := by decide
  obtain ⟨d, h1, h2, _⟩ := h _ hc _ _ [] [] hi hi hl (by decide)
  rw [C87_id_location_partial _ hc _ _ [] [] (by decide) hi hl (by decide)] at h1
  injection h1 with h1
  rw [← h1] at h2
  revert h2
  decide

/-- C87: a Content-Location alone is lost. -/
theorem C87_location_partial (c : CType) (hc : c.WF) (t data rest : List Nat) (ht : IsToken t)
    (hl : (c.enc ++ contentLocation t).length < 2 ^ 63) (hd : data.length < 2 ^ 63) :
    decodePart ⟨labelled c (contentLocation t) data ++ rest, 0⟩ = .ok
      { ctParams := c.params, filename := none, data := some data, headers := [(CT, .ct c.media c.params)] } ⟨rest, 0⟩ := by
  refine labelled_read hc hl hd (fun fuel => ?_) rest (by simp [contentLocation]; omega)
  simp only [partHeaderLoop]
  rw [contentLocation, location_lost ht]

example := C87_location_partial (.constrained (.text (py! "image/jpeg"))) ⟨by decide, 105, rfl, by decide⟩
  (py! "a.jpg") [1, 2] [7] ⟨by decide, by decide⟩ (by decide +kernel) (by decide)

theorem uvHigh_noNul : ∀ n, 0 ∉ uvHigh n := by
  intro n
  induction n using Nat.strong_induction_on with
  | _ n ih =>
    rw [uvHigh]
    split
    · simp
    · have := ih (n / 128) (by omega)
      simp only [List.mem_append, List.mem_singleton, not_or]
      exact ⟨this, by omega⟩

theorem text_token {f : List Nat} (hf : IsToken f) : text f = f ++ [0] := by
  obtain ⟨a, r, hfr, h1, h2, _⟩ := token_head hf
  rw [hfr]
  simp [text, if_neg (show ¬ a ≥ 127 by omega)]

/-- a Content-Disposition of which the decoder sees the text `v` -/
theorem disposition_read (v rest : List Nat) (h0 : 0 ∉ v) (h127 : v.head? ≠ some 127) :
    decodeHeader ⟨0xAE :: (v ++ 0 :: rest), 0⟩ = .ok (py! "Content-Disposition", .v (.str v)) ⟨rest, 0⟩ := by
  have hdec := decodeHeader_wsp (i := 46) (name := py! "Content-Disposition") (rest := rest) (v := .v (.str v))
    (body := v ++ [0]) (by decide) rfl rfl (by
      have hp := decodeTextString_plain v h0 h127 rest 0
      show (do let s ← decodeTextString; pure (HVal.v (.str s)) : D HVal) _ = _
      rw [List.append_assoc, List.singleton_append, M.bind_ok hp]
      rfl)
  rw [List.cons_append, List.append_assoc, List.singleton_append] at hdec
  exact hdec

theorem valueLength_front (n : Nat) : (valueLength n).head? ≠ some 127 ∧ valueLength n ≠ [] := by
  unfold valueLength
  split
  · simp
    omega
  · simp

/-- C87: a Content-Disposition with a file name: its octets, lengths and numbers included, become the value.  Missing: file
names for which an octet of the length is 0, see `C87_split_partial`. -/
theorem C87_disposition_partial (c : CType) (hc : c.WF) (f data rest : List Nat) (hf : IsToken f)
    (hs : (f.length + 3) % 128 ≠ 0) (hl : (c.enc ++ attachment f).length < 2 ^ 63) (hd : data.length < 2 ^ 63) :
    decodePart ⟨labelled c (attachment f) data ++ rest, 0⟩ = .ok
      { ctParams := c.params, filename := none, data := some data,
        headers := [(CT, .ct c.media c.params),
          (py! "Content-Disposition", .v (.str (valueLength (f.length + 3) ++ 0x81 :: 0x86 :: f)))] } ⟨rest, 0⟩ := by
  refine labelled_read hc hl hd (fun fuel => ?_) rest (by simp [attachment]; omega)
  have h0 := noNul hf
  have hv : 0 ∉ valueLength (f.length + 3) := by
    unfold valueLength
    split
    · simp
    · unfold uintvar
      have := uvHigh_noNul ((f.length + 3) / 128)
      simp only [List.mem_cons, List.mem_append, List.not_mem_nil, or_false, not_or]
      exact ⟨by omega, this, by omega⟩
  obtain ⟨hh, hne⟩ := valueLength_front (f.length + 3)
  have e : attachment f = 0xAE :: ((valueLength (f.length + 3) ++ 0x81 :: 0x86 :: f) ++ 0 :: []) := by
    unfold attachment sized
    rw [text_token hf]
    simp
  rw [e]
  simp only [partHeaderLoop]
  rw [disposition_read _ _ (by simp [hv, h0]) (by rwa [List.head?_append_of_ne_nil _ hne])]
  simp only [decodeHeader_nil]
  rfl

example : IsToken (py! "holiday.jpg") ∧ ((py! "holiday.jpg" : List Nat).length + 3) % 128 ≠ 0 := ⟨⟨by decide, by decide⟩, by decide⟩
example : IsToken (List.replicate 40 97) ∧ ((List.replicate 40 97).length + 3) % 128 ≠ 0 :=
  ⟨⟨by decide +kernel, by decide +kernel⟩, by decide⟩

/-- C87: if the length of the Content-Disposition is a multiple of 128, the first octets of the length are the value, and the
file name shows up as a recipient of a blind copy. -/
theorem C87_split_partial (c : CType) (hc : c.WF) (f data rest : List Nat) (hf : IsToken f)
    (hs : (f.length + 3) % 128 = 0) (hl : (c.enc ++ attachment f).length < 2 ^ 63) (hd : data.length < 2 ^ 63) :
    decodePart ⟨labelled c (attachment f) data ++ rest, 0⟩ = .ok
      { ctParams := c.params, filename := none, data := some data,
        headers := [(CT, .ct c.media c.params),
          (py! "Content-Disposition", .v (.str (31 :: uvHigh ((f.length + 3) / 128)))),
          (py! "Bcc", .v (.str (0x86 :: f)))] } ⟨rest, 0⟩ := by
  refine labelled_read_gen hc 3 hl hd (fun fuel => ?_) rest (by simp [attachment, sized]; omega)
  have h0 := noNul hf
  have e : attachment f = 0xAE :: ((31 :: uvHigh ((f.length + 3) / 128)) ++ 0 :: (0x81 :: 0x86 :: (f ++ 0 :: []))) := by
    unfold attachment sized
    rw [text_token hf]
    have : valueLength (0x81 :: 0x86 :: (f ++ [0])).length = 31 :: (uvHigh ((f.length + 3) / 128) ++ [0]) := by
      unfold valueLength uintvar
      have e1 : (0x81 :: 0x86 :: (f ++ [0])).length = f.length + 3 := by simp
      rw [e1, if_neg (by omega), hs]
    rw [this]
    simp
  have hb : decodeHeader ⟨0x81 :: 0x86 :: (f ++ 0 :: []), 0⟩ = .ok (py! "Bcc", .v (.str (0x86 :: f))) ⟨[], 0⟩ := by
    have hp := decodeTextString_plain (0x86 :: f) (by simp [h0]) (by simp) [] 0
    rw [List.cons_append] at hp
    generalize f ++ 0 :: [] = r at hp ⊢
    have hs : decodeEncodedStringValue ⟨0x86 :: r, 0⟩ = .ok (0x86 :: f) ⟨[], 0⟩ := by
      unfold decodeEncodedStringValue
      rw [orDE_err (M.bind_err (decodeValueLength_err (by omega) _))]
      exact hp
    unfold decodeHeader
    refine orDE_ok ?_
    unfold decodeMmsHeader
    have h1 : decodeShortIntegerFromByte 0x81 = .ok 1 := rfl
    rw [M.bind_ok (preview_zero _ _), h1, M.bind_ok (M.lift_ok _ _)]
    show (do let _ ← next; let v ← wrapFatal (decodeMmsValue .encodedStringValue); pure (py! "Bcc", v) : D _) _ = _
    rw [M.bind_ok (next_cons _ _ _)]
    have hv : decodeMmsValue .encodedStringValue ⟨0x86 :: r, 0⟩ = .ok (.v (.str (0x86 :: f))) ⟨[], 0⟩ := by
      show (do let s ← decodeEncodedStringValue; pure (HVal.v (.str s)) : D HVal) _ = _
      rw [M.bind_ok hs]
      rfl
    have hw : wrapFatal (decodeMmsValue .encodedStringValue) ⟨0x86 :: r, 0⟩ = .ok (.v (.str (0x86 :: f))) ⟨[], 0⟩ := by
      unfold wrapFatal M.tryCatch
      rw [hv]
    rw [M.bind_ok hw]
    rfl
  rw [e]
  simp only [partHeaderLoop]
  rw [disposition_read _ _ (by simp [uvHigh_noNul]) (by simp)]
  simp only [hb, decodeHeader_nil]
  rfl

example : IsToken (List.replicate 125 97) ∧ ((List.replicate 125 97).length + 3) % 128 = 0 :=
  ⟨⟨by decide +kernel, by decide +kernel⟩, by rw [List.length_replicate]⟩

end Verif.Props

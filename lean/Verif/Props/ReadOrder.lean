import Verif.Spec.ReadOrder
import Verif.Props.DecRead
/-!
# C46 continued: what is read of the headers of a part, in any order
-/
set_option autoImplicit false

namespace Verif.Props
open Verif Verif.Mms
open Verif.Spec.Wsp Verif.Spec.Mms

/-- the octets `pre` before the text are skipped, and the text is taken for the name of an application header -/
def Skips (pre v : List Nat) : Prop :=
  ∀ r, decodeHeader ⟨pre ++ (v ++ 0 :: r), 0⟩ = decodeApplicationHeader ⟨v ++ 0 :: r, 0⟩

theorem skips_nil {c : Nat} {u : List Nat} (hu : ∀ x ∈ c :: u, x < 128) : Skips [] (c :: u) := by
  intro r
  have hm : decodeMmsHeader ⟨c :: (u ++ 0 :: r), 0⟩ = .err .decodeError ⟨c :: (u ++ 0 :: r), 1⟩ := by
    unfold decodeMmsHeader
    rw [M.bind_ok (preview_zero _ _), fromByte_err (hu c (by simp))]
    rfl
  have hw : decodeWellKnownHeader ⟨c :: (u ++ 0 :: r), 1⟩ = .err .decodeError ⟨c :: (u ++ 0 :: r), 0⟩ := by
    have hs : decodeShortInteger ⟨c :: (u ++ 0 :: r), 1⟩ = .err .decodeError ⟨c :: (u ++ 0 :: r), 0⟩ := by
      have hp : ∃ b, b < 128 ∧ preview ⟨c :: (u ++ 0 :: r), 1⟩ = .ok b ⟨c :: (u ++ 0 :: r), 2⟩ := by
        cases u with
        | nil => exact ⟨0, by decide, rfl⟩
        | cons d t => exact ⟨d, hu d (by simp), rfl⟩
      obtain ⟨b, hb, hp⟩ := hp
      unfold decodeShortInteger
      rw [M.bind_ok hp, if_pos ((and_80 (by omega)).2 hb), M.bind_ok (resetPreview_apply _)]
      rfl
    unfold decodeWellKnownHeader
    rw [M.bind_err hs]
  unfold decodeHeader decodeWspHeader
  rw [List.nil_append, List.cons_append, orDE_err hm, orDE_err hw]

theorem skips_location {c : Nat} {u : List Nat} (h1 : 31 < c) (h2 : c < 127) : Skips [0x8e] (c :: u) := by
  suffices h : ∀ r, decodeHeader ⟨0x8e :: c :: r, 0⟩ = decodeApplicationHeader ⟨c :: r, 0⟩ from fun r => h _
  intro r
  have hm : decodeMmsHeader ⟨0x8e :: c :: r, 0⟩ = .err .decodeError ⟨c :: r, 0⟩ := by
    unfold decodeMmsHeader
    have h14 : decodeShortIntegerFromByte 0x8e = .ok 14 := rfl
    rw [M.bind_ok (preview_zero _ _), h14, M.bind_ok (M.lift_ok _ _)]
    show (do let _ ← next; let v ← wrapFatal (decodeMmsValue .longInteger); pure (py! "Message-Size", v) : D _) _ = _
    rw [M.bind_ok (next_cons _ _ _)]
    apply M.bind_err
    unfold wrapFatal M.tryCatch
    have : decodeMmsValue .longInteger ⟨c :: r, 0⟩ = .err .decodeError ⟨c :: r, 0⟩ :=
      M.bind_err (decodeLongInteger_err (by omega) _)
    rw [this]
    rfl
  have hw : decodeWellKnownHeader ⟨c :: r, 0⟩ = .err .decodeError ⟨c :: r, 0⟩ :=
    M.bind_err (decodeShortInteger_err (by omega) _)
  unfold decodeHeader decodeWspHeader
  rw [orDE_err hm, orDE_err hw]

theorem skips_contentId (c : Nat) (u : List Nat) : Skips [0xc0] (c :: u) := by
  suffices h : ∀ r, decodeHeader ⟨0xc0 :: c :: r, 0⟩ = decodeApplicationHeader ⟨c :: r, 0⟩ from fun r => h _
  intro r
  have hm : decodeMmsHeader ⟨0xc0 :: c :: r, 0⟩ = .err .decodeError ⟨0xc0 :: c :: r, 0⟩ := by
    unfold decodeMmsHeader
    have h64 : decodeShortIntegerFromByte 0xc0 = .ok 64 := rfl
    rw [M.bind_ok (preview_zero _ _), h64, M.bind_ok (M.lift_ok _ _)]
    rfl
  have hw : decodeWellKnownHeader ⟨0xc0 :: c :: r, 0⟩ = .err .decodeError ⟨c :: r, 0⟩ := by
    unfold decodeWellKnownHeader
    rfl
  unfold decodeHeader decodeWspHeader
  rw [orDE_err hm, orDE_err hw]

theorem break_not {c : Nat} (h : breaks c = false) : ¬ (c ≤ 31 ∨ c ∈ separators) := by
  have := (breaks_iff c).1 h
  rintro (h | h)
  · omega
  · exact this.2 h

theorem token_break {c : Nat} {u : List Nat} (hu : ∀ x ∈ c :: u, breaks x = false) (b : Nat) (hb : breaks b = true)
    (rest : List Nat) : decodeTokenText ⟨c :: u ++ b :: rest, 0⟩ = .ok (c :: u) ⟨rest, 0⟩ := by
  unfold decodeTokenText
  rw [List.cons_append, M.bind_ok (preview_zero _ _), if_neg (break_not (hu c (by simp)))]
  exact tokenLoop_break (c :: u) hu b hb rest []

/-- a name, the character that ends it, and a value -/
theorem name_value {c : Nat} {u : List Nat} (hu : ∀ x ∈ c :: u, breaks x = false) (b : Nat)
    (hb : breaks b = true) (w : List Nat) (hw : 0 ∉ w) (h127 : w.head? ≠ some 127) (rest : List Nat) :
    decodeApplicationHeader ⟨c :: u ++ b :: (w ++ 0 :: rest), 0⟩ = .ok (c :: u, .v (.str w)) ⟨rest, 0⟩ := by
  unfold decodeApplicationHeader
  rw [M.bind_ok (orDE_ok (token_break hu b hb _)), M.bind_ok (decodeTextString_plain w hw h127 rest 0)]
  rfl

/-- a name after which nothing comes -/
theorem name_end {c : Nat} {u : List Nat} (hu : ∀ x ∈ c :: u, breaks x = false) :
    decodeApplicationHeader ⟨c :: u ++ [0], 0⟩ = .err .stopIteration ⟨[], 0⟩ := by
  unfold decodeApplicationHeader
  rw [M.bind_ok (orDE_ok (token_break hu 0 (by decide) _))]
  rfl

theorem text_plain_order {c : Nat} {r : List Nat} (h : c < 127) : text (c :: r) = c :: r ++ [0] := by
  unfold text
  simp [show ¬ 127 ≤ c by omega]

theorem setApps_cons (n v : List Nat) (hs : List PHdr) (d : Dict HVal) :
    setApps (.app n v :: hs) d = setApps hs (d.set n (.v (.str v))) := rfl

/-- the state of reading: headers that remain, after a name that waits or not -/
def OrderGoal (hs : List PHdr) : Prop :=
  (∀ (fuel : Nat) (d : Dict HVal), (hs.flatMap PHdr.enc).length < fuel →
    partHeaderLoop fuel d ⟨hs.flatMap PHdr.enc, 0⟩ = .ok (setApps (readInOrder none hs) d) ⟨[], 0⟩) ∧
  (∀ (pre : List Nat) (c : Nat) (u : List Nat) (fuel : Nat) (d : Dict HVal), Skips pre (c :: u) → (∀ x ∈ c :: u, breaks x = false) →
    (pre ++ (c :: u ++ 0 :: hs.flatMap PHdr.enc)).length < fuel →
    partHeaderLoop fuel d ⟨pre ++ (c :: u ++ 0 :: hs.flatMap PHdr.enc), 0⟩ =
      .ok (setApps (readInOrder (some (c :: u)) hs) d) ⟨[], 0⟩)

/-- text taken for a name -/
theorem order_taken {hs : List PHdr} (ih : OrderGoal hs) (pre : List Nat) (c : Nat) (u : List Nat) (hn : NameLike (c :: u))
    (hsk : Skips pre (c :: u)) (fuel : Nat) (d : Dict HVal) (hf : (pre ++ (c :: u ++ 0 :: hs.flatMap PHdr.enc)).length < fuel) :
    partHeaderLoop fuel d ⟨pre ++ (c :: u ++ 0 :: hs.flatMap PHdr.enc), 0⟩ =
      .ok (setApps ((takenForName (c :: u)).1 ++ readInOrder (takenForName (c :: u)).2 hs) d) ⟨[], 0⟩ := by
  obtain ⟨h0, ⟨c', r', he, h127, hb⟩, hq⟩ := hn
  injection he with he1 he2
  subst he1 he2
  by_cases ha : (c :: u).any breaks = true
  · unfold takenForName
    rw [if_pos ha]
    have hsplit := List.takeWhile_append_dropWhile (p := fun c => !breaks c) (l := c :: u)
    have htw : ∀ x ∈ (c :: u).takeWhile (fun c => !breaks c), breaks x = false := fun x hx => by
      simpa using List.mem_takeWhile_imp hx
    have hcons : (c :: u).takeWhile (fun c => !breaks c) = c :: u.takeWhile (fun c => !breaks c) := by
      rw [List.takeWhile_cons_of_pos (by simp [hb])]
    obtain ⟨b, w, hd, hbb⟩ : ∃ b w, (c :: u).dropWhile (fun c => !breaks c) = b :: w ∧ breaks b = true := by
      cases hd : (c :: u).dropWhile (fun c => !breaks c) with
      | nil =>
        obtain ⟨x, hx, hxb⟩ := List.any_eq_true.1 ha
        have := List.dropWhile_eq_nil_iff.1 hd x hx
        rw [hxb] at this
        cases this
      | cons b w =>
        refine ⟨b, w, rfl, ?_⟩
        have := List.head_dropWhile_not (p := fun c => !breaks c) (l := c :: u) (by rw [hd]; simp)
        simp only [hd, List.head_cons] at this
        simpa using this
    rw [hd] at hsplit hq ⊢
    rw [hcons] at hsplit htw ⊢
    have hw : 0 ∉ w := fun h => h0 (by rw [← hsplit]; simp [h])
    have key := name_value htw b hbb w hw hq (hs.flatMap PHdr.enc)
    have hr : c :: u ++ 0 :: hs.flatMap PHdr.enc =
        c :: u.takeWhile (fun c => !breaks c) ++ b :: (w ++ 0 :: hs.flatMap PHdr.enc) := by
      conv => lhs; rw [← hsplit]
      simp
    have hk := hsk (hs.flatMap PHdr.enc)
    have hlen := congrArg List.length hr
    rw [hr, key, ← hr] at hk
    obtain ⟨k, rfl⟩ : ∃ k, fuel = k + 1 := ⟨fuel - 1, by omega⟩
    rw [partHeaderLoop]
    simp only [hk]
    rw [List.tail_cons, List.cons_append, List.nil_append]
    rw [setApps_cons]
    refine ih.1 k _ ?_
    simp only [List.length_append, List.length_cons] at hf hlen
    omega
  · have hu : ∀ x ∈ c :: u, breaks x = false := fun x hx => by
      cases hbx : breaks x with
      | false => rfl
      | true => exact absurd (List.any_eq_true.2 ⟨x, hx, hbx⟩) ha
    unfold takenForName
    rw [if_neg ha]
    exact ih.2 pre c u fuel d hsk hu hf

theorem order_goal (hs : List PHdr) (hw : ∀ h ∈ hs, h.Plain) : OrderGoal hs := by
  induction hs with
  | nil =>
    refine ⟨?_, ?_⟩
    · intro fuel d hf
      obtain ⟨k, rfl⟩ : ∃ k, fuel = k + 1 := ⟨fuel - 1, by omega⟩
      simp only [List.flatMap_nil, partHeaderLoop, decodeHeader_nil]
      rfl
    · intro pre c u fuel d hsk hu hf
      obtain ⟨k, rfl⟩ : ∃ k, fuel = k + 1 := ⟨fuel - 1, by omega⟩
      simp only [List.flatMap_nil, partHeaderLoop]
      rw [hsk, name_end hu]
      rfl
  | cons h hs ih =>
    have ih := ih (fun x hx => hw x (by simp [hx]))
    have hh := hw h (by simp)
    refine ⟨?_, ?_⟩
    · intro fuel d hf
      cases h with
      | location t =>
        have hh' : NameLike t := hh
        obtain ⟨h0, ⟨c, r, rfl, h127, hb⟩, hq⟩ := hh'
        have hlt := (breaks_iff c).1 hb
        have he : (PHdr.location (c :: r) :: hs).flatMap PHdr.enc = [0x8e] ++ (c :: r ++ 0 :: hs.flatMap PHdr.enc) := by
          simp [PHdr.enc, text_plain_order h127]
        rw [he] at hf ⊢
        exact order_taken ih [0x8e] c r hh (skips_location (by omega) h127) fuel d hf
      | contentId s =>
        have he : (PHdr.contentId s :: hs).flatMap PHdr.enc = [0xc0] ++ (34 :: s ++ 0 :: hs.flatMap PHdr.enc) := by
          simp [PHdr.enc]
        rw [he] at hf ⊢
        exact order_taken ih [0xc0] 34 s hh (skips_contentId 34 s) fuel d hf
      | app n v =>
        have hdec := decodeHeader_phdr (h := .app n v) ⟨hh.1, hh.2.1.1⟩ (hs.flatMap PHdr.enc)
        obtain ⟨k, rfl⟩ : ∃ k, fuel = k + 1 := ⟨fuel - 1, by omega⟩
        rw [List.flatMap_cons, partHeaderLoop]
        simp only [hdec]
        refine ih.1 k _ ?_
        rw [List.flatMap_cons, List.length_append] at hf
        have : 0 < (PHdr.app n v).enc.length := by simp [PHdr.enc]
        omega
    · intro pre c u fuel d hsk hu hf
      obtain ⟨k, rfl⟩ : ∃ k, fuel = k + 1 := ⟨fuel - 1, by omega⟩
      cases h with
      | location t =>
        have hh' : NameLike t := hh
        obtain ⟨h0, ⟨c', r, rfl, h127, hb⟩, hq⟩ := hh'
        have he : (PHdr.location (c' :: r) :: hs).flatMap PHdr.enc = (0x8e :: c' :: r) ++ 0 :: hs.flatMap PHdr.enc := by
          simp [PHdr.enc, text_plain_order h127]
        have h00 : 0 ∉ 0x8e :: c' :: r := by
          intro h
          rcases List.mem_cons.1 h with h | h
          · cases h
          · exact h0 h
        rw [he] at hf ⊢
        rw [partHeaderLoop]
        simp only [hsk _, name_value hu 0 (by decide) (0x8e :: c' :: r) h00 (by simp) _]
        refine ih.1 k _ ?_
        simp only [List.length_append, List.length_cons] at hf
        omega
      | contentId s =>
        have he : (PHdr.contentId s :: hs).flatMap PHdr.enc = (0xc0 :: 34 :: s) ++ 0 :: hs.flatMap PHdr.enc := by
          simp [PHdr.enc]
        have hh' : NameLike (34 :: s) := hh
        have h00 : 0 ∉ 0xc0 :: 34 :: s := by
          intro h
          rcases List.mem_cons.1 h with h | h
          · cases h
          · exact hh'.1 h
        rw [he] at hf ⊢
        rw [partHeaderLoop]
        simp only [hsk _, name_value hu 0 (by decide) (0xc0 :: 34 :: s) h00 (by simp) _]
        refine ih.1 k _ ?_
        simp only [List.length_append, List.length_cons] at hf
        omega
      | app n v =>
        obtain ⟨hn, hv, h128⟩ := hh
        have hv' := hv
        obtain ⟨h0, ⟨c', r, rfl, h127, hb⟩, hq⟩ := hv'
        have he : (PHdr.app n (c' :: r) :: hs).flatMap PHdr.enc = n ++ 0 :: (c' :: r ++ 0 :: hs.flatMap PHdr.enc) := by
          simp [PHdr.enc, text_plain_order h127]
        obtain ⟨n0, nt, hne, hn1, hn2, _⟩ := token_head hn
        have hn0 : 0 ∉ n := fun h => by
          have := isTokenChar_sep (hn.2 0 h)
          omega
        rw [he] at hf ⊢
        rw [partHeaderLoop]
        simp only [hsk _, name_value hu 0 (by decide) n hn0 (by rw [hne]; simp; omega) _]
        have := order_taken ih [] c' r hv (skips_nil h128) k (d.set (c :: u) (.v (.str n)))
          (by simp only [List.length_append, List.length_cons, List.length_nil] at hf ⊢; omega)
        rw [List.nil_append] at this
        rw [this]
        rfl

/-- parts with plain headers in any order: the content type and the data are read as meant (up to the misreadings of content
types), and the headers are those of the specification -/
theorem C46_any_order (p : Part) (hc : p.ctype.InStep) (hh : ∀ h ∈ p.headers, h.Plain) (hl : p.head.length < 2 ^ 63)
    (hd : p.data.length < 2 ^ 63) (rest : List Nat) :
    ∃ d, decodePart ⟨p.enc ++ rest, 0⟩ = .ok d ⟨rest, 0⟩ ∧ d.ctParams = p.ctype.paramsRead ∧ d.filename = none ∧
      d.data = some p.data ∧
      d.headers = setApps (readInOrder none p.headers) [(py! "Content-Type", .ct p.ctype.mediaRead p.ctype.paramsRead)] := by
  have hloop := (order_goal p.headers hh).1 (p.head.length + 1) [(py! "Content-Type", .ct p.ctype.mediaRead p.ctype.paramsRead)]
    (by unfold Part.head; rw [List.length_append]; omega)
  have hct : decodeContentTypeValue ⟨p.head, 0⟩ =
    .ok (p.ctype.mediaRead, p.ctype.paramsRead) ⟨p.headers.flatMap PHdr.enc, 0⟩ := ctype_read hc _
  have hi : partHeaders p.head (It.new p.head) = .ok (p.ctype.mediaRead, p.ctype.paramsRead,
      setApps (readInOrder none p.headers) [(py! "Content-Type", .ct p.ctype.mediaRead p.ctype.paramsRead)]) ⟨[], 0⟩ := by
    unfold partHeaders It.new
    rw [M.bind_ok hct]
    simp only []
    rw [M.bind_ok hloop]
    rfl
  refine ⟨⟨p.ctype.paramsRead, _, none, some p.data⟩, ?_, rfl, rfl, rfl, rfl⟩
  unfold decodePart Part.enc
  simp only [List.append_assoc]
  have hf : onFresh p.head (partHeaders p.head) ⟨p.data ++ rest, 0⟩ = .ok (p.ctype.mediaRead, p.ctype.paramsRead,
      setApps (readInOrder none p.headers) [(py! "Content-Type", .ct p.ctype.mediaRead p.ctype.paramsRead)])
      ⟨p.data ++ rest, 0⟩ := by
    unfold onFresh; rw [hi]
  rw [M.bind_ok (decodeUintVar_uintvar _ _ _), M.bind_ok (decodeUintVar_uintvar _ _ _), M.bind_ok (xrangeCheck_ok hl _),
    M.bind_ok (nextN_ok _ _), M.bind_ok hf]
  simp only []
  rw [M.bind_ok (xrangeCheck_ok hd _), M.bind_ok (nextN_ok _ _)]
  rfl

/-- the other order of the headers most phones send: the Content-Location becomes the name of a header, and the Content-ID with
its number and its quote is the value of that -/
theorem C46_location_first (c : CType) (hc : c.InStep) (t i data rest : List Nat) (ht : IsToken t)
    (hi : NameLike (34 :: i)) (hl : (Part.mk c [.location t, .contentId i] data).head.length < 2 ^ 63)
    (hd : data.length < 2 ^ 63) :
    ∃ d, decodePart ⟨(Part.mk c [.location t, .contentId i] data).enc ++ rest, 0⟩ = .ok d ⟨rest, 0⟩ ∧
      d.data = some data ∧ d.headers.get t = some (.v (.str (0xc0 :: 34 :: i))) ∧
      (∀ n, n ≠ t → n ≠ py! "Content-Type" → d.headers.get n = none) := by
  have hnb : ∀ x ∈ t, breaks x = false := fun x hx => by
    have := isTokenChar_sep (ht.2 x hx)
    exact (breaks_iff x).2 ⟨this.1, this.2.1⟩
  have hnl : NameLike t := by
    obtain ⟨c0, r, rfl, h1, h2, h3⟩ := token_head ht
    refine ⟨fun h => ?_, ⟨c0, r, rfl, h2, hnb c0 (by simp)⟩, ?_⟩
    · exact absurd (hnb 0 h) (by decide)
    · rw [List.dropWhile_eq_nil_iff.2 (fun x hx => by simp [hnb x hx])]
      simp
  obtain ⟨d, h1, _, _, h3, h4⟩ := C46_any_order (Part.mk c [.location t, .contentId i] data) hc (by
    intro h hh
    rcases List.mem_cons.1 hh with rfl | hh
    · exact hnl
    · rw [List.mem_singleton] at hh
      subst hh
      exact hi) hl hd rest
  have htk : takenForName t = ([], some t) := by
    unfold takenForName
    rw [if_neg]
    intro h
    obtain ⟨x, hx, hb⟩ := List.any_eq_true.1 h
    rw [hnb x hx] at hb
    cases hb
  have hr : readInOrder none [.location t, .contentId i] = [.app t (0xc0 :: 34 :: i)] := by
    simp only [readInOrder, htk, List.nil_append]
  simp only [hr, setApps_cons] at h4
  refine ⟨d, h1, h3, ?_, ?_⟩
  · rw [h4]
    show (Dict.set _ _ _).get t = _
    rw [dict_get_set, if_pos rfl]
  · intro n hn hct
    rw [h4]
    show (Dict.set _ _ _).get n = _
    rw [dict_get_set, if_neg (fun e => hn e.symm)]
    simp [Dict.get]
    exact fun e => hct e.symm

/-- a part with a Content-Location, a Content-ID, an application header and another Content-Location -/
example : (∀ h ∈ [PHdr.location (py! "a.jpg"), .contentId (py! "<1>"), .app (py! "X-A") (py! "b c"), .location (py! "d")],
      h.Plain) ∧
    readInOrder none [.location (py! "a.jpg"), .contentId (py! "<1>"), .app (py! "X-A") (py! "b c"), .location (py! "d")] =
      [.app (py! "a.jpg") (0xc0 :: py! "\"<1>"), .app (py! "X-A") (py! "b c")] ∧
    readInOrder none [.location (py! "a.jpg"), .app (py! "X-A") (py! "b c"), .location (py! "d")] =
      [.app (py! "a.jpg") (py! "X-A"), .app (py! "b") (py! "c")] := by
  refine ⟨?_, by decide +kernel, by decide +kernel⟩
  intro h hh
  simp only [List.mem_cons, List.not_mem_nil, or_false] at hh
  rcases hh with rfl | rfl | rfl | rfl
  · exact ⟨by unfold IsText; decide +kernel, ⟨_, _, rfl, by decide, by decide⟩, by decide +kernel⟩
  · exact ⟨by unfold IsText; decide +kernel, ⟨_, _, rfl, by decide, by decide⟩, by decide +kernel⟩
  · exact ⟨⟨by decide, by decide +kernel⟩, ⟨by unfold IsText; decide +kernel, ⟨_, _, rfl, by decide, by decide⟩,
      by decide +kernel⟩, by decide +kernel⟩
  · exact ⟨by unfold IsText; decide +kernel, ⟨_, _, rfl, by decide, by decide⟩, by decide +kernel⟩

end Verif.Props

import Verif.Proofs.Standard
/-!
# Lemmas for C114: content types, parts and messages
-/
set_option autoImplicit false

namespace Verif.Mms
open Verif Verif.Props
open Verif.Spec.Wsp Verif.Spec.Mms Verif.Spec.MmsEnc Verif.Spec.Standard

theorem mediaTypes_send : ∀ m ∈ mediaTypes, (0 ∉ m ∧ (m.head?.elim false fun c => decide (32 ≤ c ∧ c < 127)) = true) ∧
    (∀ c ∈ m, c < 256) ∧ m ≠ py! "multipart/byterantes" := by decide +kernel

theorem mediaTypes_standard {m : Str} (h : m ∈ mediaTypes) : StandardMedia m := by
  obtain ⟨⟨h0, h1⟩, h2, h3⟩ := mediaTypes_send m h
  refine ⟨⟨⟨h0, ?_⟩, h2⟩, h3⟩
  cases hm : m.head? with
  | none => rw [hm] at h1; cases h1
  | some c =>
    rw [hm] at h1
    exact ⟨c, rfl, by simpa using h1⟩

theorem byterantes_known : indexOf wellKnownContentTypes (py! "multipart/byterantes") = some 14 := by decide +kernel

/-- a standard media type is written as a conformant one -/
theorem media_form {m : Str} (h : StandardMedia m) : ∃ c : CType, c.Conf ∧ c.media = m ∧ c.params = [] ∧
    encodeContentTypeValue m [] = .ok (ints (toInts c.enc)) ∧ (∀ x ∈ c.enc, x < 256) ∧ c.enc.length ≤ m.length + 1 ∧
    ∃ M, c = .constrained M := by
  obtain ⟨⟨⟨h0, c, hc, h1, h2⟩, h8⟩, hb⟩ := h
  have hs : c :: m.tail = m := by
    cases m with
    | nil => cases hc
    | cons d t => injection hc with hc; subst hc; rfl
  cases hi : indexOf wellKnownContentTypes m with
  | some i =>
    have hlt := indexOf_lt hi
    have hL : wellKnownContentTypes.length = 76 := by decide +kernel
    have hget := indexOf_get hi
    have h14 : i ≠ 14 := by
      rintro rfl
      have := indexOf_get byterantes_known
      rw [hget] at this
      injection this with this
      exact hb this
    have hmt : mediaTypes[i]? = some m := by rw [← mediaTypes_eq ⟨i, by omega⟩ h14]; exact hget
    refine ⟨.constrained (.known i m), hmt, rfl, rfl, encodeContentTypeValue_known hi, ?_, by simp [CType.enc, Media.enc, shortInt], _, rfl⟩
    intro x hx
    simp [CType.enc, Media.enc, shortInt] at hx
    omega
  | none =>
    exact ⟨.constrained (.text m), ⟨h0, c, hc, h1, h2⟩, rfl, rfl, encodeContentTypeValue_text hi ⟨h1, by omega⟩ hs,
      text_body h8, by simp [CType.enc, Media.enc], _, rfl⟩

theorem media_sent {m : Str} (h : StandardMedia m) : ∃ c : CType, c.Conf ∧ c.media = m ∧ c.params = [] ∧
    encodeContentTypeValue m [] = .ok (ints (toInts c.enc)) ∧ (∀ x ∈ c.enc, x < 256) ∧ c.enc.length ≤ m.length + 1 := by
  obtain ⟨c, h1, h2, h3, h4, h5, h6, _⟩ := media_form h
  exact ⟨c, h1, h2, h3, h4, h5, h6⟩

theorem media_nonempty (m : Media) : m.enc ≠ [] := by cases m <;> simp [Media.enc, shortInt]

/-- and no other is -/
theorem media_standard {m : Str} {l : List Nat} (h : Carries m [] l) (hw : WrittenMedia m l) : StandardMedia m := by
  obtain ⟨c, hc, hm, _, he⟩ := hw
  have key : ∀ M : Media, M.Conf → M.value = m → (l = M.enc ∨ M.enc.length < l.length) → StandardMedia m := by
    intro M hM hv hl
    cases M with
    | known i s =>
      have hM : mediaTypes[i]? = some s := hM
      have : s = m := hv
      subst this
      exact mediaTypes_standard (List.mem_of_getElem? hM)
    | text s =>
      have : s = m := hv
      subst this
      obtain ⟨h0, d, hd, h1, h2⟩ := hM
      have hs : d :: s.tail = s := by
        cases s with
        | nil => cases hd
        | cons d t => injection hd with hd; subst hd; rfl
      obtain ⟨r, h3, h4⟩ := h
      cases hi : indexOf wellKnownContentTypes s with
      | some i =>
        rw [encodeContentTypeValue_known hi] at h3
        injection h3 with h3
        subst h3
        rw [flatten_ints] at h4
        obtain ⟨rfl, _⟩ := toOctets_str h4
        cases s with
        | nil => cases hd
        | cons x t =>
          rcases hl with hl | hl
          · simp [Media.enc, shortInt] at hl
          · simp [Media.enc, shortInt] at hl
      | none =>
        rw [encodeContentTypeValue_text hi ⟨h1, by omega⟩ hs] at h3
        injection h3 with h3
        subst h3
        rw [flatten_ints] at h4
        obtain ⟨rfl, h8⟩ := toOctets_str h4
        refine ⟨⟨⟨h0, d, hd, h1, h2⟩, fun c hc => h8 c (List.mem_append_left _ hc)⟩, ?_⟩
        rintro rfl
        rw [byterantes_known] at hi
        cases hi
  cases c with
  | constrained M => exact key M hc hm (Or.inl he.symm)
  | general M ps =>
    refine key M hc.1 hm (Or.inr ?_)
    have := sized_length (M.enc ++ ps.flatMap Param.enc)
    unfold sized at this
    rw [← he]
    show _ < (valueLength _ ++ _).length
    simp only [List.length_append] at this ⊢
    omega

/-! ### headers of parts -/

theorem location_sent (s : Str) : encodeWspHeader (py! "Content-Location") (.v (.str s)) = .ok (ints (toInts (0x8e :: (s ++ [0])))) := by
  have hi : indexOf wspNames (py! "Content-Location") = some 14 := rfl
  have h1 : ¬ (py! "Content-Location" = py! "Accept") := by decide
  have h2 : ¬ (py! "Content-Location" = py! "Pragma") := by decide
  unfold encodeWspHeader
  simp only [names12, hi, encodeShortInteger_nat (n := 14) (by decide), encodeWapValue, if_neg h1, if_neg h2,
    encodeTextH_str, bind, Except.bind]
  rw [← ints_append, ← toInts_append]
  rfl

theorem partHeader_sent {n s : Str} (h : StandardP n s) : ∃ h : PHdr, h.Conf ∧ h.name = n ∧ h.value = s ∧
    encodeWspHeader n (.v (.str s)) = .ok (ints (toInts h.enc)) ∧ (∀ x ∈ h.enc, x < 256) ∧
    h.enc.length ≤ entrySize (n, .v (.str s)) := by
  cases h with
  | location s h =>
    refine ⟨.location s, h.1, rfl, rfl, ?_, ?_, ?_⟩
    · show encodeWspHeader _ _ = .ok (ints (toInts (0x8e :: text s)))
      rw [plain_text h]
      exact location_sent s
    · intro x hx
      change x ∈ 0x8e :: text s at hx
      rw [plain_text h] at hx
      rcases List.mem_cons.1 hx with hx | hx
      · omega
      · exact text_body h.2.1 x hx
    · show (0x8e :: text s).length ≤ _
      rw [plain_text h]
      simp only [entrySize, List.length_cons, List.length_append, List.length_nil]
      omega
  | app n s hn hw h =>
    refine ⟨.app n s, ⟨hn, h.1⟩, rfl, rfl, ?_, ?_, ?_⟩
    · show encodeWspHeader _ _ = .ok (ints (toInts (n ++ 0 :: text s)))
      rw [plain_text h]
      exact wspHeader_app hn hw
    · intro x hx
      change x ∈ n ++ 0 :: text s at hx
      rw [plain_text h] at hx
      rcases List.mem_append.1 hx with hx | hx
      · have := (isTokenChar_sep (hn.2 x hx)).2.2
        omega
      · rcases List.mem_cons.1 hx with hx | hx
        · omega
        · exact text_body h.2.1 x hx
    · show (n ++ 0 :: text s).length ≤ _
      rw [plain_text h]
      simp only [entrySize, List.length_cons, List.length_append, List.length_nil]
      omega

theorem wsp_app_inv {n s : Str} (hw : n ∉ wspNames) {i : List Item} (h : encodeWspHeader n (.v (.str s)) = .ok i) :
    i = ints (toInts (n ++ 0 :: (s ++ [0]))) := by
  have h1 : n ≠ py! "Accept" := fun e => hw (by rw [e]; decide)
  have h2 : n ≠ py! "Pragma" := fun e => hw (by rw [e]; decide)
  unfold encodeWspHeader at h
  simp only [names12, indexOf_none.2 hw, encodeWapValue, if_neg h1,
    if_neg h2, encodeTextH_str, bind, Except.bind] at h
  cases ht : encodeTokenText n with
  | error e => rw [ht] at h; cases h
  | ok a =>
    rw [ht] at h
    simp only [] at h
    unfold encodeTokenText at ht
    split at ht
    · cases ht
    · injection ht with ht
      subst ht
      injection h with h
      rw [← h, textOctets_eq, ← ints_append, ← toInts_append]
      simp

theorem partHeader_standard {n s : Str} {i : List Item} {l : List Nat} (hn : n = py! "Content-Location" ∨ n ∉ wspNames)
    (h : encodeWspHeader n (.v (.str s)) = .ok i) (ho : toOctets i = .ok l) (hw : WrittenPart n s l) : StandardP n s := by
  obtain ⟨p, hc, rfl, rfl, he⟩ := hw
  rcases hn with hn | hn
  · rw [hn] at h ⊢
    rw [location_sent] at h
    injection h with h
    subst h
    obtain ⟨rfl, h8⟩ := toOctets_str ho
    cases p with
    | location s =>
      simp only [PHdr.enc, List.cons.injEq, true_and] at he
      exact .location s ⟨hc, fun c hc => h8 c (by simp [PHdr.value, hc]), text_plain he⟩
    | contentId s => exact absurd hn (show py! "Content-ID" ≠ py! "Content-Location" by decide)
    | app n v =>
      obtain ⟨d, t, rfl, h3, h4, _⟩ := token_head hc.1
      injection he with he
      omega
  · have := wsp_app_inv hn h
    subst this
    obtain ⟨rfl, h8⟩ := toOctets_str ho
    cases p with
    | location s => exact absurd (show py! "Content-Location" ∈ wspNames by decide) hn
    | contentId s => cases he
    | app n v =>
      simp only [PHdr.enc, PHdr.name, PHdr.value, List.append_cancel_left_eq, List.cons.injEq, true_and] at he
      exact .app n v hc.1 hn ⟨hc.2, fun c hc => h8 c (by simp [PHdr.value, hc]), text_plain he⟩

/-! ### parts -/

/-- of names that all differ, the last value is the one in the dict -/
theorem foldl_last {α β : Type} (name : α → Str) (value : α → β) (l : List α) (hnd : (l.map name).Nodup) (n : Str) (o : Option β) :
    l.foldl (fun o h => if name h = n then some (value h) else o) o = (Dict.get (l.map fun h => (name h, value h)) n).or o := by
  induction l generalizing o with
  | nil => rfl
  | cons h l ih =>
    have hnd' : name h ∉ l.map name ∧ (l.map name).Nodup := List.nodup_cons.1 hnd
    rw [List.foldl_cons, ih hnd'.2]
    simp only [List.map_cons, Dict.get]
    by_cases hn : name h = n
    · have hg : Dict.get (l.map fun h => (name h, value h)) n = none := by
        apply Dict.get_none.2
        rintro e he rfl
        obtain ⟨x, hx, rfl⟩ := List.mem_map.1 he
        exact hnd'.1 (hn ▸ List.mem_map.2 ⟨x, hx, rfl⟩)
      rw [if_pos hn, if_pos hn, hg]
      rfl
    · rw [if_neg hn, if_neg hn]

theorem dict_map_get {α β : Type} (d : Dict α) (f : α → β) (n : Str) :
    Dict.get (d.map fun e => (e.1, f e.2)) n = (d.get n).map f := by
  induction d with
  | nil => rfl
  | cons e d ih =>
    obtain ⟨k, v⟩ := e
    simp only [List.map_cons, Dict.get]
    split
    · rfl
    · exact ih

theorem partHeaders_sent {d : Dict HVal} (h : ∀ e ∈ d, e.1 ≠ CT → ∃ s, e.2 = .v (.str s) ∧ StandardP e.1 s) :
    ∃ hs : List PHdr, encodePartHeaders d = .ok (ints (toInts (hs.flatMap PHdr.enc))) ∧
      hs.map (fun h => (h.name, HVal.v (.str h.value))) = d.filter (fun e => e.1 ≠ CT) ∧
      (∀ h ∈ hs, h.Conf ∧ ∀ x ∈ h.enc, x < 256) ∧
      (hs.flatMap PHdr.enc).length ≤ ((d.filter (fun e => e.1 ≠ CT)).map entrySize).sum := by
  induction d with
  | nil => exact ⟨[], rfl, rfl, fun _ h => (by cases h), Nat.le_refl _⟩
  | cons x r ih =>
    obtain ⟨k, v⟩ := x
    obtain ⟨os, h1, h2, h3, h4⟩ := ih (fun e he => h e (List.mem_cons_of_mem _ he))
    simp only [encodePartHeaders]
    by_cases hk : k = py! "Content-Type"
    · rw [if_pos hk]
      have hf : List.filter (fun e : Str × HVal => decide (e.1 ≠ CT)) ((k, v) :: r)
          = r.filter (fun e => decide (e.1 ≠ CT)) := by
        rw [List.filter_cons_of_neg]; simp [hk, CT]
      rw [hf]
      exact ⟨os, h1, h2, h3, h4⟩
    · obtain ⟨s, hv, hs⟩ := h (k, v) (List.mem_cons_self ..) hk
      change v = _ at hv
      subst hv
      obtain ⟨o, e1, e2, e3, e4, e5, e6⟩ := partHeader_sent hs
      rw [if_neg hk]
      have hf : List.filter (fun e : Str × HVal => decide (e.1 ≠ CT)) ((k, .v (.str s)) :: r)
          = (k, .v (.str s)) :: r.filter (fun e => decide (e.1 ≠ CT)) := by
        rw [List.filter_cons_of_pos]; simp [hk, CT]
      rw [hf]
      refine ⟨o :: os, ?_, ?_, ?_, ?_⟩
      · change encodeWspHeader k _ = _ at e4
        simp only [e4, h1, bind, Except.bind, List.flatMap_cons]
        rw [← ints_append, ← toInts_append]
      · rw [List.map_cons, h2, e2, e3]
      · intro e he
        rcases List.mem_cons.1 he with rfl | he
        · exact ⟨e1, e5⟩
        · exact h3 e he
      · have e6 : o.enc.length ≤ entrySize (k, .v (.str s)) := e6
        simp only [List.flatMap_cons, List.length_append, List.map_cons, List.sum_cons]
        omega

/-- a standard part is written as a conformant one that says the same -/
theorem part_sent {env : Env} {ord : Dict HVal → Dict HVal} (ho : ∀ d, (ord d).Perm d) {part : DataPart}
    {media data : List Nat} (h : StandardPart env part media data) :
    ∃ p : Part, p.Conf ∧ Says env part p ∧ p.data = data ∧ (∃ M, p.ctype = .constrained M) ∧ encodePart env ord part = .ok p.enc := by
  obtain ⟨c, c1, c2, c3, c4, c5, c6, c7⟩ := media_form h.media
  have hord : (ord part.headers).Ok := ((ho part.headers).map Prod.fst).nodup_iff.2 h.keys
  obtain ⟨hs, g1, g2, g3, g4⟩ := partHeaders_sent (d := ord part.headers) (by
    rintro ⟨n, v⟩ hm hn
    exact h.headers n v (h.keys.get ((ho part.headers).mem_iff.1 hm)) hn)
  have hsum := entry_sum h.ct
  have hperm : (((ord part.headers).filter (fun e => e.1 ≠ CT)).map entrySize).sum
      = ((part.headers.filter (fun e => e.1 ≠ CT)).map entrySize).sum :=
    sum_perm (((ho part.headers).filter _).map _)
  have hsmall : (c.enc ++ hs.flatMap PHdr.enc).length < 2 ^ 63 := by
    have := h.small.1
    rw [List.length_append]
    rw [hperm] at g4
    simp only [entrySize] at hsum
    omega
  have hnames : hs.map PHdr.name = ((ord part.headers).filter (fun e => e.1 ≠ CT)).map Prod.fst := by
    rw [← g2, List.map_map]
    rfl
  have hnd : (hs.map PHdr.name).Nodup := by
    rw [hnames]
    exact List.Sublist.nodup ((List.filter_sublist).map Prod.fst) hord
  refine ⟨{ ctype := c, headers := hs, data := data }, ⟨c1, fun x hx => (g3 x hx).1, hsmall, h.small.2⟩,
    ⟨by rw [c2]; exact h.ct, c3, h.read, hnd, ?_, ?_⟩, rfl, c7, ?_⟩
  · rw [hnames]
    intro hm
    obtain ⟨e, he, h2⟩ := List.mem_map.1 hm
    have := (List.mem_filter.1 he).2
    simp [h2] at this
  · intro n hn
    have h1 := Dict.get_filter (ord part.headers) (fun k => decide (k ≠ CT)) n
    rw [if_pos (by simpa using hn), Dict.get_perm (ho part.headers) hord] at h1
    rw [← h1]
    have h2 := foldl_last PHdr.name PHdr.value hs hnd n none
    unfold lastPartValue
    rw [h2, Option.or_none]
    have h3 := dict_map_get (hs.map fun h => (h.name, h.value)) (fun s => HVal.v (.str s)) n
    rw [← h3, List.map_map]
    exact congrArg (fun d => Dict.get d n) g2.symm
  · exact encodePart_eq h.ct c4 c5 g1 (by
      intro x hx
      obtain ⟨e, he, hx⟩ := List.mem_flatMap.1 hx
      exact (g3 e he).2 x hx) h.read h.len

theorem parts_sent {env : Env} {ord : Dict HVal → Dict HVal} {ps : List DataPart}
    (h : ∀ p ∈ ps, ∃ q : Part, q.Conf ∧ Says env p q ∧ (∃ M, q.ctype = .constrained M) ∧ encodePart env ord p = .ok q.enc) :
    ∃ qs : List Part, (∀ q ∈ qs, q.Conf ∧ ∃ M, q.ctype = .constrained M) ∧ List.Forall₂ (Says env) ps qs ∧ encodeParts env ord ps = .ok (qs.flatMap Part.enc) := by
  induction ps with
  | nil => exact ⟨[], by simp, .nil, rfl⟩
  | cons p ps ih =>
    obtain ⟨q, h1, h2, h4, h3⟩ := h p (List.mem_cons_self ..)
    obtain ⟨qs, g1, g2, g3⟩ := ih (fun x hx => h x (List.mem_cons_of_mem _ hx))
    refine ⟨q :: qs, ?_, .cons h2 g2, ?_⟩
    · intro x hx
      rcases List.mem_cons.1 hx with rfl | hx
      · exact ⟨h1, h4⟩
      · exact g1 x hx
    · simp only [encodeParts, h3, g3, bind, Except.bind, List.flatMap_cons]

/-! ### messages -/

theorem rest_sent {d : Dict HVal} (h : ∀ e ∈ d, e.1 ≠ CT → Standard e.1 e.2) :
    ∃ hs : List Hdr, encodeRest d = .ok (hs.flatMap Hdr.enc) ∧ (∀ h ∈ hs, h.Conf ∧ SentForm h) ∧
      hs.map (fun h => (h.name, h.value)) = d.filter (fun e => e.1 ≠ CT) := by
  induction d with
  | nil => exact ⟨[], rfl, fun _ h => (by cases h), rfl⟩
  | cons x r ih =>
    obtain ⟨k, v⟩ := x
    obtain ⟨hs, h1, h2, h3⟩ := ih (fun e he => h e (List.mem_cons_of_mem _ he))
    simp only [encodeRest]
    by_cases hk : k = py! "Content-Type"
    · rw [if_pos hk, List.filter_cons_of_neg (by simp [hk, CT])]
      exact ⟨hs, h1, h2, h3⟩
    · obtain ⟨o, e1, e2, e3, e5, e4⟩ := standard_form (h (k, v) (List.mem_cons_self ..) hk)
      rw [if_neg hk, List.filter_cons_of_pos (by simp [hk, CT])]
      refine ⟨o :: hs, ?_, ?_, ?_⟩
      · change headerOctets k v = _ at e4
        simp only [e4, h1, bind, Except.bind, List.flatMap_cons]
      · intro x hx
        rcases List.mem_cons.1 hx with rfl | hx
        · exact ⟨e1, e5⟩
        · exact h2 x hx
      · rw [List.map_cons, h3, e2, e3]

/-- the header block of a message -/
theorem headers_sent {ord : Dict HVal → Dict HVal} (ho : ∀ d, (ord d).Perm d) {rnd : Nat} {m : Msg} {P : Dict HVal}
    (hP : prepareHeaders rnd m.headers = P) (hk : P.Ok) {media : Str} (hct : P.get CT = some (.ct media []))
    (hm : StandardMedia media) (hf : ∀ n v, P.get n = some v → n ≠ CT → Standard n v) :
    ∃ (hs : List Hdr) (c : CType), encodeMessageHeader ord rnd m =
        .ok (hs.flatMap Hdr.enc ++ 0x84 :: c.enc) { m with headers := restHeaders P } ∧
      (∀ h ∈ hs, h.Conf ∧ SentForm h) ∧ c.Conf ∧ (∃ M, c = .constrained M) ∧ c.media = media ∧ c.params = [] ∧ (hs.map Hdr.name).take 3 = [MT, TI, MV] ∧
      (hs.map Hdr.name).Nodup ∧ CT ∉ hs.map Hdr.name ∧ ∀ n, n ≠ CT → lastValue hs n = P.get n := by
  have g1 : ∃ v, P.get MT = some v := ⟨_, by rw [← hP, prepare_get _ _ _ (by decide), if_pos rfl]⟩
  have g2 : ∃ v, P.get TI = some v := ⟨_, by rw [← hP, prepare_get _ _ _ (by decide), if_neg (by decide), if_pos rfl]⟩
  have g3 : ∃ v, P.get MV = some v := ⟨_, by
    rw [← hP, prepare_get _ _ _ (by decide), if_neg (by decide), if_neg (by decide), if_pos rfl]⟩
  obtain ⟨vt, g1⟩ := g1
  obtain ⟨vi, g2⟩ := g2
  obtain ⟨vv, g3⟩ := g3
  obtain ⟨a, a1, a2, a3, a5, a4⟩ := standard_form (hf _ _ g1 (by decide))
  obtain ⟨b, b1, b2, b3, b5, b4⟩ := standard_form (hf _ _ g2 (by decide))
  obtain ⟨c, c1, c2, c3, c5, c4⟩ := standard_form (hf _ _ g3 (by decide))
  have hR := rest_ok hk
  have hRg := rest_get hk
  have hord : (ord (restHeaders P)).Ok := ((ho _).map Prod.fst).nodup_iff.2 hR
  have hog : ∀ n, (ord (restHeaders P)).get n = (restHeaders P).get n := Dict.get_perm (ho _) hord
  obtain ⟨hs, e1, e2, e3⟩ := rest_sent (d := ord (restHeaders P)) (by
    rintro ⟨n, v⟩ hmem hn
    have := hord.get hmem
    rw [hog, hRg] at this
    split at this
    · cases this
    · exact hf n v this hn)
  have hrct : (restHeaders P).get CT = some (.ct media []) := by rw [rest_get' (by decide), hct]
  obtain ⟨t, t1, t2, t3, t4, t5, _, t6⟩ := media_form hm
  have ht : encodeCtHeader (restHeaders P) = .ok (0x84 :: t.enc) := by
    unfold encodeCtHeader
    have hx : (restHeaders P).index (py! "Content-Type") = .ok (.ct media []) := Dict.index_some hrct
    have hn : encodeMmsFieldName (py! "Content-Type") = .ok (toInts [0x84]) := rfl
    simp only [hx, hn, encodeCtPair, t4, bind, Except.bind, flatten_ints, toOctets_ints t5, toOctets_ints (l := [0x84]) (by simp)]
    rfl
  have hfil : ∀ n, Dict.get (hs.map fun h => (h.name, h.value)) n
      = if n = CT ∨ n = MT ∨ n = TI ∨ n = MV then none else P.get n := by
    intro n
    rw [e3]
    have := Dict.get_filter (ord (restHeaders P)) (fun k => decide (k ≠ CT)) n
    rw [this, hog, hRg]
    by_cases hn : n = CT
    · simp [hn]
    · rw [if_pos (by simpa using hn)]
      simp [hn]
  have hno : ∀ k, k = CT ∨ k = MT ∨ k = TI ∨ k = MV → k ∉ hs.map Hdr.name := by
    intro k hk hm
    have := hfil k
    rw [if_pos hk] at this
    obtain ⟨x, hx, rfl⟩ := List.mem_map.1 hm
    exact Dict.get_none.1 this (x.name, x.value) (List.mem_map.2 ⟨x, hx, rfl⟩) rfl
  have hnd0 : (hs.map Hdr.name).Nodup := by
    have : hs.map Hdr.name = ((ord (restHeaders P)).filter (fun e => e.1 ≠ CT)).map Prod.fst := by
      rw [← e3, List.map_map]
      rfl
    rw [this]
    exact List.Sublist.nodup ((List.filter_sublist).map Prod.fst) hord
  have hnames : (a :: b :: c :: hs).map Hdr.name = MT :: TI :: MV :: hs.map Hdr.name := by
    simp only [List.map_cons, a2, b2, c2]
  have hnd : ((a :: b :: c :: hs).map Hdr.name).Nodup := by
    rw [hnames]
    refine List.nodup_cons.2 ⟨?_, List.nodup_cons.2 ⟨?_, List.nodup_cons.2 ⟨hno MV (by simp), hnd0⟩⟩⟩
    · intro h
      simp only [List.mem_cons] at h
      rcases h with h | h | h
      · revert h; decide
      · revert h; decide
      · exact hno MT (by simp) h
    · intro h
      simp only [List.mem_cons] at h
      rcases h with h | h
      · revert h; decide
      · exact hno TI (by simp) h
  refine ⟨a :: b :: c :: hs, t, ?_, ?_, t1, t6, t2, t3, ?_, hnd, ?_, ?_⟩
  · rw [emh_ok hP g1 g2 g3 a4 b4 c4 e1 ht]
    simp only [List.flatMap_cons, List.append_assoc]
  · intro x hx
    simp only [List.mem_cons] at hx
    rcases hx with rfl | rfl | rfl | hx
    · exact ⟨a1, a5⟩
    · exact ⟨b1, b5⟩
    · exact ⟨c1, c5⟩
    · exact e2 x hx
  · rw [hnames]
    rfl
  · rw [hnames]
    intro h
    simp only [List.mem_cons] at h
    rcases h with h | h | h | h
    · revert h; decide
    · revert h; decide
    · revert h; decide
    · exact hno CT (by simp) h
  · intro n hn
    have h2 := foldl_last Hdr.name Hdr.value (a :: b :: c :: hs) hnd n none
    unfold lastValue
    rw [h2, Option.or_none]
    simp only [List.map_cons, a2, a3, b2, b3, c2, c3, Dict.get, hfil]
    by_cases n1 : n = MT
    · subst n1; rw [if_pos rfl, g1]
    · rw [if_neg (fun e => n1 e.symm)]
      by_cases n2 : n = TI
      · subst n2; rw [if_pos rfl, g2]
      · rw [if_neg (fun e => n2 e.symm)]
        by_cases n3 : n = MV
        · subst n3; rw [if_pos rfl, g3]
        · rw [if_neg (fun e => n3 e.symm)]
          simp only [hn, n1, n2, n3, or_self, if_false]

end Verif.Mms

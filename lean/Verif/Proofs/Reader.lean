import Verif.Proofs.Standard2
/-!
# Helper lemmas: octets that can be read in one way only (C115)
-/
set_option autoImplicit false

namespace Verif.Mms
open Verif Verif.Props
open Verif.Spec.Wsp Verif.Spec.Mms Verif.Spec.MmsEnc Verif.Spec.Standard

theorem zero_cut {s s' r r' : List Nat} (h0 : 0 ∉ s) (h0' : 0 ∉ s') (h : s ++ 0 :: r = s' ++ 0 :: r') : s = s' ∧ r = r' := by
  induction s generalizing s' with
  | nil =>
    cases s' with
    | nil => simpa using h
    | cons c t => simp at h; exact absurd (List.mem_cons.2 (.inl h.1)) h0'
  | cons c s ih =>
    cases s' with
    | nil => simp at h; exact absurd (List.mem_cons.2 (.inl h.1.symm)) h0
    | cons d t =>
      simp only [List.cons_append, List.cons.injEq] at h
      obtain ⟨rfl, h⟩ := h
      obtain ⟨rfl, rfl⟩ := ih (fun m => h0 (List.mem_cons_of_mem _ m)) (fun m => h0' (List.mem_cons_of_mem _ m)) h
      exact ⟨rfl, rfl⟩

theorem text_quoted (s : List Nat) : (text s = s ++ [0] ∧ ∀ c, s.head? = some c → c < 127) ∨ text s = (127 :: s) ++ [0] := by
  cases s with
  | nil => exact .inl ⟨rfl, by simp⟩
  | cons c s =>
    unfold text
    by_cases h : c ≥ 127
    · right; simp [h]
    · left
      refine ⟨by simp [h], ?_⟩
      intro d hd
      injection hd with hd
      omega

theorem text_cut {s s' r r' : List Nat} (h0 : IsText s) (h0' : IsText s') (h : text s ++ r = text s' ++ r') : s = s' ∧ r = r' := by
  have n0 : 0 ∉ 127 :: s := by simpa [IsText] using h0
  have n0' : 0 ∉ 127 :: s' := by simpa [IsText] using h0'
  rcases text_quoted s with ⟨e, hl⟩ | e <;> rcases text_quoted s' with ⟨e', hl'⟩ | e' <;>
    rw [e, e', List.append_assoc, List.append_assoc, List.singleton_append, List.singleton_append] at h
  · exact zero_cut h0 h0' h
  · obtain ⟨rfl, _⟩ := zero_cut h0 n0' h
    exact absurd (hl 127 rfl) (by decide)
  · obtain ⟨h1, _⟩ := zero_cut n0 h0' h
    exact absurd (hl' 127 (by rw [← h1]; rfl)) (by decide)
  · obtain ⟨h1, h2⟩ := zero_cut n0 n0' h
    injection h1 with _ h1
    exact ⟨h1, h2⟩

theorem sized_cut {a b r r' : List Nat} (h : sized a ++ r = sized b ++ r') : a = b ∧ r = r' := by
  have h1 := decodeValueLength_ok a.length (a ++ r)
  have h2 := decodeValueLength_ok b.length (b ++ r')
  unfold sized at h
  rw [List.append_assoc, List.append_assoc] at h
  rw [h] at h1
  rw [h1] at h2
  injection h2 with h2 h3
  injection h3 with h3
  exact List.append_inj h3 h2

theorem uintvar_cut {a b : Nat} {r r' : List Nat} (h : uintvar a ++ r = uintvar b ++ r') : a = b ∧ r = r' := by
  have h1 := decodeUintVar_uintvar a r 0
  rw [h, decodeUintVar_uintvar] at h1
  injection h1 with h1 h2
  injection h2 with h2
  exact ⟨by exact_mod_cast h1.symm, h2.symm⟩

theorem longInt_cut {a b r r' : List Nat} (h : longInt a ++ r = longInt b ++ r') : a = b ∧ r = r' := by
  unfold longInt at h
  simp only [List.cons_append, List.cons.injEq] at h
  exact List.append_inj h.2 h.1

/-- a text that does not begin with a control character does not begin like a sized value -/
theorem text_not_sized {s l r r' : List Nat} (h : ∀ c, s.head? = some c → 32 ≤ c) (hl : l ≠ []) : text s ++ r ≠ sized l ++ r' := by
  intro e
  have hpos : 0 < l.length := List.length_pos_of_ne_nil hl
  have h1 : ∃ x t, sized l ++ r' = x :: t ∧ 0 < x ∧ x < 32 := by
    unfold sized valueLength
    split
    · exact ⟨_, _, rfl, hpos, by omega⟩
    · exact ⟨_, _, rfl, by decide, by decide⟩
  obtain ⟨x, t, h1, h2, h3⟩ := h1
  rw [h1] at e
  rcases text_quoted s with ⟨e', _⟩ | e'
  · cases s with
    | nil =>
      rw [e'] at e
      injection e with e
      omega
    | cons c s =>
      rw [e'] at e
      injection e with e
      have := h c rfl
      omega
  · rw [e'] at e
    injection e with e
    omega

theorem app_octet {n v r t : List Nat} {x : Nat} (h : IsToken n) (e : (n ++ 0 :: text v) ++ r = x :: t) : 31 < x ∧ x < 127 := by
  obtain ⟨c, m, rfl, h1, h2, _⟩ := token_head h
  injection e with e
  omega

theorem token_text {n : List Nat} (h : IsToken n) : 0 ∉ n := by
  intro hm
  have := h.2 0 hm
  revert this
  decide

/-- which headers begin with the number of a field -/
theorem inv_str {f : StrField} {h : Hdr} (hc : h.Conf) {r t : List Nat} (e : h.enc ++ r = (0x80 + f.num) :: t) :
    (∃ s, h = .str f s) ∨ ∃ c s, h = .strCs f c s := by
  cases h with
  | app n v => have := app_octet hc.1 e; omega
  | str g s => cases f <;> cases g <;> simp [Hdr.enc, StrField.num] at e ⊢
  | strCs g c s => cases f <;> cases g <;> simp [Hdr.enc, StrField.num] at e ⊢
  | bool g b => cases f <;> cases g <;> simp [Hdr.enc, StrField.num, BoolField.num] at e
  | _ => cases f <;> simp [Hdr.enc, StrField.num] at e

theorem inv_from {h : Hdr} (hc : h.Conf) {r t : List Nat} (e : h.enc ++ r = 0x89 :: t) :
    h = .fromInsert ∨ (∃ s, h = .fromAddr s) ∨ ∃ c s, h = .fromCs c s := by
  cases h with
  | app n v => have := app_octet hc.1 e; omega
  | str g s => cases g <;> simp [Hdr.enc, StrField.num] at e
  | strCs g c s => cases g <;> simp [Hdr.enc, StrField.num] at e
  | bool g b => cases g <;> simp [Hdr.enc, BoolField.num] at e
  | fromInsert => simp
  | fromAddr s => simp
  | fromCs c s => simp
  | _ => simp [Hdr.enc] at e

theorem inv_messageId {h : Hdr} (hc : h.Conf) {r t : List Nat} (e : h.enc ++ r = 0x8b :: t) : ∃ s, h = .messageId s := by
  cases h with
  | app n v => have := app_octet hc.1 e; omega
  | str g s => cases g <;> simp [Hdr.enc, StrField.num] at e
  | strCs g c s => cases g <;> simp [Hdr.enc, StrField.num] at e
  | bool g b => cases g <;> simp [Hdr.enc, BoolField.num] at e
  | messageId s => simp
  | _ => simp [Hdr.enc] at e

theorem inv_transactionId {h : Hdr} (hc : h.Conf) {r t : List Nat} (e : h.enc ++ r = 0x98 :: t) : ∃ s, h = .transactionId s := by
  cases h with
  | app n v => have := app_octet hc.1 e; omega
  | str g s => cases g <;> simp [Hdr.enc, StrField.num] at e
  | strCs g c s => cases g <;> simp [Hdr.enc, StrField.num] at e
  | bool g b => cases g <;> simp [Hdr.enc, BoolField.num] at e
  | transactionId s => simp
  | _ => simp [Hdr.enc] at e

theorem inv_type {h : Hdr} (hc : h.Conf) {r t : List Nat} (e : h.enc ++ r = 0x8c :: t) : ∃ i, h = .messageType i := by
  cases h with
  | app n v => have := app_octet hc.1 e; omega
  | str g s => cases g <;> simp [Hdr.enc, StrField.num] at e
  | strCs g c s => cases g <;> simp [Hdr.enc, StrField.num] at e
  | bool g b => cases g <;> simp [Hdr.enc, BoolField.num] at e
  | messageType s => simp
  | _ => simp [Hdr.enc] at e

theorem inv_status {h : Hdr} (hc : h.Conf) {r t : List Nat} (e : h.enc ++ r = 0x95 :: t) : ∃ i, h = .status i := by
  cases h with
  | app n v => have := app_octet hc.1 e; omega
  | str g s => cases g <;> simp [Hdr.enc, StrField.num] at e
  | strCs g c s => cases g <;> simp [Hdr.enc, StrField.num] at e
  | bool g b => cases g <;> simp [Hdr.enc, BoolField.num] at e
  | status s => simp
  | _ => simp [Hdr.enc] at e

theorem inv_size {h : Hdr} (hc : h.Conf) {r t : List Nat} (e : h.enc ++ r = 0x8e :: t) : ∃ o, h = .size o := by
  cases h with
  | app n v => have := app_octet hc.1 e; omega
  | str g s => cases g <;> simp [Hdr.enc, StrField.num] at e
  | strCs g c s => cases g <;> simp [Hdr.enc, StrField.num] at e
  | bool g b => cases g <;> simp [Hdr.enc, BoolField.num] at e
  | size s => simp
  | _ => simp [Hdr.enc] at e

theorem inv_version {h : Hdr} (hc : h.Conf) {r t : List Nat} (e : h.enc ++ r = 0x8d :: t) :
    (∃ a b, h = .version a b) ∨ ∃ a, h = .versionMajor a := by
  cases h with
  | app n v => have := app_octet hc.1 e; omega
  | str g s => cases g <;> simp [Hdr.enc, StrField.num] at e
  | strCs g c s => cases g <;> simp [Hdr.enc, StrField.num] at e
  | bool g b => cases g <;> simp [Hdr.enc, BoolField.num] at e
  | version a b => simp
  | versionMajor a => simp
  | _ => simp [Hdr.enc] at e

theorem inv_app {h : Hdr} {r t : List Nat} {x : Nat} (e : h.enc ++ r = x :: t) (hx : x < 127) : ∃ n v, h = .app n v := by
  cases h with
  | app n v => simp
  | str g s => cases g <;> simp [Hdr.enc, StrField.num] at e <;> omega
  | strCs g c s => cases g <;> simp [Hdr.enc, StrField.num] at e <;> omega
  | bool g b => cases g <;> simp [Hdr.enc, BoolField.num] at e <;> omega
  | _ => simp [Hdr.enc] at e; omega

theorem inv_ct {h : Hdr} (hc : h.Conf) {r t : List Nat} : h.enc ++ r ≠ 0x84 :: t := by
  intro e
  cases h with
  | app n v => have := app_octet hc.1 e; omega
  | str g s => cases g <;> simp [Hdr.enc, StrField.num] at e
  | strCs g c s => cases g <;> simp [Hdr.enc, StrField.num] at e
  | bool g b => cases g <;> simp [Hdr.enc, BoolField.num] at e
  | _ => simp [Hdr.enc] at e

/-- the text of a header that may also have a character set does not begin with a control character -/
def ClearHdr : Hdr → Prop
  | .str _ s => ∀ c, s.head? = some c → 32 ≤ c
  | .fromAddr s => ∀ c, s.head? = some c → 32 ≤ c
  | _ => True

/-- a header that the library writes can be read in one way only -/
theorem hdr_unique {h h' : Hdr} (hf : SentForm h) (hc : h.Conf) (hk : ClearHdr h) (hc' : h'.Conf) {r r' : List Nat}
    (e : h.enc ++ r = h'.enc ++ r') : h' = h ∧ r = r' := by
  cases h with
  | str f s =>
    rcases inv_str hc' e.symm with ⟨s', rfl⟩ | ⟨c, s', rfl⟩
    · simp only [Hdr.enc, List.cons_append, List.cons.injEq, true_and] at e
      obtain ⟨rfl, rfl⟩ := text_cut hc hc' e
      exact ⟨rfl, rfl⟩
    · simp only [Hdr.enc, List.cons_append, List.cons.injEq, true_and] at e
      refine absurd e (text_not_sized hk ?_)
      intro hn
      have := intEnc_length c
      rw [(List.append_eq_nil_iff.1 hn).1] at this
      simp at this
  | fromAddr s =>
    rcases inv_from hc' e.symm with rfl | ⟨s', rfl⟩ | ⟨c, s', rfl⟩
    · simp only [Hdr.enc, List.cons_append, List.cons.injEq, true_and] at e
      obtain ⟨h1, _⟩ := sized_cut e
      injection h1 with h1
      omega
    · simp only [Hdr.enc, List.cons_append, List.cons.injEq, true_and] at e
      obtain ⟨h1, rfl⟩ := sized_cut e
      injection h1 with _ h1
      obtain ⟨rfl, _⟩ := text_cut (r := []) (r' := []) hc hc' (by rw [h1])
      exact ⟨rfl, rfl⟩
    · simp only [Hdr.enc, List.cons_append, List.cons.injEq, true_and] at e
      obtain ⟨h1, _⟩ := sized_cut e
      injection h1 with _ h1
      refine absurd (a := text s ++ [] = sized (c.enc ++ text s') ++ []) (by rw [h1]) (text_not_sized hk ?_)
      intro hn
      have := intEnc_length c
      rw [(List.append_eq_nil_iff.1 hn).1] at this
      simp at this
  | messageId s =>
    obtain ⟨s', rfl⟩ := inv_messageId hc' e.symm
    simp only [Hdr.enc, List.cons_append, List.cons.injEq, true_and] at e
    obtain ⟨rfl, rfl⟩ := text_cut hc hc' e
    exact ⟨rfl, rfl⟩
  | transactionId s =>
    obtain ⟨s', rfl⟩ := inv_transactionId hc' e.symm
    simp only [Hdr.enc, List.cons_append, List.cons.injEq, true_and] at e
    obtain ⟨rfl, rfl⟩ := text_cut hc hc' e
    exact ⟨rfl, rfl⟩
  | messageType i =>
    obtain ⟨s', rfl⟩ := inv_type hc' e.symm
    simp only [Hdr.enc, List.cons_append, List.nil_append, List.cons.injEq, true_and] at e
    obtain ⟨h1, rfl⟩ := e
    have : s' = i := by omega
    subst this
    exact ⟨rfl, rfl⟩
  | status i =>
    obtain ⟨s', rfl⟩ := inv_status hc' e.symm
    simp only [Hdr.enc, List.cons_append, List.nil_append, List.cons.injEq, true_and] at e
    obtain ⟨h1, rfl⟩ := e
    have : s' = i := by omega
    subst this
    exact ⟨rfl, rfl⟩
  | size o =>
    obtain ⟨s', rfl⟩ := inv_size hc' e.symm
    simp only [Hdr.enc, List.cons_append, List.cons.injEq, true_and] at e
    obtain ⟨rfl, rfl⟩ := longInt_cut e
    exact ⟨rfl, rfl⟩
  | version a b =>
    have hc : 1 ≤ a ∧ a ≤ 7 ∧ b ≤ 14 := hc
    rcases inv_version hc' e.symm with ⟨a', b', rfl⟩ | ⟨a', rfl⟩
    · have hc' : 1 ≤ a' ∧ a' ≤ 7 ∧ b' ≤ 14 := hc'
      simp only [Hdr.enc, shortInt, List.cons_append, List.nil_append, List.cons.injEq, true_and] at e
      obtain ⟨h1, rfl⟩ := e
      obtain rfl : a' = a := by omega
      obtain rfl : b' = b := by omega
      exact ⟨rfl, rfl⟩
    · simp only [Hdr.enc, shortInt, List.cons_append, List.nil_append, List.cons.injEq, true_and] at e
      omega
  | versionMajor a =>
    rcases inv_version hc' e.symm with ⟨a', b', rfl⟩ | ⟨a', rfl⟩
    · have hc' : 1 ≤ a' ∧ a' ≤ 7 ∧ b' ≤ 14 := hc'
      simp only [Hdr.enc, shortInt, List.cons_append, List.nil_append, List.cons.injEq, true_and] at e
      omega
    · simp only [Hdr.enc, shortInt, List.cons_append, List.nil_append, List.cons.injEq, true_and] at e
      obtain ⟨h1, rfl⟩ := e
      obtain rfl : a' = a := by omega
      exact ⟨rfl, rfl⟩
  | app n v =>
    obtain ⟨c, m, hm, h1, h2, _⟩ := token_head hc.1
    obtain ⟨n', v', rfl⟩ := inv_app (h := h') (r := r') (x := c) (t := m ++ (0 :: text v) ++ r) (by
      rw [← e]; simp [Hdr.enc, hm]) h2
    simp only [Hdr.enc, List.append_assoc, List.cons_append] at e
    obtain ⟨rfl, e2⟩ := zero_cut (token_text hc.1) (token_text hc'.1) e
    obtain ⟨rfl, rfl⟩ := text_cut hc.2.1 hc'.2.1 e2
    exact ⟨rfl, rfl⟩
  | _ => exact absurd hf id

/-- the headers up to the Content-Type -/
theorem hdrs_unique {hs hs' : List Hdr} (hf : ∀ h ∈ hs, SentForm h ∧ h.Conf ∧ ClearHdr h) (hc' : ∀ h ∈ hs', h.Conf) {r r' : List Nat}
    (e : hs.flatMap Hdr.enc ++ 0x84 :: r = hs'.flatMap Hdr.enc ++ 0x84 :: r') : hs' = hs ∧ r = r' := by
  induction hs generalizing hs' with
  | nil =>
    cases hs' with
    | nil => simpa using e
    | cons h' hs' =>
      rw [List.flatMap_cons, List.append_assoc] at e
      exact absurd e.symm (inv_ct (hc' h' (List.mem_cons_self ..)))
  | cons h hs ih =>
    obtain ⟨h1, h2, h3⟩ := hf h (List.mem_cons_self ..)
    cases hs' with
    | nil =>
      rw [List.flatMap_cons, List.append_assoc] at e
      exact absurd e (inv_ct h2)
    | cons h' hs' =>
      rw [List.flatMap_cons, List.append_assoc, List.flatMap_cons, List.append_assoc] at e
      obtain ⟨rfl, e2⟩ := hdr_unique h1 h2 h3 (hc' h' (List.mem_cons_self ..)) e
      obtain ⟨rfl, rfl⟩ := ih (fun x hx => hf x (List.mem_cons_of_mem _ hx)) (fun x hx => hc' x (List.mem_cons_of_mem _ hx)) e2
      exact ⟨rfl, rfl⟩

theorem lastValue_of_nodup {hs : List Hdr} (hnd : (hs.map Hdr.name).Nodup) {h : Hdr} (hm : h ∈ hs) : lastValue hs h.name = some h.value := by
  have h2 := foldl_last Hdr.name Hdr.value hs hnd h.name none
  unfold lastValue
  rw [h2, Option.or_none]
  have hok : Dict.Ok (hs.map fun h => (h.name, h.value)) := by
    unfold Dict.Ok
    rw [List.map_map]
    exact hnd
  exact hok.get (List.mem_map.2 ⟨h, hm, rfl⟩)

/-! ### media types -/

theorem media_known_lt {i : Nat} {s : List Nat} (h : mediaTypes[i]? = some s) : i < 76 := by
  have := (List.getElem?_eq_some_iff.1 h).1
  have hl : mediaTypes.length = 76 := by decide +kernel
  omega

theorem ctype_unique {m : Media} {c' : CType} (hc : m.Conf) (hc' : c'.Conf) {r r' : List Nat}
    (e : (CType.constrained m).enc ++ r = c'.enc ++ r') : c' = .constrained m ∧ r = r' := by
  have hfirst : ∀ m' : Media, m'.Conf → m.enc ++ r = m'.enc ++ r' → m' = m ∧ r = r' := by
    intro m' hm' e
    cases m with
    | known i s =>
      cases m' with
      | known j s' =>
        simp only [Media.enc, shortInt, List.cons_append, List.nil_append, List.cons.injEq] at e
        obtain ⟨h1, rfl⟩ := e
        obtain rfl : j = i := by omega
        have hc : mediaTypes[j]? = some s := hc
        have hm' : mediaTypes[j]? = some s' := hm'
        rw [hc] at hm'
        injection hm' with hm'
        subst hm'
        exact ⟨rfl, rfl⟩
      | text s' =>
        obtain ⟨_, c, h1, h2, h3⟩ := hm'
        cases s' with
        | nil => cases h1
        | cons d t =>
          injection h1 with h1
          simp only [Media.enc, shortInt, List.cons_append, List.cons.injEq] at e
          omega
    | text s =>
      obtain ⟨h0, c, h1, h2, h3⟩ := hc
      cases m' with
      | known j s' =>
        cases s with
        | nil => cases h1
        | cons d t =>
          injection h1 with h1
          simp only [Media.enc, shortInt, List.cons_append, List.cons.injEq] at e
          omega
      | text s' =>
        simp only [Media.enc, List.append_assoc, List.singleton_append] at e
        obtain ⟨rfl, rfl⟩ := zero_cut h0 hm'.1 e
        exact ⟨rfl, rfl⟩
  cases c' with
  | constrained m' =>
    obtain ⟨rfl, rfl⟩ := hfirst m' hc' e
    exact ⟨rfl, rfl⟩
  | general m' ps =>
    exfalso
    have h1 : ∃ x t, (CType.general m' ps).enc ++ r' = x :: t ∧ x < 32 := by
      generalize hb : m'.enc ++ ps.flatMap Param.enc = b
      have hv : (CType.general m' ps).enc = valueLength b.length ++ b := by rw [← hb]; rfl
      rw [hv]
      unfold valueLength
      by_cases hl : b.length ≤ 30
      · rw [if_pos hl]
        exact ⟨b.length, b ++ r', rfl, by omega⟩
      · rw [if_neg hl]
        exact ⟨31, uintvar b.length ++ b ++ r', rfl, by decide⟩
    obtain ⟨x, t, h1, h2⟩ := h1
    rw [h1] at e
    cases m with
    | known i s =>
      simp only [CType.enc, Media.enc, shortInt, List.cons_append, List.cons.injEq] at e
      omega
    | text s =>
      obtain ⟨_, c, h3, h4, h5⟩ := hc
      cases s with
      | nil => cases h3
      | cons d s =>
        injection h3 with h3
        simp only [CType.enc, Media.enc, List.cons_append, List.cons.injEq] at e
        omega

/-! ### parts -/

theorem phdr_first (h : PHdr) (hc : h.Conf) : ∃ x t, h.enc = x :: t := by
  cases h with
  | location s => exact ⟨_, _, rfl⟩
  | contentId s => exact ⟨_, _, rfl⟩
  | app n v =>
    obtain ⟨c, m, rfl, _⟩ := token_head hc.1
    exact ⟨_, _, rfl⟩

theorem phdr_unique {h h' : PHdr} (hc : h.Conf) (hc' : h'.Conf) {r r' : List Nat} (e : h.enc ++ r = h'.enc ++ r') : h' = h ∧ r = r' := by
  have happ : ∀ n v, (PHdr.app n v).Conf → ∃ c t, (PHdr.app n v).enc = c :: t ∧ c < 127 := by
    intro n v h
    obtain ⟨c, m, rfl, _, h2, _⟩ := token_head h.1
    exact ⟨_, _, rfl, h2⟩
  cases h with
  | location s =>
    cases h' with
    | location s' =>
      simp only [PHdr.enc, List.cons_append, List.cons.injEq, true_and] at e
      obtain ⟨rfl, rfl⟩ := text_cut hc hc' e
      exact ⟨rfl, rfl⟩
    | contentId s' => simp [PHdr.enc] at e
    | app n v =>
      obtain ⟨c, t, h1, h2⟩ := happ n v hc'
      rw [h1] at e
      injection e with e
      omega
  | contentId s =>
    cases h' with
    | location s' => simp [PHdr.enc] at e
    | contentId s' =>
      simp only [PHdr.enc, List.cons_append, List.cons.injEq, true_and, List.append_assoc] at e
      obtain ⟨rfl, rfl⟩ := zero_cut hc hc' e
      exact ⟨rfl, rfl⟩
    | app n v =>
      obtain ⟨c, t, h1, h2⟩ := happ n v hc'
      rw [h1] at e
      injection e with e
      omega
  | app n v =>
    obtain ⟨c, t, h1, h2⟩ := happ n v hc
    cases h' with
    | location s' =>
      rw [h1] at e
      injection e with e
      omega
    | contentId s' =>
      rw [h1] at e
      injection e with e
      omega
    | app n' v' =>
      simp only [PHdr.enc, List.append_assoc, List.cons_append] at e
      obtain ⟨rfl, e2⟩ := zero_cut (token_text hc.1) (token_text hc'.1) e
      obtain ⟨rfl, rfl⟩ := text_cut hc.2 hc'.2 e2
      exact ⟨rfl, rfl⟩

theorem phdrs_unique {hs hs' : List PHdr} (hc : ∀ h ∈ hs, h.Conf) (hc' : ∀ h ∈ hs', h.Conf)
    (e : hs.flatMap PHdr.enc = hs'.flatMap PHdr.enc) : hs' = hs := by
  induction hs generalizing hs' with
  | nil =>
    cases hs' with
    | nil => rfl
    | cons h' hs' =>
      obtain ⟨x, t, h1⟩ := phdr_first h' (hc' h' (List.mem_cons_self ..))
      rw [List.flatMap_cons, h1] at e
      cases e
  | cons h hs ih =>
    cases hs' with
    | nil =>
      obtain ⟨x, t, h1⟩ := phdr_first h (hc h (List.mem_cons_self ..))
      rw [List.flatMap_cons, h1] at e
      cases e
    | cons h' hs' =>
      rw [List.flatMap_cons, List.flatMap_cons] at e
      obtain ⟨rfl, e2⟩ := phdr_unique (hc h (List.mem_cons_self ..)) (hc' h' (List.mem_cons_self ..)) e
      rw [ih (fun x hx => hc x (List.mem_cons_of_mem _ hx)) (fun x hx => hc' x (List.mem_cons_of_mem _ hx)) e2]

theorem part_unique {p p' : Part} (hc : p.Conf) (hc' : p'.Conf) (hk : ∃ m, p.ctype = .constrained m) {r r' : List Nat}
    (e : p.enc ++ r = p'.enc ++ r') : p' = p ∧ r = r' := by
  obtain ⟨c, hs, d⟩ := p
  obtain ⟨c', hs', d'⟩ := p'
  obtain ⟨m, rfl⟩ := hk
  simp only [Part.enc, List.append_assoc] at e
  obtain ⟨h1, e⟩ := uintvar_cut e
  obtain ⟨h2, e⟩ := uintvar_cut e
  obtain ⟨h3, e⟩ := List.append_inj e h1
  obtain ⟨rfl, rfl⟩ := List.append_inj e h2
  simp only [Part.head] at h3
  obtain ⟨rfl, h4⟩ := ctype_unique hc.1 hc'.1 h3
  have := phdrs_unique hc.2.1 hc'.2.1 h4
  simp only at this
  subst this
  exact ⟨rfl, rfl⟩

theorem parts_unique {ps ps' : List Part} (hc : ∀ p ∈ ps, p.Conf ∧ ∃ m, p.ctype = .constrained m) (hc' : ∀ p ∈ ps', p.Conf)
    (e : multipart ps = multipart ps') : ps' = ps := by
  unfold multipart at e
  replace e := uintvar_cut e
  obtain ⟨hl, e⟩ := e
  induction ps generalizing ps' with
  | nil =>
    cases ps' with
    | nil => rfl
    | cons p' ps' => cases hl
  | cons p ps ih =>
    cases ps' with
    | nil => cases hl
    | cons p' ps' =>
      rw [List.flatMap_cons, List.flatMap_cons] at e
      obtain ⟨h1, h2⟩ := hc p (List.mem_cons_self ..)
      obtain ⟨rfl, e2⟩ := part_unique h1 (hc' p' (List.mem_cons_self ..)) h2 e
      rw [ih (fun x hx => hc x (List.mem_cons_of_mem _ hx)) (fun x hx => hc' x (List.mem_cons_of_mem _ hx))
        (by simpa using hl) e2]

end Verif.Mms

import Verif.Proofs.MmsEnc4
import Verif.Props.MmsMsg
import Mathlib.Data.List.Perm.Subperm
/-!
# Properties of sending content types with parameters (C43)
-/
set_option autoImplicit false

namespace Verif.Props
open Verif Verif.Mms
open Verif.Spec.Wsp Verif.Spec.Mms Verif.Spec.MmsEnc

/-- `o` is what a message header of type Content-Type carries for this value (mms_pdu.py:698-701) -/
def Carries (media : Str) (params : Dict Val) (o : List Nat) : Prop :=
  ∃ items, encodeContentTypeValue media params = .ok items ∧ toOctets (flattenList items) = .ok o

/-- a content type with parameters that is accepted is read back, and what follows is untouched -/
def C43_full : Prop := ∀ (media : Str) (params : Dict Val) (o : List Nat), params.Ok → params ≠ [] → Carries media params o →
  ∀ rest, ∃ d : Dict Val, decodeContentTypeValue ⟨o ++ rest, 0⟩ = .ok (media, d) ⟨rest, 0⟩ ∧ ∀ n, d.get n = params.get n

theorem encodeParameters_length {params : Dict Val} {l : List (List Int)} (h : encodeParameters params = .ok l) :
    l.length = params.length := by
  induction params generalizing l with
  | nil => injection h with h; subst h; rfl
  | cons a r ih =>
    obtain ⟨n, x⟩ := a
    simp only [encodeParameters] at h
    obtain ⟨p, _, h⟩ := bind_ok_invE h
    obtain ⟨ps, h1, h⟩ := bind_ok_invE h
    injection h with h
    subst h
    simp [ih h1]

theorem flatten_append (a b : List Item) : flattenList (a ++ b) = flattenList a ++ flattenList b := by
  induction a with
  | nil => rfl
  | cons x a ih =>
    cases x <;> simp [flattenList, ih, List.append_assoc]

theorem flatten_lists (l : List (List Int)) : flattenList (l.map Item.list) = ints l.flatten := by
  induction l with
  | nil => rfl
  | cons x l ih => simp [flattenList, ih, ints]

/-- the announced length is one more than the number of parameters -/
theorem carries_prefix {media : Str} {params : Dict Val} {o : List Nat} (hne : params ≠ []) (h : Carries media params o) :
    ∃ body, o = valueLength (1 + params.length) ++ body := by
  obtain ⟨items, h1, h2⟩ := h
  unfold encodeContentTypeValue at h1
  rw [if_pos (by cases params <;> simp_all)] at h1
  unfold encodeContentGeneralForm at h1
  obtain ⟨m, hm, h1⟩ := bind_ok_invE h1
  obtain ⟨ps, hp, h1⟩ := bind_ok_invE h1
  injection h1 with h1
  have hml : m.length = 1 := by
    unfold encodeMediaType at hm
    split at hm
    · obtain ⟨v, _, hm⟩ := bind_ok_invE hm
      injection hm with hm; subst hm; rfl
    · injection hm with hm; subst hm; rfl
  rw [hml, encodeParameters_length hp, show ((1 : Nat) : Int) + (params.length : Nat) = ((1 + params.length : Nat) : Int) by simp,
    encodeValueLength_eq] at h1
  subst h1
  rw [List.append_assoc, flatten_append, toOctets_append, flatten_ints,
    show List.map (fun x : Nat => (x : Int)) (valueLength (1 + params.length)) = toInts (valueLength (1 + params.length)) from rfl,
    toOctets_ints (valueLength_lt _)] at h2
  obtain ⟨x, hx, h2⟩ := bind_ok_invE h2
  obtain ⟨y, hy, h2⟩ := bind_ok_invE h2
  injection h2 with h2
  injection hx with hx
  subst hx
  exact ⟨y, h2.symm⟩

theorem keys_le {d e : Dict Val} (hd : d.Ok) (h : ∀ n, e.get n = d.get n) : d.length ≤ e.length := by
  have hsub : ∀ k ∈ d.map Prod.fst, k ∈ e.map Prod.fst := by
    intro k hk
    obtain ⟨⟨k', v⟩, hm, rfl⟩ := List.mem_map.1 hk
    have hg : d.get k' = some v := hd.get hm
    rw [← h] at hg
    exact List.mem_map.2 ⟨_, Dict.mem_of_get hg, rfl⟩
  have := (hd.subperm hsub).length_le
  simpa using this

/-- No content type with parameters is ever read back: whatever the parameters, if they can be encoded at all, and
whatever follows, at most half of them are found (often none, and an exception is raised in other cases). -/
theorem C43_never (media : Str) (params : Dict Val) (o : List Nat) (hk : params.Ok) (hne : params ≠ [])
    (h : Carries media params o) (rest : List Nat) (m : Str) (d : Dict Val) (s' : It)
    (hd : decodeContentTypeValue ⟨o ++ rest, 0⟩ = .ok (m, d) s') :
    2 * d.length ≤ params.length ∧ ¬ ∀ n, d.get n = params.get n := by
  obtain ⟨body, rfl⟩ := carries_prefix hne h
  rw [List.append_assoc] at hd
  have h1 := generalForm_count _ _ _ _ _ hd
  have h2 : 0 < params.length := List.length_pos_iff.2 hne
  refine ⟨by omega, fun he => ?_⟩
  have h3 := keys_le hk he
  omega

/-- the parameters MMS messages come with: application/vnd.wap.multipart.related; Start=<0000>; Type=application/smil -/
def smilParams : Dict Val := [(py! "Start", .str (py! "<0000>")), (py! "Type", .str (py! "application/smil"))]

theorem smil_carries : Carries (py! "application/vnd.wap.multipart.related") smilParams
    ([3, 0xb3, 0x8a] ++ (py! "<0000>") ++ [0, 0x89] ++ (py! "application/smil") ++ [0]) :=
  ⟨_, rfl, by decide +kernel⟩

/-- a content type with parameters that is read without exception: the two parameters are gone -/
example : ∃ m d s', decodeContentTypeValue ⟨[3, 0xb3, 0x8a] ++ (py! "<0000>") ++ [0, 0x89] ++ (py! "application/smil") ++ [0] ++ [1, 2], 0⟩ =
    .ok (m, d) s' ∧ 2 * d.length ≤ smilParams.length ∧ ¬ ∀ n, d.get n = smilParams.get n :=
  ⟨_, _, _, rfl, C43_never _ _ _ (by unfold Dict.Ok; decide) (by decide) smil_carries [1, 2] _ _ _ rfl⟩

theorem C43_refuted : ¬ C43_full := by
  intro hf
  have hk : smilParams.Ok := by unfold Dict.Ok; decide
  obtain ⟨d, h1, h2⟩ := hf _ _ _ hk (by decide) smil_carries []
  exact (C43_never _ _ _ hk (by decide) smil_carries [] _ _ _ h1).2 h2

/-- The parameters that have no encoder at all: a content type with one of them (text/plain; charset=utf-8, say) cannot
be encoded. -/
theorem C43_charset (media : Str) (params : Dict Val) (n : Str) (hn : n ∈ [py! "Q", py! "Charset", py! "Differences"])
    (v : Val) (hv : (n, v) ∈ params) (o : List Nat) : ¬ Carries media params o := by
  rintro ⟨items, h1, _⟩
  have hp : encodeParameter n v (py! "1.2") = .error .attributeError := by
    simp only [List.mem_cons, List.not_mem_nil, or_false] at hn
    unfold encodeParameter
    rw [params12_eq]
    rcases hn with rfl | rfl | rfl
    · have : findParam params12 (py! "Q") = some (0, .qValue) := by decide +kernel
      simp only [bind, Except.bind, this]
      rfl
    · have : findParam params12 (py! "Charset") = some (1, .wellKnownCharset) := by decide +kernel
      simp only [bind, Except.bind, this]
      rfl
    · have : findParam params12 (py! "Differences") = some (7, .fieldName) := by decide +kernel
      simp only [bind, Except.bind, this]
      rfl
  have key : ∀ (d : Dict Val) (l : List (List Int)), (n, v) ∈ d → encodeParameters d ≠ .ok l := by
    intro d
    induction d with
    | nil => intro l h; cases h
    | cons a r ih =>
      intro l hm h
      obtain ⟨k, x⟩ := a
      simp only [encodeParameters] at h
      obtain ⟨p, hq, h⟩ := bind_ok_invE h
      obtain ⟨ps, hps, h⟩ := bind_ok_invE h
      rcases List.mem_cons.1 hm with e | e
      · injection e with e1 e2
        subst e1 e2
        rw [hp] at hq
        cases hq
      · exact ih _ e hps
  unfold encodeContentTypeValue at h1
  rw [if_pos (by cases params <;> simp_all)] at h1
  unfold encodeContentGeneralForm at h1
  obtain ⟨m, hm, h1⟩ := bind_ok_invE h1
  obtain ⟨ps, hps, h1⟩ := bind_ok_invE h1
  exact key _ _ hv hps

example : (py! "Charset", Val.str (py! "utf-8")) ∈ ([(py! "Charset", .str (py! "utf-8"))] : Dict Val) := by simp

/-- In the parts of a message no parameters can be sent at all: encoding raises an exception. -/
theorem C43_part (env : Env) (ord : Dict HVal → Dict HVal) (part : DataPart) (media : Str) (params : Dict Val)
    (h : part.headers.get CT = some (.ct media params)) (hne : params ≠ []) (o : List Nat) :
    encodePart env ord part ≠ .ok o := by
  intro he
  unfold encodePart at he
  obtain ⟨v, h1, he⟩ := bind_ok_invE he
  have hi : part.headers.index (py! "Content-Type") = .ok (.ct media params) := by
    unfold Dict.index
    rw [show part.headers.get (py! "Content-Type") = _ from h]
  rw [hi] at h1
  injection h1 with h1
  subst h1
  obtain ⟨ct, hc, he⟩ := bind_ok_invE he
  obtain ⟨_, _, he⟩ := bind_ok_invE he
  obtain ⟨_, _, he⟩ := bind_ok_invE he
  obtain ⟨_, _, he⟩ := bind_ok_invE he
  obtain ⟨_, _, he⟩ := bind_ok_invE he
  obtain ⟨c, ho, he⟩ := bind_ok_invE he
  simp only [encodeCtPair, encodeContentTypeValue] at hc
  rw [if_pos (by cases params <;> simp_all)] at hc
  unfold encodeContentGeneralForm at hc
  obtain ⟨m, hm, hc⟩ := bind_ok_invE hc
  obtain ⟨ps, hp, hc⟩ := bind_ok_invE hc
  injection hc with hc
  subst hc
  rw [toOctets_append] at ho
  obtain ⟨_, _, ho⟩ := bind_ok_invE ho
  obtain ⟨_, hl, ho⟩ := bind_ok_invE ho
  have := encodeParameters_length hp
  cases ps with
  | nil => exact hne (List.length_eq_zero_iff.1 this.symm)
  | cons x xs => cases hl

example : ∃ p : DataPart, p.headers.get CT = some (.ct (py! "text/plain") smilParams) := 
  ⟨{ DataPart.new with headers := [(CT, .ct (py! "text/plain") smilParams)] }, rfl⟩

/-! what is right: all octets but the announced length -/

theorem sent_typed {k : Nat} {name : Str} {ty : PType} {v : Val} {b : List Nat} (hf : findParam params12 name = some (k, ty))
    (hk : k < 128) (hv : encodeTyped ty v = .ok (toInts b)) : encodeParameter name v (py! "1.2") = .ok (toInts ((128 + k) :: b)) := by
  unfold encodeParameter
  rw [params12_eq]
  simp only [bind, Except.bind, hf, encodeShortInteger_nat hk, hv]
  rfl

theorem text_plain {s : List Nat} (hs : PlainText s) : text s = s ++ [0] := by
  unfold text
  cases s with
  | nil => rfl
  | cons c r =>
    have := hs.2.2 c rfl
    simp only
    rw [if_neg (by omega)]
    rfl

theorem sent_text {k : Nat} {name s : Str} (hf : findParam params12 name = some (k, .textString)) (hk : k < 128)
    (hs : PlainText s) : encodeParameter name (.str s) (py! "1.2") = .ok (toInts ((128 + k) :: text s)) := by
  refine sent_typed hf hk ?_
  rw [text_plain hs]
  simp only [encodeTyped, encodeTextString, textOctets_eq]

theorem sent_other {t : Str} (ht : IsToken t) (hn : t ∉ paramNames) {v : Val} {l : List Nat}
    (hv : (match encodeIntegerValue v with
      | .ok l => Except.ok l
      | .error .encodeError => encodeTextString v
      | .error e => .error e) = (.ok (toInts l) : Py (List Int))) :
    encodeParameter t v (py! "1.2") = .ok (toInts (t ++ 0 :: l)) := by
  have hf : findParam params12 t = none := by
    cases h : findParam params12 t with
    | none => rfl
    | some e =>
      obtain ⟨n, ty⟩ := e
      have hm := findParam_some h
      have : ∀ e ∈ params12, e.2.1 ∈ paramNames := by decide +kernel
      exact absurd (this _ hm) hn
  have htok : ∀ c ∈ t, c ∉ separators := fun c hc => (isTokenChar_sep (ht.2 c hc)).2.1
  unfold encodeParameter
  rw [params12_eq]
  simp only [bind, Except.bind, hf, encodeTokenText_token htok]
  have happ : toInts (t ++ [0]) ++ toInts l = toInts (t ++ 0 :: l) := by simp [toInts]
  cases hi : encodeIntegerValue v with
  | ok x =>
    rw [hi] at hv
    injection hv with hv
    subst hv
    simp only [happ]
  | error e =>
    rw [hi] at hv
    cases e with
    | encodeError =>
      simp only [] at hv ⊢
      rw [hv]
      simp only [happ]
    | _ => cases hv

theorem isPyInt_small {n : Nat} (h : n < 128) : isPyInt (n : Int) = true := by unfold isPyInt; simp; omega

theorem find_level : findParam params12 (py! "Level") = some (2, .versionValue) := by decide +kernel
theorem find_name : findParam params12 (py! "Name") = some (5, .textString) := by decide +kernel
theorem find_filename : findParam params12 (py! "Filename") = some (6, .textString) := by decide +kernel
theorem find_padding : findParam params12 (py! "Padding") = some (8, .shortInteger) := by decide +kernel
theorem find_type : findParam params12 (py! "Type") = some (9, .constrainedEncoding) := by decide +kernel
theorem find_start : findParam params12 (py! "Start") = some (10, .textString) := by decide +kernel
theorem find_startInfo : findParam params12 (py! "Start-info") = some (11, .textString) := by decide +kernel

theorem sent_level {a b : Nat} (h : 1 ≤ a ∧ a ≤ 7 ∧ b ≤ 14) :
    encodeParameter (py! "Level") (.str (dotted a b)) (py! "1.2") = .ok (toInts ((128 + 2) :: shortInt (16 * a + b))) :=
  sent_typed find_level (by decide) (by simp only [encodeTyped]; exact version_enc h)

theorem sent_padding {n : Nat} (hn : n < 128) :
    encodeParameter (py! "Padding") (.int n) (py! "1.2") = .ok (toInts ((128 + 8) :: shortInt n)) :=
  sent_typed find_padding (by decide) (by simp only [encodeTyped, encodeShortIntegerV, intOf, encodeShortInteger_nat hn])

theorem sent_typeNum {n : Nat} (hn : n < 128) :
    encodeParameter (py! "Type") (.int n) (py! "1.2") = .ok (toInts ((128 + 9) :: shortInt n)) :=
  sent_typed find_type (by decide) (by
    simp only [encodeTyped, encodeConstrainedEncoding, isPyInt_small hn, if_true, encodeShortInteger_nat hn])

theorem sent_type {c : Nat} {r : List Nat} (h1 : 32 ≤ c) (h2 : c < 127) :
    encodeParameter (py! "Type") (.str (c :: r)) (py! "1.2") = .ok (toInts ((128 + 9) :: (c :: r ++ [0]))) :=
  sent_typed find_type (by decide) (by
    simp only [encodeTyped, encodeConstrainedEncoding, encodeExtensionMedia_ok (c := c) (s := r) ⟨h1, by omega⟩])

theorem intValue_small {n : Nat} (h : n < 128) : encodeIntegerValue (.int n) = .ok (toInts (shortInt n)) := by
  have hi := isPyInt_small h
  have he := encodeShortInteger_nat h
  unfold encodeIntegerValue
  simp only [intOf]
  rw [hi, he]
  rfl

theorem sent_otherInt {t : Str} (ht : IsToken t) (hn : t ∉ paramNames) {n : Nat} (h : n < 128) :
    encodeParameter t (.int n) (py! "1.2") = .ok (toInts (t ++ 0 :: shortInt n)) :=
  sent_other ht hn (by rw [intValue_small h])

theorem sent_otherToken {t : Str} (ht : IsToken t) (hn : t ∉ paramNames) (s : Str) :
    encodeParameter t (.str s) (py! "1.2") = .ok (toInts (t ++ 0 :: (s ++ [0]))) :=
  sent_other ht hn (by
    have : encodeIntegerValue (.str s) = .error .encodeError := rfl
    rw [this]
    simp only [encodeTextString, textOctets_eq])

theorem sent_param {p : Param} (h : SentParam p) : encodeParameter p.key p.value (py! "1.2") = .ok (toInts p.enc) := by
  cases p with
  | level a b => simp only [Param.key, Param.value, Param.enc, sent_level h]
  | name s => simp only [Param.key, Param.value, Param.enc, sent_text find_name (by decide) h]
  | filename s => simp only [Param.key, Param.value, Param.enc, sent_text find_filename (by decide) h]
  | start s => simp only [Param.key, Param.value, Param.enc, sent_text find_start (by decide) h]
  | startInfo s => simp only [Param.key, Param.value, Param.enc, sent_text find_startInfo (by decide) h]
  | padding n => simp only [Param.key, Param.value, Param.enc, sent_padding (n := n) h]
  | relatedTypeNum n => simp only [Param.key, Param.value, Param.enc, sent_typeNum (n := n) h]
  | relatedType s =>
    obtain ⟨⟨h0, c, hc, h1, h2⟩, h8⟩ := h
    cases s with
    | nil => cases hc
    | cons c' r =>
      injection hc with hc
      subst hc
      simp only [Param.key, Param.value, Param.enc, sent_type h1 h2]
  | otherInt t i =>
    cases i with
    | long o => cases h
    | short n =>
      obtain ⟨ht, hn, hl⟩ := h
      exact sent_otherInt ht hn hl
  | otherToken t s =>
    obtain ⟨ht, hn, hs⟩ := h
    exact sent_otherToken ht hn s
  | _ => cases h

theorem sent_wf {p : Param} (h : SentParam p) : p.WF ∧ ∀ x ∈ p.enc, x < 256 := by
  have htext : ∀ {s : List Nat}, (∀ c ∈ s, c < 256) → ∀ x ∈ text s, x < 256 := by
    intro s h8 x hx
    unfold text at hx
    rcases List.mem_append.1 hx with h | h
    · rcases List.mem_append.1 h with h | h
      · cases s with
        | nil => cases h
        | cons c r =>
          simp only [] at h
          split at h
          · simp at h; omega
          · cases h
      · exact h8 x h
    · simp at h; omega
  have htok : ∀ {s : List Nat}, IsToken s → ∀ x ∈ s, x < 256 := fun hs x hx => by
    have := (isTokenChar_sep (hs.2 x hx)).2.2; omega
  cases p with
  | level a b =>
    obtain ⟨h1, h2, h3⟩ := h
    exact ⟨⟨h1, h2, h3⟩, by simp [Param.enc, shortInt]; omega⟩
  | name s => exact ⟨h.1, by intro x hx; rcases List.mem_cons.1 hx with e | e; omega; exact htext h.2.1 x e⟩
  | filename s => exact ⟨h.1, by intro x hx; rcases List.mem_cons.1 hx with e | e; omega; exact htext h.2.1 x e⟩
  | start s => exact ⟨h.1, by intro x hx; rcases List.mem_cons.1 hx with e | e; omega; exact htext h.2.1 x e⟩
  | startInfo s => exact ⟨h.1, by intro x hx; rcases List.mem_cons.1 hx with e | e; omega; exact htext h.2.1 x e⟩
  | padding n =>
    have hn : n < 128 := h
    exact ⟨hn, by simp [Param.enc, shortInt]; omega⟩
  | relatedTypeNum n =>
    have hn : n < 128 := h
    exact ⟨hn, by simp [Param.enc, shortInt]; omega⟩
  | relatedType s => exact ⟨h.1, by intro x hx; rcases List.mem_cons.1 hx with e | e; omega; exact text_body h.2 x e⟩
  | otherInt t i =>
    cases i with
    | long o => cases h
    | short n =>
      obtain ⟨ht, hn, hl⟩ := h
      refine ⟨⟨ht, hl⟩, ?_⟩
      intro x hx
      rcases List.mem_append.1 hx with e | e
      · exact htok ht x e
      · simp [IntEnc.enc, shortInt] at e; omega
  | otherToken t s =>
    obtain ⟨ht, hn, hs⟩ := h
    refine ⟨⟨ht, hs⟩, ?_⟩
    intro x hx
    rcases List.mem_append.1 hx with e | e
    · exact htok ht x e
    · rcases List.mem_cons.1 e with e | e
      · omega
      · exact text_body (fun c hc => htok hs c hc) x e
  | _ => cases h

theorem sent_params {ps : List Param} (h : ∀ p ∈ ps, SentParam p) :
    encodeParameters (ps.map fun p => (p.key, p.value)) = .ok (ps.map fun p => toInts p.enc) := by
  induction ps with
  | nil => rfl
  | cons p ps ih =>
    simp only [List.map_cons, encodeParameters, sent_param (h p (by simp)), ih (fun q hq => h q (by simp [hq])), bind, Except.bind]

/-- a media type that is sent as WAP-230 has it: registered with a number, or a byte string the library has no number for -/
def SentMedia : Media → Prop
  | .known i s => i ≠ 14 ∧ mediaTypes[i]? = some s
  | .text s => Sends s ∧ s ∉ wellKnownContentTypes

theorem sent_media {m : Media} (h : SentMedia m) : encodeMediaType m.value = .ok [.list (toInts m.enc)] ∧ m.WF ∧ ∀ x ∈ m.enc, x < 256 := by
  cases m with
  | known i s =>
    obtain ⟨h14, hs⟩ := h
    have hn := (media_known ⟨h14, hs⟩)
    have hi : indexOf wellKnownContentTypes s = some i := by
      have hall : ∀ i : Fin 76, i.val ≠ 14 → ∀ s, wellKnownContentTypes[i.val]? = some s →
          indexOf wellKnownContentTypes s = some i.val := by
        have : ∀ i : Fin 76, i.val ≠ 14 → (wellKnownContentTypes[i.val]?).elim true
            (fun s => indexOf wellKnownContentTypes s == some i.val) = true := by decide +kernel
        intro i hi s hs
        have := this i hi
        rw [hs] at this
        simpa using this
      have hlt : i < 76 := by
        have := (List.getElem?_eq_some_iff.1 hs).1
        rwa [mediaTypes_length] at this
      exact hall ⟨i, hlt⟩ h14 s hn.1
    have hlt : i < 76 := by
      have := (List.getElem?_eq_some_iff.1 hs).1
      rwa [mediaTypes_length] at this
    refine ⟨?_, ⟨h14, hs⟩, by simp [Media.enc, shortInt]; omega⟩
    unfold encodeMediaType
    simp only [Media.value, hi, encodeShortInteger_nat (show i < 128 by omega), bind, Except.bind]
    rfl
  | text s =>
    refine ⟨?_, h.1.1, text_body h.1.2⟩
    unfold encodeMediaType
    simp only [Media.value, indexOf_none.2 h.2, textOctets_eq]
    rfl

/-- For registered or textual media types and the parameters of `SentParam`, in any order: encoding succeeds, and all
octets are those of WAP-230 but for the length in front, which is one more than the number of parameters instead of the
number of octets.  With the right length the decoder reads them back.  Missing: the length (`C43_never`), and parts
(`C43_part`); content types without parameters are in C42. -/
theorem C43_partial (m : Media) (ps : List Param) (hm : SentMedia m) (hp : ∀ p ∈ ps, SentParam p) (hne : ps ≠ [])
    (hl : (CType.general m ps).body.length < 2 ^ 63) :
    Carries m.value (ps.map fun p => (p.key, p.value)) (valueLength (1 + ps.length) ++ (CType.general m ps).body) ∧
      ∀ rest, decodeContentTypeValue ⟨valueLength (CType.general m ps).body.length ++ (CType.general m ps).body ++ rest, 0⟩
        = .ok (m.value, (CType.general m ps).params) ⟨rest, 0⟩ := by
  obtain ⟨h1, h2, h3⟩ := sent_media hm
  refine ⟨⟨ints (toInts (valueLength (1 + ps.length))) ++ [.list (toInts m.enc)] ++ (ps.map fun p => toInts p.enc).map Item.list,
    ?_, ?_⟩, fun rest => ?_⟩
  · unfold encodeContentTypeValue
    rw [if_pos (by cases ps <;> simp_all)]
    unfold encodeContentGeneralForm
    simp only [h1, sent_params hp, bind, Except.bind]
    rw [show (([Item.list (toInts m.enc)].length : Nat) : Int) + ((ps.map fun p => toInts p.enc).length : Nat) = ((1 + ps.length : Nat) : Int) by simp,
      encodeValueLength_eq]
    rfl
  · rw [List.append_assoc, flatten_append, flatten_ints, flatten_append, flatten_lists,
      show flattenList [Item.list (toInts m.enc)] = ints (toInts m.enc) by simp [flattenList],
      show (ps.map fun p => toInts p.enc).flatten = toInts (ps.flatMap Param.enc) by simp [toInts, List.flatMap_def, Function.comp_def],
      ← ints_append, ← ints_append, ← toInts_append, ← toInts_append, toOctets_ints]
    · rfl
    · intro x hx
      rcases List.mem_append.1 hx with h | h
      · exact valueLength_lt _ x h
      · rcases List.mem_append.1 h with h | h
        · exact h3 x h
        · obtain ⟨p, hpm, hx⟩ := List.mem_flatMap.1 h
          exact (sent_wf (hp p hpm)).2 x hx
  · exact ctype_ok (c := .general m ps) ⟨h2, fun p hpm => (sent_wf (hp p hpm)).1, hl⟩ rest

example : SentMedia (.known 0x33 (py! "application/vnd.wap.multipart.related")) ∧
    ∀ p ∈ [Param.start (py! "<0000>"), .relatedType (py! "application/smil")], SentParam p :=
  ⟨⟨by decide, by decide +kernel⟩, by
    intro p hp
    simp only [List.mem_cons, List.not_mem_nil, or_false] at hp
    rcases hp with rfl | rfl
    · exact ⟨by decide, by decide, fun c hc => by injection hc with hc; omega⟩
    · exact ⟨⟨by decide, 97, rfl, by decide, by decide⟩, by decide⟩⟩

end Verif.Props

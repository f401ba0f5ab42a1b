import Verif.Props.Layout
import Verif.Spec.Refusal
import Verif.Proofs.Wsp3
/-!
# C88: the headers that cannot be sent
-/
set_option autoImplicit false

namespace Verif.Props
open Verif Verif.Mms
open Verif.Spec.Mms Verif.Spec.MmsEnc Verif.Spec.Refusal

/-- the exception of a computation, if any -/
def raised {α : Type} : Py α → Option PyErr
  | .ok _ => none
  | .error e => some e

theorem raised_octets {l : List Int} (h : Octets l) (r : List Item) : raised (toOctets (ints l ++ r)) = raised (toOctets r) := by
  induction l with
  | nil => rfl
  | cons x l ih =>
    have hx := h x (List.mem_cons_self ..)
    have ih := ih (fun y hy => h y (List.mem_cons_of_mem _ hy))
    simp only [ints, List.map_cons, List.cons_append, toOctets]
    rw [if_neg (by omega), ← ih]
    simp only [ints]
    cases toOctets (List.map Item.int l ++ r) <;> rfl

theorem raised_not_octets {l : List Int} (h : ¬ Octets l) (r : List Item) :
    raised (toOctets (ints l ++ r)) = some .overflowError := by
  induction l with
  | nil => exact absurd (fun x hx => (by cases hx)) h
  | cons x l ih =>
    simp only [ints, List.map_cons, List.cons_append, toOctets]
    by_cases hx : x < 0 ∨ x > 255
    · rw [if_pos hx]; rfl
    · rw [if_neg hx]
      have : ¬ Octets l := fun hl => h (by
        intro y hy
        rcases List.mem_cons.1 hy with rfl | hy
        · omega
        · exact hl y hy)
      have ih := ih this
      simp only [ints] at ih
      revert ih
      cases toOctets (List.map Item.int l ++ r) with
      | ok a => intro h; cases h
      | error e => intro h; exact h

theorem octets_text (s : Str) : Octets (textOctets s) ↔ ∀ c ∈ s, c < 256 := by
  unfold textOctets Octets
  constructor
  · intro h c hc
    have := h (c : Int) (by simp [hc])
    omega
  · intro h x hx
    simp only [List.mem_append, List.mem_map, List.mem_singleton] at hx
    rcases hx with ⟨c, hc, rfl⟩ | rfl
    · have := h c hc; omega
    · omega

theorem text_cases (v : HVal) : (encodeTextStringH v = .error .typeError ∧ textRefusal v = some .typeError) ∨
    ∃ l, encodeTextStringH v = .ok l ∧ ((Octets l ∧ textRefusal v = none) ∨ (¬ Octets l ∧ textRefusal v = some .overflowError)) := by
  have key : ∀ s : Str, ((Octets (textOctets s) ∧ (if ∀ c ∈ s, c < 256 then none else some PyErr.overflowError) = none) ∨
      (¬ Octets (textOctets s) ∧ (if ∀ c ∈ s, c < 256 then none else some PyErr.overflowError) = some .overflowError)) := by
    intro s
    by_cases h : ∀ c ∈ s, c < 256
    · exact .inl ⟨(octets_text s).2 h, if_pos h⟩
    · exact .inr ⟨fun h' => h ((octets_text s).1 h'), if_neg h⟩
  have pair : ∀ a b : Nat, ((Octets [(a : Int), (b : Int), 0] ∧ (if a < 256 ∧ b < 256 then none else some PyErr.overflowError) = none) ∨
      (¬ Octets [(a : Int), (b : Int), 0] ∧ (if a < 256 ∧ b < 256 then none else some PyErr.overflowError) = some .overflowError)) := by
    intro a b
    by_cases h : a < 256 ∧ b < 256
    · refine .inl ⟨?_, if_pos h⟩
      intro x hx
      simp only [List.mem_cons, List.not_mem_nil, or_false] at hx
      omega
    · refine .inr ⟨fun h' => h ⟨?_, ?_⟩, if_neg h⟩
      · have := h' a (by simp); omega
      · have := h' b (by simp); omega
  rcases v with x | ⟨n, x⟩ | ⟨m, d⟩
  · cases x
    case str s => exact .inr ⟨_, rfl, key s⟩
    case uni s => exact .inr ⟨_, rfl, key s⟩
    all_goals exact .inl ⟨rfl, rfl⟩
  · rcases n with _ | ⟨a, _ | ⟨a', n⟩⟩
    · exact .inl ⟨rfl, rfl⟩
    · cases x
      case str s =>
        rcases s with _ | ⟨b, _ | ⟨b', s⟩⟩
        · exact .inl ⟨rfl, rfl⟩
        · exact .inr ⟨_, rfl, pair a b⟩
        · exact .inl ⟨rfl, rfl⟩
      case uni s =>
        rcases s with _ | ⟨b, _ | ⟨b', s⟩⟩
        · exact .inl ⟨rfl, rfl⟩
        · exact .inr ⟨_, rfl, pair a b⟩
        · exact .inl ⟨rfl, rfl⟩
      all_goals exact .inl ⟨rfl, rfl⟩
    · exact .inl ⟨rfl, rfl⟩
  · exact .inl ⟨rfl, rfl⟩

theorem octets_short {n : Nat} (h : n < 128) : Octets [((n : Nat) : Int) + 128] := by
  intro x hx
  simp only [List.mem_cons, List.not_mem_nil, or_false] at hx
  omega

/-- a known field: only the value can be refused -/
theorem raised_field {name : Str} {n : Nat} {t : MType} (hf : findField mmsFieldNames name = some (n, t)) (hn : n < 128)
    (v : HVal) : raised (headerOctets name v) = raised (encodeMmsValue t v >>= toOctets) := by
  unfold headerOctets encodeHeader
  rw [hf]
  simp only [encodeShortInteger, bind, Except.bind]
  rw [if_neg (by omega)]
  simp only
  cases h : encodeMmsValue t v with
  | error e => rfl
  | ok l => exact raised_octets (octets_short hn) l

theorem raised_ints {l : List Int} (h : Octets l) : raised (toOctets (ints l)) = none := by
  have := raised_octets h []
  rwa [List.append_nil] at this

theorem raised_bad {l : List Int} (h : ¬ Octets l) : raised (toOctets (ints l)) = some .overflowError := by
  have := raised_not_octets h []
  rwa [List.append_nil] at this

theorem raised_text (v : HVal) :
    raised ((do let l ← encodeTextStringH v; .ok (ints l) : Py (List Item)) >>= toOctets) = textRefusal v := by
  rcases text_cases v with ⟨h, h'⟩ | ⟨l, h, ⟨ho, h'⟩ | ⟨ho, h'⟩⟩
  · rw [h, h']; rfl
  · rw [h, h']; exact raised_ints ho
  · rw [h, h']; exact raised_bad ho

theorem raised_from (v : HVal) : raised (encodeMmsValue .fromValue v >>= toOctets) = textRefusal v := by
  have key : ∀ v, hlen v ≠ .ok 0 → (∀ e, hlen v = .error e → e = .typeError ∧ textRefusal v = some .typeError) →
      raised (encodeMmsValue .fromValue v >>= toOctets) = textRefusal v := by
    intro v h0 he
    simp only [encodeMmsValue, encodeFromValue, encodeEncodedStringValue, bind, Except.bind]
    cases hl : hlen v with
    | error e => obtain ⟨rfl, h⟩ := he e hl; rw [h]; rfl
    | ok n =>
      have hn : n ≠ 0 := fun h => h0 (by rw [hl, h])
      simp only [if_neg hn]
      have app : ∀ l : List Int, Octets (encodeValueLength ((l.length : Int) + 1) ++ [128] ++ l) ↔ Octets l := by
        intro l
        constructor
        · intro h x hx; exact h x (by simp [hx])
        · intro h x hx
          simp only [List.mem_append, List.mem_singleton] at hx
          rcases hx with (hx | rfl) | hx
          · exact encodeValueLength_octets _ x hx
          · omega
          · exact h x hx
      rcases text_cases v with ⟨h, h'⟩ | ⟨l, h, ⟨ho, h'⟩ | ⟨ho, h'⟩⟩
      · rw [h, h']; rfl
      · rw [h, h']; exact raised_ints ((app l).2 ho)
      · rw [h, h']; exact raised_bad (fun h => ho ((app l).1 h))
  rcases v with x | ⟨n, x⟩ | ⟨m, d⟩
  · cases x
    case str s =>
      cases s with
      | nil => decide
      | cons c s => exact key _ (by simp [hlen]) (fun e h => by cases h)
    case uni s =>
      cases s with
      | nil => decide
      | cons c s => exact key _ (by simp [hlen]) (fun e h => by cases h)
    all_goals exact key _ (by simp [hlen]) (fun e h => by cases h; exact ⟨rfl, rfl⟩)
  · exact key _ (by simp [hlen]) (fun e h => by cases h)
  · exact key _ (by simp [hlen]) (fun e h => by cases h)

theorem raised_type (v : HVal) : raised (encodeMmsValue .messageTypeValue v >>= toOctets) = typeRefusal v := by
  have key : ∀ n : Nat, n < 256 → raised ((.ok [.int (n : Int)] : Py (List Item)) >>= toOctets) = none := by
    intro n hn
    exact raised_ints (l := [(n : Int)]) (by intro x hx; simp only [List.mem_cons, List.not_mem_nil, or_false] at hx; omega)
  have tbl : ∀ s n, lookupName messageTypes s = some n → n < 256 := by
    intro s n h
    simp only [messageTypes, lookupName] at h
    repeat' split at h
    all_goals first | cases h; done | (cases h; decide)
  have nm : ∀ s : Str, raised ((match lookupName messageTypes s with
      | some n => .ok [.int n]
      | none => .ok [.int 0x80] : Py (List Item)) >>= toOctets) = none := by
    intro s
    cases h : lookupName messageTypes s with
    | none => exact key 128 (by decide)
    | some n => exact key n (tbl s n h)
  rcases v with x | ⟨n, x⟩ | ⟨m, d⟩
  · cases x
    case str s => exact nm s
    case uni s => exact nm s
    all_goals exact key 128 (by decide)
  · exact key 128 (by decide)
  · rfl

theorem raised_status (v : HVal) : raised (encodeMmsValue .statusValue v >>= toOctets) = statusRefusal v := by
  have nm : ∀ s : Str, raised ((match lookupName statusValues s with
      | some n => .ok [.int n]
      | none => .ok [.str (py! "Unrecognised")] : Py (List Item)) >>= toOctets) =
        if s ∈ statusNames then none else some .typeError := by
    intro s
    by_cases h : s ∈ statusNames
    · rw [if_pos h]
      revert h s
      decide +kernel
    · rw [if_neg h]
      have : lookupName statusValues s = none := by
        simp only [statusNames, List.mem_cons, List.not_mem_nil, or_false, not_or] at h
        simp only [statusValues, lookupName]
        repeat rw [if_neg (by tauto)]
      rw [this]
      rfl
  rcases v with x | ⟨n, x⟩ | ⟨m, d⟩
  · cases x
    case str s => exact nm s
    case uni s => exact nm s
    all_goals rfl
  · rfl
  · rfl

theorem raised_version (v : HVal) (hb : ∀ s, v = .v (.str s) → ∀ c ∈ s, c < 256) :
    raised (encodeMmsValue .versionValue v >>= toOctets) = versionRefusal v := by
  rcases v with x | ⟨n, x⟩ | ⟨m, d⟩
  · cases x
    case str s =>
      simp only [encodeMmsValue, plain, encodeVersionValue, bind, Except.bind]
      cases h : versionTry s with
      | ok l => exact raised_ints (versionTry_octets h)
      | error e => exact raised_ints ((octets_text s).2 (hb s rfl))
    all_goals rfl
  · rfl
  · rfl

theorem raised_size (v : HVal) : raised (encodeMmsValue .longInteger v >>= toOctets) = sizeRefusal v := by
  rcases v with x | ⟨n, x⟩ | ⟨m, d⟩
  · cases x
    case int i =>
      simp only [encodeMmsValue, plain, encodeLongIntegerV, intOf, bind, Except.bind]
      cases h : encodeLongInteger i with
      | ok l =>
        have hl := encodeLongInteger_octets h
        have : -2 ^ 63 ≤ i ∧ i < 2 ^ 63 := by
          unfold encodeLongInteger at h
          by_cases hp : isPyInt i = true
          · simp only [isPyInt, Bool.and_eq_true, decide_eq_true_eq] at hp
            exact ⟨hp.1, hp.2⟩
          · simp [hp] at h
        rw [sizeRefusal, if_pos this]
        exact raised_ints hl
      | error e =>
        have : ¬ (-2 ^ 63 ≤ i ∧ i < 2 ^ 63) := by
          intro hr
          by_cases h0 : 0 ≤ i
          · have := encodeLongInteger_eq i.toNat (by omega)
            rw [Int.toNat_of_nonneg h0, h] at this
            cases this
          · unfold encodeLongInteger at h
            have h1 : isPyInt i = true := by
              simp only [isPyInt, Bool.and_eq_true, decide_eq_true_eq]
              exact hr
            have h2 : i.toNat = 0 := by omega
            simp [h1, h2, longIntEncLoop] at h
        rw [sizeRefusal, if_neg this]
        have he : e = .encodeError := by
          unfold encodeLongInteger at h
          split at h
          · exact (Except.error.inj h).symm
          · dsimp only at h
            split at h
            · exact (Except.error.inj h).symm
            · cases h
        rw [he]
        rfl
    case bool b => cases b <;> decide +kernel
    all_goals rfl
  · rfl
  · rfl

/-- what cannot be sent, and with which exception -/
theorem C88_exact (n : Str) (v : HVal) (hb : ∀ s, v = .v (.str s) → ∀ c ∈ s, c < 256) :
    raised (headerOctets n v) = refusal n v := by
  by_cases hn : n ∈ fieldNames
  · simp only [fieldNames, List.mem_cons, List.not_mem_nil, or_false] at hn
    have fld : ∀ {m : Nat} {t : MType}, findField mmsFieldNames n = some (m, t) → m < 128 →
        raised (encodeMmsValue t v >>= toOctets) = refusal n v → raised (headerOctets n v) = refusal n v :=
      fun hf hm h => (raised_field hf hm v).trans h
    rcases hn with rfl | rfl | rfl | rfl | rfl | rfl | rfl | rfl | rfl | rfl | rfl | rfl | rfl | rfl | rfl | rfl | rfl | rfl |
      rfl | rfl | rfl | rfl | rfl | rfl
    all_goals first
      | exact fld (m := _) (t := .encodedStringValue) rfl (by decide) (raised_text v)
      | exact fld (m := _) (t := .textString) rfl (by decide) (raised_text v)
      | exact fld (m := _) (t := .fromValue) rfl (by decide) (raised_from v)
      | exact fld (m := _) (t := .messageTypeValue) rfl (by decide) (raised_type v)
      | exact fld (m := _) (t := .statusValue) rfl (by decide) (raised_status v)
      | exact fld (m := _) (t := .versionValue) rfl (by decide) (raised_version v hb)
      | exact fld (m := _) (t := .longInteger) rfl (by decide) (raised_size v)
      | exact fld rfl (by decide) rfl
  · have hf : findField mmsFieldNames n = none := by
      rw [findField_none]
      intro h
      exact hn ((show ∀ x ∈ mmsFieldNames.map (fun e => e.2.1), x ∈ fieldNames by decide +kernel) n h)
    have hne : ∀ x, x ∈ fieldNames → n ≠ x := fun x hx h => hn (h ▸ hx)
    have hro : n ∉ readOnly := fun h =>
      hn ((show ∀ x ∈ readOnly, x ∈ fieldNames by decide +kernel) n h)
    unfold refusal
    rw [if_neg hro, if_neg (hne _ (by decide +kernel)), if_neg (hne _ (by decide +kernel)),
      if_neg (hne _ (by decide +kernel)), if_neg (hne _ (by decide +kernel)), if_neg (hne _ (by decide +kernel)),
      if_neg hn]
    unfold headerOctets encodeHeader
    rw [hf]
    unfold encodeTokenText
    have hsep : (separators.any fun c => n.contains c) = n.any isSeparator := by
      rw [Bool.eq_iff_iff, List.any_eq_true, List.any_eq_true]
      constructor
      · rintro ⟨c, hc, h⟩
        exact ⟨c, List.contains_iff_mem.1 h, (show ∀ c ∈ separators, isSeparator c = true by decide) c hc⟩
      · rintro ⟨c, hc, h⟩
        refine ⟨c, ?_, List.contains_iff_mem.2 hc⟩
        simp only [isSeparator, Bool.or_eq_true, decide_eq_true_eq, List.contains_iff_mem, List.mem_cons, List.not_mem_nil,
          or_false] at h
        simp only [separators, List.mem_cons, List.not_mem_nil, or_false]
        omega
    rw [hsep]
    by_cases hs : n.any isSeparator = true
    · rw [if_pos hs, if_pos hs]; rfl
    · rw [if_neg hs, if_neg hs]
      simp only [bind, Except.bind]
      rcases text_cases v with ⟨h, h'⟩ | ⟨l, h, h'⟩
      · rw [h, if_pos h']; rfl
      · rw [h, if_neg (by rcases h' with ⟨_, h'⟩ | ⟨_, h'⟩ <;> rw [h'] <;> simp)]
        simp only
        by_cases hc : ∀ c ∈ n, c < 256
        · rw [if_pos hc, raised_octets ((octets_text n).2 hc)]
          rcases h' with ⟨ho, h'⟩ | ⟨ho, h'⟩
          · rw [h']; exact raised_ints ho
          · rw [h']; exact raised_bad ho
        · rw [if_neg hc]
          exact raised_not_octets (fun h => hc ((octets_text n).1 h)) _

example := C88_exact (py! "Subject") (.v (.int 5)) (by intro s h; cases h)

/-- the full claim: whatever cannot be sent is refused with EncodeError -/
def C88_full : Prop := ∀ (n : Str) (v : HVal) (e : PyErr), headerOctets n v = .error e → e = .encodeError

/-- a priority cannot be sent at all: AttributeError -/
theorem C88_refuted : ¬ C88_full := by
  intro h
  have := h (py! "Priority") (.v (.str (py! "High"))) .attributeError (by decide +kernel)
  cases this

/-- EncodeError is raised exactly for header names with a separator and for sizes that are not machine integers -/
theorem C88_encode_error_partial (n : Str) (v : HVal) (hb : ∀ s, v = .v (.str s) → ∀ c ∈ s, c < 256) :
    headerOctets n v = .error .encodeError ↔
      (n ∉ fieldNames ∧ n.any isSeparator = true) ∨ (n = py! "Message-Size" ∧ sizeRefusal v = some .encodeError) := by
  have h := C88_exact n v hb
  have hr : headerOctets n v = .error .encodeError ↔ raised (headerOctets n v) = some .encodeError := by
    cases headerOctets n v <;> simp [raised]
  have hsub : ∀ x ∈ readOnly, x ∈ fieldNames := by decide +kernel
  have t1 : textRefusal v ≠ some .encodeError := by
    rcases text_cases v with ⟨_, h'⟩ | ⟨l, _, ⟨_, h'⟩ | ⟨_, h'⟩⟩ <;> rw [h'] <;> simp
  have t2 : typeRefusal v ≠ some .encodeError := by
    cases v <;> simp [typeRefusal]
  have t3 : statusRefusal v ≠ some .encodeError := by
    unfold statusRefusal
    repeat' split
    all_goals simp
  have t4 : versionRefusal v ≠ some .encodeError := by
    unfold versionRefusal
    split <;> simp
  rw [hr, h]
  unfold refusal
  split
  · rename_i hro
    constructor
    · intro h; cases h
    · rintro (⟨h, _⟩ | ⟨rfl, _⟩)
      · exact absurd (hsub n hro) h
      · exact absurd hro (by decide +kernel)
  · split
    · rename_i he
      subst he
      simp [fieldNames]
    · split
      · rename_i he
        subst he
        simp [fieldNames, t2]
      · split
        · rename_i he
          subst he
          simp [fieldNames, t3]
        · split
          · rename_i he
            subst he
            simp [fieldNames, t4]
          · split
            · rename_i he
              subst he
              simp [fieldNames]
            · rename_i hsz
              split
              · rename_i hm
                simp [hm, t1, hsz]
              · rename_i hm
                split
                · rename_i hs
                  simp [hm, hs]
                · rename_i hs
                  simp only [hm, hs, hsz]
                  repeat' split
                  all_goals simp [t1]

example : refusal (py! "X-Mms Version") (.v (.str (py! "1"))) = some .encodeError ∧
    refusal (py! "Subject") (.v (.uni [8364])) = some .overflowError ∧
    refusal (py! "Subject") (.v (.int 5)) = some .typeError ∧
    refusal (py! "Subject") (.v (.str (py! "hello"))) = none ∧
    refusal (py! "Message-Size") (.v (.int (2 ^ 63))) = some .encodeError := by decide +kernel

/-- the headers that can be sent are those without a refusal -/
theorem C88_sendable (n : Str) (v : HVal) (hb : ∀ s, v = .v (.str s) → ∀ c ∈ s, c < 256) :
    (∃ l, headerOctets n v = .ok l) ↔ refusal n v = none := by
  rw [← C88_exact n v hb]
  cases headerOctets n v <;> simp [raised]

example := C88_sendable (py! "Subject") (.v (.uni [8364])) (by intro s h; cases h)

/-- If a message can be encoded without its headers, then with them it can be encoded exactly when no header is refused. -/
theorem C88_message (env : Env) (ord : Dict HVal → Dict HVal) (ho : ∀ d, (ord d).Perm d) (rnd : Nat) (m : Msg) (ct : HVal)
    (hk : m.headers.Ok) (hc : m.headers.get CT = some ct)
    (hbare : ∃ o m', encode env ord rnd { m with headers := [(CT, ct)] } = .ok o m')
    (hx : ∀ n ∈ [XT, XI, XV], m.headers.get n = none)
    (hb : ∀ n s, m.headers.get n = some (.v (.str s)) → ∀ c ∈ s, c < 256) :
    (∃ o m', encode env ord rnd m = .ok o m') ↔
      ∀ n v, m.headers.get n = some v → n ≠ CT → refusal n v = none := by
  have hk0 : ({ m with headers := [(CT, ct)] } : Msg).headers.Ok := by
    simp [Dict.Ok]
  rw [encodable_iff ho hk0] at hbare
  rw [encodable_iff ho hk]
  obtain ⟨b1, b2, b3⟩ := hbare
  have x1 := hx XT (by simp)
  have x2 := hx XI (by simp)
  have x3 := hx XV (by simp)
  have hsend : ∀ n v, m.headers.get n = some v → ((∃ o, headerOctets n v = .ok o) ↔ refusal n v = none) :=
    fun n v h => C88_sendable n v (fun s hs => hb n s (by rw [h, hs]))
  have hct : encodeCtHeader (prepareHeaders rnd m.headers) = encodeCtHeader (prepareHeaders rnd [(CT, ct)]) := by
    apply ct_get
    rw [prepare_get rnd _ CT (by decide), prepare_get rnd _ CT (by decide), if_neg (by decide), if_neg (by decide),
      if_neg (by decide), if_neg (by decide), if_neg (by decide), if_neg (by decide), hc]
    rfl
  have hT : (∃ o, headerOctets MT (sentType m.headers) = .ok o) ↔ ∀ v, m.headers.get MT = some v → refusal MT v = none := by
    rw [sentType_ok, x1]
    constructor
    · intro h v hv
      rw [← hsend MT v hv, type_ok]
      rintro a b rfl
      exact h a b (by rw [hv]; rfl)
    · intro h a b hv
      have := (hsend MT _ hv).2 (h _ hv)
      rw [type_ok] at this
      exact this a b rfl
  have hD : ∀ x k dflt, m.headers.get x = none → (∃ o, headerOctets k dflt = .ok o) →
      ((∃ o, headerOctets k (((m.headers.get x).or (m.headers.get k)).getD dflt) = .ok o) ↔
        ∀ v, m.headers.get k = some v → refusal k v = none) := by
    intro x k dflt h0 hd
    rw [h0]
    cases hk : m.headers.get k with
    | none => exact ⟨fun _ v h => (by cases h), fun _ => hd⟩
    | some v =>
      refine ⟨fun h w hw => ?_, fun h => (hsend k v hk).2 (h v rfl)⟩
      cases hw
      exact (hsend k v hk).1 h
  have bare : ∀ n, n ≠ CT → Dict.get [(CT, ct)] n = none := by
    intro n hn
    simp [Dict.get, Ne.symm hn]
  have dI : ∃ o, headerOctets TI (.v (.str (natStr rnd))) = .ok o := by
    refine b1 TI _ ?_ (by decide)
    rw [prepare_get rnd _ TI (by decide), if_neg (by decide), if_pos rfl, bare _ (by decide), bare _ (by decide)]
    rfl
  have dV : ∃ o, headerOctets MV (.v (.str (py! "1.0"))) = .ok o := by
    refine b1 MV _ ?_ (by decide)
    rw [prepare_get rnd _ MV (by decide), if_neg (by decide), if_neg (by decide), if_pos rfl, bare _ (by decide),
      bare _ (by decide)]
    rfl
  have hI := hD XI TI _ x2 dI
  have hV := hD XV MV _ x3 dV
  have gT := prepare_get rnd m.headers MT (by decide)
  rw [if_pos rfl] at gT
  have gI := prepare_get rnd m.headers TI (by decide)
  rw [if_neg (by decide), if_pos rfl] at gI
  have gV := prepare_get rnd m.headers MV (by decide)
  rw [if_neg (by decide), if_neg (by decide), if_pos rfl] at gV
  constructor
  · rintro ⟨h1, -, -⟩ n v hv hn
    by_cases e1 : n = MT
    · subst e1
      exact hT.1 (h1 _ _ gT (by decide)) v hv
    by_cases e2 : n = TI
    · subst e2
      exact hI.1 (h1 _ _ gI (by decide)) v hv
    by_cases e3 : n = MV
    · subst e3
      exact hV.1 (h1 _ _ gV (by decide)) v hv
    have ha : n ≠ XT ∧ n ≠ XI ∧ n ≠ XV := by
      refine ⟨?_, ?_, ?_⟩ <;> rintro rfl <;> simp_all
    have g := prepare_get rnd m.headers n ha
    rw [if_neg e1, if_neg e2, if_neg e3, hv] at g
    exact (hsend n v hv).1 (h1 _ _ g hn)
  · intro h
    refine ⟨fun k w hg hkc => ?_, hct ▸ b2, b3⟩
    by_cases ka : k = XT ∨ k = XI ∨ k = XV
    · rw [prepare_gone hk rnd ka] at hg
      cases hg
    · by_cases e1 : k = MT
      · subst e1
        rw [gT] at hg
        cases hg
        exact hT.2 fun v hv => h _ v hv (by decide)
      by_cases e2 : k = TI
      · subst e2
        rw [gI] at hg
        injection hg with hg
        rw [← hg]
        exact hI.2 fun v hv => h _ v hv (by decide)
      by_cases e3 : k = MV
      · subst e3
        rw [gV] at hg
        injection hg with hg
        rw [← hg]
        exact hV.2 fun v hv => h _ v hv (by decide)
      rw [prepare_get rnd m.headers k ⟨fun h => ka (.inl h), fun h => ka (.inr (.inl h)), fun h => ka (.inr (.inr h))⟩,
        if_neg e1, if_neg e2, if_neg e3] at hg
      exact (hsend k w hg).2 (h k w hg hkc)

/-- C61: setting another header (not Content-Type, not one of the three X-Mms aliases) keeps a message encodable exactly if
name and value are not refused. -/
theorem C61_set_iff (env : Env) (ord : Dict HVal → Dict HVal) (rnd : Nat) (m : Msg) (ho : ∀ d, (ord d).Perm d)
    (hk : m.headers.Ok) (h : ∃ o m', encode env ord rnd m = .ok o m') (hx : ∀ n ∈ [XT, XI, XV], m.headers.get n = none)
    (n : Str) (v : HVal) (hb : ∀ s, v = .v (.str s) → ∀ c ∈ s, c < 256) (hc : n ≠ CT) (hn : n ≠ XT ∧ n ≠ XI ∧ n ≠ XV) :
    (∃ o m', encode env ord rnd { m with headers := m.headers.set n v } = .ok o m') ↔ refusal n v = none := by
  rw [← C88_sendable n v hb]
  refine ⟨fun h => ?_, fun hs => set_ok env ord rnd m ho hk h n v (fun _ => hs) (fun e => absurd e hc) hn⟩
  have hk' : ({ m with headers := m.headers.set n v } : Msg).headers.Ok := hk.set n v
  rw [encodable_iff ho hk'] at h
  have hget : ∀ k, (m.headers.set n v).get k = if n = k then some v else m.headers.get k := fun k => dict_get_set ..
  have hal : ∀ x ∈ [XT, XI, XV], (m.headers.set n v).get x = none := by
    intro x hxm
    rw [hget, if_neg, hx x hxm]
    rintro rfl
    simp only [List.mem_cons, List.not_mem_nil, or_false] at hxm
    rcases hxm with h | h | h
    · exact hn.1 h
    · exact hn.2.1 h
    · exact hn.2.2 h
  have g := prepare_get rnd (m.headers.set n v) n hn
  by_cases e1 : n = MT
  · subst e1
    rw [if_pos rfl] at g
    have := h.1 _ _ g hc
    rw [sentType_ok, hal XT (by simp), hget, if_pos rfl] at this
    rw [type_ok]
    rintro a b rfl
    exact this a b rfl
  rw [if_neg e1] at g
  by_cases e2 : n = TI
  · subst e2
    rw [if_pos rfl, hal XI (by simp), hget, if_pos rfl] at g
    exact h.1 _ _ g hc
  rw [if_neg e2] at g
  by_cases e3 : n = MV
  · subst e3
    rw [if_pos rfl, hal XV (by simp), hget, if_pos rfl] at g
    exact h.1 _ _ g hc
  rw [if_neg e3, hget, if_pos rfl] at g
  exact h.1 _ _ g hc

/-- the hypotheses of `C61_set_iff` hold for a new message and a subject -/
example : (Msg.new.headers.map (·.1)).Nodup ∧ encodes sampleEnv id 1234 Msg.new = true ∧ (∀ n ∈ [XT, XI, XV], Msg.new.headers.get n = none) ∧
    refusal (py! "Subject") (.v (.str (py! "hi"))) = none ∧ refusal (py! "Priority") (.v (.str (py! "High"))) ≠ none := by
  decide +kernel

/-- the hypotheses of `C88_message` hold for a new message with a subject -/
example : let h := Msg.new.headers.set (py! "Subject") (.v (.str (py! "hi")))
    (h.get CT).isSome = true ∧ (∀ n ∈ [XT, XI, XV], h.get n = none) ∧
    (h.get CT).any (fun ct => encodes sampleEnv id 1234 { Msg.new with headers := [(CT, ct)] }) = true := by decide +kernel

end Verif.Props

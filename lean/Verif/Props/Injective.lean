import Verif.Proofs.Submit4
import Verif.Proofs.Deliver
import Verif.Proofs.Relay
import Verif.Props.Gsm
import Verif.Props.Submit
import Verif.Spec.Same
/-!
# C90: different messages have different PDUs
-/
set_option autoImplicit false

namespace Verif.Props
open Verif Verif.Submit Verif.Spec Verif.Spec.Sms Verif.Spec.Submit Verif.Spec.Time Verif.Spec.Same Verif.Spec.Gsm

/-- an address has one spelling, up to a final newline -/
theorem denotes_same {x y : List Nat} {a : Address} (h1 : Denotes x a) (h2 : Denotes y a) : SameNumber x y := by
  obtain ⟨p, n, ds, rfl, hd, ht, hg⟩ := h1
  obtain ⟨p', n', ds', rfl, hd', ht', hg'⟩ := h2
  have hp : p = p' := by
    rw [ht] at ht'
    cases p <;> cases p' <;> simp at ht' ⊢
  have he : ds = ds' := by
    rw [hg] at hg'
    clear hg ht ht'
    induction ds generalizing ds' with
    | nil => cases ds' with
      | nil => rfl
      | cons => simp at hg'
    | cons d ds ih => cases ds' with
      | nil => simp at hg'
      | cons d' ds' =>
        simp only [List.map_cons, List.cons.injEq] at hg'
        have h1 := hd d (by simp)
        have h2 := hd' d' (by simp)
        rw [ih (fun x hx => hd x (by simp [hx])) ds' (fun x hx => hd' x (by simp [hx])) hg'.2]
        congr 1
        omega
  subst hp he
  refine ⟨(if p then [43] else []) ++ ds, ?_, ?_⟩
  · cases n <;> simp
  · cases n' <;> simp

theorem denotes_ne {x : List Nat} (hx : ValidNumber x) : x ≠ [] := by
  obtain ⟨p, n, ds, rfl, hl, _⟩ := hx
  intro h
  have := congrArg List.length h
  simp only [List.length_append, List.length_nil] at this
  omega

theorem centre_same {x y : Option (List Nat)} {sm : Option Address} (h1 : CscaDenotes x sm) (h2 : CscaDenotes y sm) :
    SameCentre x y := by
  rcases x with _ | (_ | ⟨c, x⟩) <;> rcases y with _ | (_ | ⟨d, y⟩)
  · exact .inl ⟨.inl rfl, .inl rfl⟩
  · exact .inl ⟨.inl rfl, .inr rfl⟩
  · obtain ⟨a, ha, _⟩ := h2
    rw [ha] at h1; cases h1
  · exact .inl ⟨.inr rfl, .inl rfl⟩
  · exact .inl ⟨.inr rfl, .inr rfl⟩
  · obtain ⟨a, ha, _⟩ := h2
    rw [ha] at h1; cases h1
  · obtain ⟨a, ha, _⟩ := h1
    rw [ha] at h2; cases h2
  · obtain ⟨a, ha, _⟩ := h1
    rw [ha] at h2; cases h2
  · obtain ⟨a, ha, h1⟩ := h1
    obtain ⟨b, hb, h2⟩ := h2
    rw [ha] at hb
    cases hb
    exact .inr ⟨_, _, rfl, rfl, by simp, by simp, denotes_same h1 h2⟩

theorem relMicros_mono : ∀ n < 255, relMicros n < relMicros (n + 1) := by
  have h : ∀ n ∈ List.range 255, relMicros n < relMicros (n + 1) := by decide +kernel
  exact fun n hn => h n (List.mem_range.2 hn)

theorem relMicros_le {m n : Nat} (h : m ≤ n) (hn : n < 256) : relMicros m ≤ relMicros n := by
  induction n with
  | zero => rw [Nat.le_zero.1 h]
  | succ n ih =>
    by_cases he : m = n + 1
    · rw [he]
    · exact le_trans (ih (by omega) (by omega)) (le_of_lt (relMicros_mono n (by omega)))

theorem validity_same {v w : Validity} {f : Nat} {vp : List Nat} (h1 : ValidityField v f vp) (h2 : ValidityField w f vp) :
    SameValidity v w := by
  cases v <;> cases w
  · trivial
  · rw [h1.1] at h2; exact absurd h2.1 (by decide)
  · rw [h1.1] at h2; exact absurd h2.1 (by decide)
  · rw [h1.1] at h2; exact absurd h2.1 (by decide)
  · obtain ⟨_, n, hn, rfl, a1, a2⟩ := h1
    obtain ⟨_, n', hn', he, b1, b2⟩ := h2
    cases he
    intro m hm
    exact ⟨fun h => le_trans (relMicros_le (a2 m hm h) hn) b1, fun h => le_trans (relMicros_le (b2 m hm h) hn) a1⟩
  · rw [h1.1] at h2; exact absurd h2.1 (by decide)
  · rw [h1.1] at h2; exact absurd h2.1 (by decide)
  · rw [h1.1] at h2; exact absurd h2.1 (by decide)
  · have := h1.2.symm.trans h2.2
    simp only [Option.some.injEq, Stamp.mk.injEq] at this
    exact this

theorem dcs_same {al al' : Alphabet} {k k' : Option Nat} (hk : ∀ x, k = some x → x ≤ 3) (hk' : ∀ x, k' = some x → x ≤ 3)
    (h : dcsOctet al k = dcsOctet al' k') : al = al' ∧ k = k' := by
  cases k with
  | none => cases k' with
    | none => cases al <;> cases al' <;> simp [dcsOctet] at h ⊢
    | some x' =>
      have := hk' x' rfl
      cases al <;> cases al' <;> simp [dcsOctet] at h ⊢ <;> omega
  | some x =>
    have := hk x rfl
    cases k' with
    | none => cases al <;> cases al' <;> simp [dcsOctet] at h ⊢ <;> omega
    | some x' =>
      have := hk' x' rfl
      cases al <;> cases al' <;> simp [dcsOctet] at h ⊢ <;> omega

theorem ucs2_same {t u : List Nat} (h1 : ∀ c ∈ t, c < 65536) (h2 : ∀ c ∈ u, c < 65536) (h : ucs2Octets t = ucs2Octets u) : t = u := by
  induction t generalizing u with
  | nil => cases u with
    | nil => rfl
    | cons => simp [ucs2Octets] at h
  | cons c t ih => cases u with
    | nil => simp [ucs2Octets] at h
    | cons d u =>
      simp only [ucs2Octets, List.flatMap_cons, List.cons_append, List.nil_append, List.cons.injEq] at h
      rw [ih (fun x hx => h1 x (by simp [hx])) (fun x hx => h2 x (by simp [hx])) h.2.2]
      congr 1
      omega

theorem carries_same {al : Alphabet} {hdr hdr' t u ud : List Nat} {udl : Nat} (hl : hdr.length = hdr'.length)
    (hh : ∀ x ∈ hdr, x < 256) (hh' : ∀ x ∈ hdr', x < 256) (hud : ud.length ≤ 140)
    (h1 : Carries al hdr t udl ud) (h2 : Carries al hdr' u udl ud) : t = u := by
  cases al with
  | gsm =>
    obtain ⟨g, s1, p1, e1⟩ := h1
    obtain ⟨g', s2, p2, e2⟩ := h2
    have hg : g = g' := by
      have hle : (8 * hdr.length + 6) / 7 + g.length ≤ 160 := by
        have := p1.1
        omega
      have hx : Gsm.encode ⟨true, t⟩ = .ok g := encode_iff.2 ⟨s1, .inl rfl⟩
      have hy : Gsm.encode ⟨true, u⟩ = .ok g' := encode_iff.2 ⟨s2, .inl rfl⟩
      have l1 : ∀ x ∈ g, x < 128 := Verif.Gsm.spells_lt s1
      have l2 : ∀ x ∈ g', x < 128 := Verif.Gsm.spells_lt s2
      have u1 := Deliver.unpack_gsm l1 hh p1 hle
      have u2 := Deliver.unpack_gsm l2 hh' p2 (by rw [← e2, e1]; exact hle)
      rw [← e1] at u1
      rw [← e2, ← hl] at u2
      exact u1.symm.trans u2
    subst hg
    have hx : Gsm.encode ⟨true, t⟩ = .ok g := encode_iff.2 ⟨s1, .inl rfl⟩
    have hy : Gsm.encode ⟨true, u⟩ = .ok g := encode_iff.2 ⟨s2, .inl rfl⟩
    exact C01_injective _ _ g hx hy
  | bin =>
    have := h1.1.symm.trans h2.1
    exact (List.append_inj this hl).2
  | ucs2 =>
    have := h1.2.1.symm.trans h2.2.1
    exact ucs2_same h1.1 h2.1 (List.append_inj this hl).2

/-- C90: two objects with the same PDUs have the same text, coding, class, protocol identifier and report request, and
equivalent destination, service centre and validity. -/
theorem C90_injective (s₁ s₂ : State) (al₁ al₂ : Alphabet) (hr₁ : Ready s₁) (hr₂ : Ready s₂) (hu₁ : Uses s₁ al₁)
    (hu₂ : Uses s₂ al₂) (ps : List Pdu) (s₁' s₂' : State) (h₁ : toPdu s₁ = .ok ps s₁') (h₂ : toPdu s₂ = .ok ps s₂') :
    s₁.text.s = s₂.text.s ∧ al₁ = al₂ ∧ s₁.klass = s₂.klass ∧ s₁.pid = s₂.pid ∧ s₁.requestStatus = s₂.requestStatus ∧
      (∃ x y, s₁.number = some x ∧ s₂.number = some y ∧ SameNumber x y) ∧ SameCentre s₁.csca s₂.csca ∧
      SameValidity s₁.validity s₂.validity := by
  have conf : ∀ (s s' : State) (al : Alphabet), Ready s → Uses s al → toPdu s = .ok ps s' →
      ∃ ts mr cr, Division al s.text.s ts ∧ cr < 256 ∧ ts.length ≤ 255 ∧ AllConform s al mr cr ts ps := by
    intro s s' al hr hu h
    obtain ⟨ts, s1, h1, _, h3, h4⟩ := toPdu_uses hr hu
    by_cases hl : ts.length ≤ 255
    · obtain ⟨ps', h5, h6⟩ := h3 hl
      rw [h] at h5
      cases h5
      exact ⟨ts, _, _, h1, crOf_lt _, hl, h6⟩
    · rw [h4 (by omega)] at h; cases h
  obtain ⟨ts, mr, cr, hd, hcr, hn, hl, hc⟩ := conf s₁ s₁' al₁ hr₁ hu₁ h₁
  obtain ⟨us, mr', cr', hd', hcr', hn', hl', hc'⟩ := conf s₂ s₂' al₂ hr₂ hu₂ h₂
  have hpos : 0 < ts.length := by
    obtain ⟨_, _, _, ⟨_, rfl⟩ | ⟨_, h, _⟩⟩ := hd
    · simp
    · omega
  have hlen : ts.length = us.length := hl.symm.trans hl'
  have same : ∀ i (h : i < ts.length) (h' : i < us.length) (hp : i < ps.length), al₁ = al₂ ∧ ts[i] = us[i] ∧
      s₁.klass = s₂.klass ∧ s₁.pid = s₂.pid ∧ s₁.requestStatus = s₂.requestStatus ∧
      (∃ x y, s₁.number = some x ∧ s₂.number = some y ∧ SameNumber x y) ∧ SameCentre s₁.csca s₂.csca ∧
      SameValidity s₁.validity s₂.validity := by
    intro i h h' hp
    obtain ⟨udl, ud, ⟨b, sm, rest, sub, e1, e2, e3, e4, _, _, _, e5, _, _, _, e6, _, _, _, ⟨x, e7, e8⟩, e9, e10, e11, e12, e13⟩,
      hud, hca⟩ := hc i h hp
    obtain ⟨udl', ud', ⟨b', sm', rest', sub', f1, f2, f3, f4, _, _, _, f5, _, _, _, f6, _, _, _, ⟨y, f7, f8⟩, f9, f10, f11, f12,
      f13⟩, hud', hca'⟩ := hc' i h' hp
    have hb : b = b' := Deliver.hexUpper_inj e2 f2 (e1.symm.trans f1)
    subst hb
    rw [e3] at f3
    cases f3
    rw [e5] at f5
    cases f5
    obtain ⟨ha, hk⟩ := dcs_same hr₁.klass hr₂.klass (e10.symm.trans f10)
    have hx : udl = udl' := e12.symm.trans f12
    have hy : ud = ud' := e13.symm.trans f13
    subst hx hy ha
    have hph : ∀ cr i, cr < 256 → i < ts.length → ∀ x ∈ partHeader cr ts.length i, x < 256 := by
      intro cr i hcr hi x hx
      unfold partHeader at hx
      split at hx
      · cases hx
      · simp only [concatUdh, List.mem_cons, List.not_mem_nil, or_false] at hx
        omega
    refine ⟨rfl, ?_, hk, e9.symm.trans f9, e6.symm.trans f6, ⟨x, y, e7, f7, denotes_same e8 f8⟩, centre_same e4 f4,
      validity_same e11 f11⟩
    rw [← hlen] at hca'
    refine carries_same ?_ (hph cr i hcr h) (hph cr' i hcr' h) hud hca hca'
    unfold partHeader
    split <;> rfl
  obtain ⟨g1, _, g2⟩ := same 0 hpos (by omega) (by omega)
  refine ⟨?_, g1, g2⟩
  rw [← hd.1, ← hd'.1]
  congr 1
  apply List.ext_getElem hlen
  intro i h h'
  exact (same i h h' (by omega)).2.1

/-- the sample with a newline after the number, and some seconds more of validity -/
def sampleTwin (t : PyStr) : State :=
  { sample t (some 0) with number := some (py! "+34616585119\n"), validity := .relative ⟨86400000000 + 59000000⟩ }

/-- two different objects with the same PDUs meet the hypotheses -/
example : ∃ s₁ s₂ ps s₁' s₂', Ready s₁ ∧ Ready s₂ ∧ Uses s₁ .gsm ∧ Uses s₂ .gsm ∧ s₁ ≠ s₂ ∧ toPdu s₁ = .ok ps s₁' ∧
    toPdu s₂ = .ok ps s₂' := by
  refine ⟨sample ⟨true, py! "Hola"⟩ none, sampleTwin ⟨true, py! "Hola"⟩, _, _, _, sample_ready _ _,
    ⟨⟨_, rfl, (validNumber_iff _).1 (by decide +kernel)⟩, .inr ((validNumber_iff _).1 (by decide +kernel)),
      by rintro k ⟨⟩; decide, ⟨le_refl 0, by exact (by decide : (0 : Int) < 256)⟩, by refine ⟨?_, ?_⟩ <;> decide⟩,
    ⟨.inr rfl, (gsmText_iff _).1 (by decide +kernel)⟩, ⟨.inl rfl, (gsmText_iff _).1 (by decide +kernel)⟩, ?_, rfl, rfl⟩
  intro h
  have := congrArg State.fmt h
  cases this

end Verif.Props

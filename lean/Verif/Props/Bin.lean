import Verif.Props.Relay
/-!
# C14 continued: 8-bit data in several parts never arrives
-/
set_option autoImplicit false

namespace Verif.Props
open Verif Verif.Spec Verif.Spec.Sms Verif.Spec.Time Verif.Spec.Submit Verif.Submit
open Verif.Deliver (smsDeliver)

/-- user data whose header is announced, but that is all data: the first octet is taken for the length of the header -/
theorem processMessage_bin_bare {st d : Deliver.State} {mt udl n : Nat} {rest : List Nat} (hf : st.fmt = some 4)
    (hm : st.mtype = some mt) (hmt : mt &&& 0x40 ≠ 0)
    (h : (Deliver.processMessage (udl :: n :: rest) st).out = .ok d) : d.text = some (rest.drop n) := by
  rw [Deliver.processMessage_out hm hf] at h
  unfold Deliver.udP at h
  simp only [pop0, Except.bind, if_pos hmt] at h
  cases hu : Udh.fromBytes (rest.take n) with
  | error e => rw [hu] at h; cases h
  | ok u =>
    rw [hu] at h
    simp only [Deliver.textP, if_neg (show ¬ (4 = 0x00) by decide), if_pos] at h
    cases h
    rfl

theorem relay_bare {s : State} {mr n i udl x : Nat} {rest : List Nat} {p : Pdu} (hk : ∀ k, s.klass = some k → k ≤ 3)
    (h : Envelope s .bin mr n i p udl (x :: rest)) (hn : n ≠ 1) {r : Relay} (hr : r.Ok) :
    (∃ q, Relays r p.pdu q) ∧ ∀ q, Relays r p.pdu q → ∀ d, smsDeliver q = .ok d → d.text = some (rest.drop x) := by
  obtain ⟨bytes, sm, rest', sub, h1, h2, h3, h3', _, _, _, h4, _, _, _, _, h5, _, _, _, h6, h7, _, h8, h9⟩ := h
  refine ⟨⟨_, bytes, sm, rest', sub, h1, h2, h3, h4, rfl⟩, ?_⟩
  rintro q ⟨bytes', sm', rest'', sub', g1, g2, g3, g4, rfl⟩ d hd
  have e1 := Deliver.hexUpper_inj h2 g2 (h1.symm.trans g1)
  subst e1
  rw [h3] at g3
  simp only [Option.some.injEq, Prod.mk.injEq] at g3
  obtain ⟨_, e2⟩ := g3
  subst e2
  rw [h4] at g4
  have e3 := Option.some.inj g4
  subst e3
  have hb := readSmsc_bytes h2 h3 (csca_lt h3')
  have hrest : ∀ x ∈ rest', x < 256 := fun x hx => h2 x (by rw [hb]; exact List.mem_append_right _ hx)
  obtain ⟨k, toa, o, sender, st, a1, a2, a3, a4, a5, a6⟩ := Deliver.setPdu_relay hr (Deliver.readSubmit_lt h4 hrest)
  have hfm := Deliver.fmtOfDcs_octet .bin hk
  have hfo := (Deliver.foOctet r.nomore r.sri sub.udhi sub.rp).2.1.2 (h5.2 hn)
  unfold smsDeliver at hd
  rw [a6, h8, h9] at hd
  generalize hg : Deliver.header (Deliver.State.fresh true) (hexUpper (r.deliver sub)) r.smsc (Deliver.foOf r sub) sender
    sub.pid sub.dcs (Cal.subMinutes (Cal.ofCivil st.civil) (st.quarters * 15)) = g at hd
  refine processMessage_bin_bare (st := g) (mt := Deliver.foOf r sub) (udl := udl) ?_ ?_ hfo ?_
  · rw [← hg]; simp only [Deliver.header, h7, hfm.1]; rfl
  · rw [← hg]; rfl
  · revert hd
    cases Deliver.processMessage (udl :: x :: rest) g with
    | ok a b => intro hd; injection hd with hd; rw [← hd]; rfl
    | err e b => intro hd; cases hd

/-- C14: what is left of 8-bit data in several parts: however a part is relayed, if it is decoded at all, its first octet
is lost together with as many octets as the first one says. -/
theorem C14_lost (s : State) (hr : Ready s) (hf : s.fmt = some 4) (hl : 140 < s.text.s.length) (ps : List Pdu) (s' : State)
    (h : toPdu s = .ok ps s') :
    ∃ ts : List (List Nat), ts.flatten = s.text.s ∧ ts.length = ps.length ∧
      ∀ i (h : i < ts.length) (h' : i < ps.length), ∃ n rest, ts[i] = n :: rest ∧ ∀ r : Relay, r.Ok →
        (∃ q, Relays r ps[i].pdu q) ∧ ∀ q, Relays r ps[i].pdu q → ∀ d, smsDeliver q = .ok d →
          (Deliver.data d).text = some (rest.drop n) := by
  obtain ⟨hu, ht, hn⟩ := toPdu_bin_inv hf hl h
  obtain ⟨parts, h1, h2⟩ := toPdu_bin_ok hr hf hu ht hl
  obtain ⟨ps', s1, h6, h7, h8⟩ := h2 (hn parts h1)
  rw [h] at h6
  cases h6
  have htwo := chunks_two (by omega) h1 (by omega)
  refine ⟨parts, chunks_flatten h1, h7.symm, ?_⟩
  intro i hi hi'
  have hne := (chunks_bound (by omega) h1 parts[i] (List.getElem_mem _)).1
  have he := h8 i hi hi'
  cases hp : parts[i] with
  | nil => exact absurd hp hne
  | cons n rest =>
    refine ⟨n, rest, rfl, fun r hok => ?_⟩
    rw [hp] at he
    exact relay_bare hr.klass he (by omega) hok

theorem flatten_lt : ∀ (as bs : List (List Nat)), as.length = bs.length → bs ≠ [] →
    (∀ i (h : i < as.length) (h' : i < bs.length), as[i].length < bs[i].length) → as.flatten.length < bs.flatten.length
  | [], [], _, h, _ => absurd rfl h
  | [], _ :: _, h, _, _ => by simp at h
  | _ :: _, [], h, _, _ => by simp at h
  | a :: as, b :: bs, hl, _, h => by
    have h0 := h 0 (by simp) (by simp)
    simp only [List.getElem_cons_zero] at h0
    rw [List.flatten_cons, List.flatten_cons, List.length_append, List.length_append]
    cases bs with
    | nil =>
      have : as = [] := List.length_eq_zero_iff.1 (by simpa using hl)
      subst this
      simpa using h0
    | cons b' bs =>
      have := flatten_lt as (b' :: bs) (by simpa using hl) (by simp) (fun i h1 h2 => by
        have := h (i + 1) (by simpa using h1) (by simpa using h2)
        simpa using this)
      omega

/-- C14: so 8-bit data in several parts never arrives. -/
theorem C14_never (s : State) (hr : Ready s) (hf : s.fmt = some 4) (hl : 140 < s.text.s.length) (ps : List Pdu) (s' : State)
    (h : toPdu s = .ok ps s') : ¬ ∃ ts ref, ts.flatten = s.text.s ∧ Arrive ps ts ref := by
  rintro ⟨us, ref, hus, hlen, har⟩
  obtain ⟨ts, h1, h2, h3⟩ := C14_lost s hr hf hl ps s' h
  have hne : ts ≠ [] := by
    intro h0; rw [h0] at h1; rw [← h1] at hl; simp at hl
  have := flatten_lt us ts (by omega) hne (fun i hi hi' => by
    obtain ⟨n, rest, e1, e2⟩ := h3 i hi' (by omega)
    obtain ⟨⟨q, hq⟩, e3⟩ := e2 _ sampleRelay_ok
    obtain ⟨_, e4⟩ := har i hi (by omega) _ sampleRelay_ok
    obtain ⟨d, d1, d2, _⟩ := e4 q hq
    have := (e3 q hq d d1).symm.trans d2
    rw [← Option.some.inj this, e1, List.length_drop, List.length_cons]
    omega)
  rw [hus, h1] at this
  omega

example : Ready (sample ⟨false, List.replicate 141 97⟩ (some 4)) ∧
    ∃ ps s', toPdu (sample ⟨false, List.replicate 141 97⟩ (some 4)) = .ok ps s' :=
  ⟨sample_ready _ _, (C08_8bit_accepted _ (sample_ready _ _) rfl (by decide +kernel)).1 rfl (by decide +kernel) (by decide +kernel)⟩

end Verif.Props

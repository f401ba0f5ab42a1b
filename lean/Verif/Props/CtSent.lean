import Verif.Props.Layout
import Verif.Props.Ctype
import Mathlib.Data.List.Perm.Basic
/-!
# C43: content types with parameters in whole messages
-/
set_option autoImplicit false

namespace Verif.Props
open Verif Verif.Mms Verif.Spec.Layout
open Verif.Spec.Wsp Verif.Spec.Mms Verif.Spec.MmsEnc

theorem ctHeader_carries {d : Dict HVal} {media : Str} {params : Dict Val} {c : List Nat}
    (h : d.get CT = some (.ct media params)) (hc : Carries media params c) : encodeCtHeader d = .ok (0x84 :: c) := by
  obtain ⟨items, h1, h2⟩ := hc
  unfold encodeCtHeader
  have hx : d.index (py! "Content-Type") = .ok (.ct media params) := Dict.index_some h
  have hn : encodeMmsFieldName (py! "Content-Type") = .ok (toInts [0x84]) := rfl
  simp only [hx, hn, encodeCtPair, h1, h2, bind, Except.bind, toOctets_ints (l := [0x84]) (by simp)]
  rfl

/-- the headers are encoded one by one -/
def Each (e : Str × HVal) (x : List Nat × List Nat) : Prop := x.1 = e.1 ∧ headerOctets e.1 e.2 = .ok x.2

theorem encodeRest_each : ∀ {d : Dict HVal} {o : List Nat}, encodeRest d = .ok o ↔
    ∃ hs, List.Forall₂ Each (d.filter fun e => e.1 ≠ CT) hs ∧ o = (hs.map (·.2)).flatten
  | [], o => ⟨fun h => by cases h; exact ⟨[], .nil, rfl⟩, fun ⟨hs, h, e⟩ => by cases h; subst e; rfl⟩
  | (k, v) :: r, o => by
    have ih := @encodeRest_each r
    by_cases hk : k = CT
    · rw [List.filter_cons_of_neg (by simpa using hk), ← ih]
      simp only [encodeRest]
      rw [if_pos (show k = py! "Content-Type" from hk)]
    · rw [List.filter_cons_of_pos (by simpa using hk)]
      simp only [encodeRest]
      rw [if_neg (show ¬ k = py! "Content-Type" from hk)]
      constructor
      · intro h
        obtain ⟨a, ha, h⟩ := bind_ok_invE h
        obtain ⟨b, hb, h⟩ := bind_ok_invE h
        cases h
        obtain ⟨hs, h1, rfl⟩ := ih.1 hb
        exact ⟨(k, a) :: hs, .cons ⟨rfl, ha⟩ h1, rfl⟩
      · rintro ⟨hs, h, rfl⟩
        cases h with
        | cons h1 h2 =>
          have := ih.2 ⟨_, h2, rfl⟩
          simp only [h1.2, this, bind, Except.bind]
          rfl

theorem nodup_entries {d : Dict HVal} (h : d.Ok) : List.Nodup d := by
  refine (List.pairwise_map.1 h).imp ?_
  intro a b hn e
  exact hn (by rw [e])

theorem sentType_congr {d e : Dict HVal} (h : ∀ n, n ≠ CT → d.get n = e.get n) : sentType d = sentType e := by
  unfold sentType Dict.has
  rw [h XT (by decide), h MT (by decide), h (py! "To") (by decide), h (py! "Cc") (by decide), h (py! "Bc") (by decide)]

theorem dict_perm {d e : Dict HVal} (hd : d.Ok) (he : e.Ok) (h : ∀ n, d.get n = e.get n) : d.Perm e := by
  refine (List.perm_ext_iff_of_nodup (nodup_entries hd) (nodup_entries he)).2 ?_
  rintro ⟨k, v⟩
  exact ⟨fun hm => Dict.mem_of_get (by rw [← h]; exact hd.get hm), fun hm => Dict.mem_of_get (by rw [h]; exact he.get hm)⟩

theorem filter_ok {d : Dict HVal} (hd : d.Ok) (p : Str × HVal → Bool) : Dict.Ok (d.filter p) :=
  List.Sublist.nodup (List.filter_sublist.map _) hd

theorem filter_get {d : Dict HVal} (n : Str) : Dict.get (d.filter fun e => e.1 ≠ CT) n = if n = CT then none else d.get n := by
  have := Dict.get_filter d (fun k => decide (k ≠ CT)) n
  rw [show (d.filter fun e => e.1 ≠ CT) = d.filter (fun e => (fun k => decide (k ≠ CT)) e.1) from rfl, this]
  by_cases h : n = CT <;> simp [h]

/-- C43: a message that can be sent can also be sent with any other content type that has an encoding: the octets of the
content type are those of its encoding, all headers but it are sent as before, and so is the body. -/
theorem C43_message (env : Env) (ord : Dict HVal → Dict HVal) (ho : ∀ d, (ord d).Perm d) (rnd : Nat) (m m' : Msg)
    (hk : m.headers.Ok) (o : List Nat) (h : encode env ord rnd m = .ok o m') (media : Str) (params : Dict Val) (c : List Nat)
    (hc : Carries media params c) :
    ∃ o2 m2, encode env ord rnd { m with headers := m.headers.set CT (.ct media params) } = .ok o2 m2 ∧
      ∃ (l : Layout o) (l2 : Layout o2), l2.ctype = c ∧ l2.type = l.type ∧ l2.id = l.id ∧ l2.version = l.version ∧
        l2.others.Perm l.others ∧ l2.body = l.body := by
  obtain ⟨hd, b, h1, h2, rfl⟩ := encode_inv h
  obtain ⟨vt, vi, vv, a, i, cc, r, t, g1, g2, g3, ha, hi, hcc, hr, ht, rfl, rfl⟩ := emh_inv h1
  have hk2 : (m.headers.set CT (.ct media params)).Ok := hk.set _ _
  have hget : ∀ n, n ≠ CT → (m.headers.set CT (.ct media params)).get n = m.headers.get n := fun n hn => by
    rw [dict_get_set, if_neg (fun e => hn e.symm)]
  have hP : ∀ n, n ≠ CT → (prepareHeaders rnd (m.headers.set CT (.ct media params))).get n = (prepareHeaders rnd m.headers).get n := by
    intro n hn
    by_cases hx : n = XT ∨ n = XI ∨ n = XV
    · rw [prepare_gone hk2 rnd hx, prepare_gone hk rnd hx]
    · simp only [not_or] at hx
      rw [prepare_get rnd _ n hx, prepare_get rnd _ n hx, hget n hn, hget XI (by decide), hget TI (by decide),
        hget XV (by decide), hget MV (by decide), sentType_congr hget]
  have hPc : (prepareHeaders rnd (m.headers.set CT (.ct media params))).get CT = some (.ct media params) := by
    rw [prepare_get _ _ _ (by decide), if_neg (by decide), if_neg (by decide), if_neg (by decide), dict_get_set, if_pos rfl]
  have ok1 := rest_ok (prepare_ok hk rnd)
  have ok2 := rest_ok (prepare_ok hk2 rnd)
  have hR : ∀ n, n ≠ CT → (restHeaders (prepareHeaders rnd (m.headers.set CT (.ct media params)))).get n
      = (restHeaders (prepareHeaders rnd m.headers)).get n := by
    intro n hn
    rw [rest_get (prepare_ok hk2 rnd), rest_get (prepare_ok hk rnd), hP n hn]
  have hperm : (List.filter (fun e => e.1 ≠ CT) (ord (restHeaders (prepareHeaders rnd (m.headers.set CT (.ct media params)))))).Perm
      (List.filter (fun e => e.1 ≠ CT) (ord (restHeaders (prepareHeaders rnd m.headers)))) := by
    refine (((ho _).filter _).trans (dict_perm (filter_ok ok2 _) (filter_ok ok1 _) fun n => ?_)).trans ((ho _).filter _).symm
    rw [filter_get, filter_get]
    split
    · rfl
    · rename_i hn
      exact hR n hn
  obtain ⟨hs, e1, e2⟩ := encodeRest_each.1 hr
  obtain ⟨hs2, f1, f2⟩ := List.perm_comp_forall₂ hperm e1
  have hr2 := encodeRest_each.2 ⟨hs2, f1, rfl⟩
  have ht2 : encodeCtHeader (restHeaders (prepareHeaders rnd (m.headers.set CT (.ct media params)))) = .ok (0x84 :: c) :=
    ctHeader_carries (by rw [rest_get' (by decide), hPc]) hc
  have hh := emh_ok (ord := ord) (m := { m with headers := m.headers.set CT (.ct media params) }) (rnd := rnd) rfl
    (by rw [hP _ (by decide)]; exact g1) (by rw [hP _ (by decide)]; exact g2) (by rw [hP _ (by decide)]; exact g3) ha hi hcc hr2 ht2
  obtain ⟨ty, rfl, hty⟩ := type_layout ha
  obtain ⟨s, rfl, -⟩ := id_layout hi
  obtain ⟨ver, rfl⟩ : ∃ ver, cc = 0x8d :: ver := by
    rcases headerOctets_starts hcc with ⟨n, v, hm, e⟩ | ⟨hm, _⟩
    · have hn : ∀ x ∈ fieldNumbers, x.2 = MV → x.1 = 0x0d := by decide
      have := hn _ hm rfl
      simp only at this
      subst this
      exact ⟨v, e⟩
    · exact absurd (show (0x0d, MV) ∈ fieldNumbers by decide) (hm 0x0d)
  obtain ⟨ct, rfl⟩ := encodeCt_layout ht
  have hst : ∀ {l : List (Str × HVal)} {hs : List (List Nat × List Nat)}, List.Forall₂ Each l hs → ∀ x ∈ hs, Starts x.1 x.2 := by
    intro l hs hf
    induction hf with
    | nil => intro x hx; cases hx
    | cons h1 _ ih =>
      intro x hx
      rcases List.mem_cons.1 hx with rfl | hx
      · rw [h1.1]; exact headerOctets_starts h1.2
      · exact ih x hx
  have henc : encode env ord rnd { m with headers := m.headers.set CT (.ct media params) }
      = .ok ([0x8c, ty] ++ (0x98 :: s ++ [0]) ++ (0x8d :: ver) ++ (hs2.map (·.2)).flatten ++ (0x84 :: c) ++ b)
        { m with headers := restHeaders (prepareHeaders rnd (m.headers.set CT (.ct media params))) } := by
    unfold encode
    rw [M.bind_ok hh]
    simp only [bind, M.bind, M.get, M.lift, pure, M.pure]
    have : encodeMessageBody env ord { m with headers := restHeaders (prepareHeaders rnd (m.headers.set CT (.ct media params))) } = .ok b := h2
    rw [this]
  exact ⟨_, _, henc, ⟨ty, s, ver, hs, ct, b, by rw [e2], hty, hst e1⟩, ⟨ty, s, ver, hs2, c, b, rfl, hty, hst f1⟩,
    rfl, rfl, rfl, rfl, f2, rfl⟩

/-- the hypotheses: a message with a To header, and the parameters of a presentation -/
example : (∃ o m', encode sampleEnv id 1234 (withHeader (py! "To") (.v (.str (py! "+34600000000")))) = .ok o m') ∧
    ∃ c, Carries (py! "application/vnd.wap.multipart.related") smilParams c := by
  refine ⟨?_, _, smil_carries⟩
  have h := encodes_to
  unfold encodes at h
  split at h
  · exact ⟨_, _, by assumption⟩
  · cases h

end Verif.Props

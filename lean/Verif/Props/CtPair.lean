import Verif.Props.Ctype
import Verif.Props.MmsTrip
/-!
# C43: content types that are not pairs
-/
set_option autoImplicit false

namespace Verif.Props
open Verif Verif.Mms
open Verif.Spec.Wsp Verif.Spec.Mms Verif.Spec.MmsEnc

/-- a type and a dict of parameters, or a type and the empty string -/
def IsPair (v : HVal) : Prop := (∃ t ps, v = .ct t ps) ∨ ∃ t, v = .tup t (.str []) ∨ v = .tup t (.uni [])

theorem pair_of_ok {v : HVal} {l : List Item} (h : encodeCtPair v = .ok l) : IsPair v := by
  unfold encodeCtPair at h
  split at h
  · exact .inl ⟨_, _, rfl⟩
  · exact .inr ⟨_, .inl rfl⟩
  · exact .inr ⟨_, .inr rfl⟩
  · cases h
  · split at h <;> cases h
  · split at h <;> cases h
  · cases h

theorem ctHeader_pair {d : Dict HVal} {o : List Nat} (h : encodeCtHeader d = .ok o) : ∃ v, d.get CT = some v ∧ IsPair v := by
  unfold encodeCtHeader at h
  obtain ⟨v, hv, h⟩ := bind_ok_invE h
  obtain ⟨l, hl, h⟩ := bind_ok_invE h
  exact ⟨v, Dict.index_ok hv, pair_of_ok hl⟩

theorem part_pair {env : Env} {ord : Dict HVal → Dict HVal} {p : DataPart} {o : List Nat} (h : encodePart env ord p = .ok o) :
    ∃ v, p.headers.get CT = some v ∧ IsPair v := by
  unfold encodePart at h
  obtain ⟨v, hv, h⟩ := bind_ok_invE h
  obtain ⟨l, hl, h⟩ := bind_ok_invE h
  exact ⟨v, Dict.index_ok hv, pair_of_ok hl⟩

theorem parts_pair {env : Env} {ord : Dict HVal → Dict HVal} : ∀ {ps : List DataPart} {o : List Nat},
    encodeParts env ord ps = .ok o → ∀ p ∈ ps, ∃ v, p.headers.get CT = some v ∧ IsPair v
  | [], _, _ => fun p hp => by cases hp
  | q :: qs, o, h => by
    unfold encodeParts at h
    obtain ⟨a, ha, h⟩ := bind_ok_invE h
    obtain ⟨b, hb, h⟩ := bind_ok_invE h
    intro p hp
    rcases List.mem_cons.1 hp with rfl | hp
    · exact part_pair ha
    · exact parts_pair hb p hp

/-- A message that can be encoded has, for itself and for every part in its slides, a Content-Type that is a type with a
dict of parameters (an empty string will do for no parameters).  A plain string, say, cannot be sent. -/
theorem C43_pair (env : Env) (ord : Dict HVal → Dict HVal) (rnd : Nat) (m m' : Msg) (o : List Nat)
    (h : encode env ord rnd m = .ok o m') : (∃ v, m.headers.get CT = some v ∧ IsPair v) ∧
      ∀ p ∈ partsOf m.pages, ∃ v, p.headers.get CT = some v ∧ IsPair v := by
  obtain ⟨hd, b, h1, h2, rfl⟩ := encode_inv h
  obtain ⟨vt, vi, vv, ba, bb, bc, r, t, g1, g2, g3, ga, gb, gc, gr, gt, rfl, rfl⟩ := emh_inv h1
  constructor
  · obtain ⟨v, hv, hp⟩ := ctHeader_pair gt
    rw [rest_get' ⟨by decide, by decide, by decide⟩, prepare_get rnd m.headers CT ⟨by decide, by decide, by decide⟩,
      if_neg (by decide), if_neg (by decide), if_neg (by decide)] at hv
    exact ⟨v, hv, hp⟩
  · unfold encodeMessageBody at h2
    obtain ⟨a, _, h2⟩ := bind_ok_invE h2
    obtain ⟨s, _, h2⟩ := bind_ok_invE h2
    obtain ⟨c, hc, h2⟩ := bind_ok_invE h2
    intro p hp
    exact parts_pair hc p (by rw [slideParts_eq]; exact List.mem_cons_of_mem _ hp)

/-- the hypothesis holds for a message with a photo and a text; with a string for its Content-Type it does not -/
example : ∃ o m', encode sampleEnv id 1234 photoMsg = .ok o m' := by
  have h : (match encode sampleEnv id 1234 photoMsg with | .ok _ _ => true | .err _ _ => false) = true := by decide +kernel
  cases he : encode sampleEnv id 1234 photoMsg with
  | ok o m' => exact ⟨o, m', rfl⟩
  | err e m' => rw [he] at h; cases h

example (o : List Nat) (m' : Msg) :
    encode sampleEnv id 1234 { photoMsg with headers := photoMsg.headers.set CT (.v (.str (py! "text/plain"))) } ≠ .ok o m' := by
  intro h
  obtain ⟨⟨v, hv, hp⟩, _⟩ := C43_pair _ _ _ _ _ _ h
  have : v = .v (.str (py! "text/plain")) := by
    have e : Dict.get (photoMsg.headers.set CT (.v (.str (py! "text/plain")))) CT = some (.v (.str (py! "text/plain"))) := by
      decide +kernel
    rw [show Dict.get _ CT = some v from hv] at e
    injection e
  subst this
  rcases hp with ⟨_, _, h⟩ | ⟨_, h | h⟩ <;> cases h

end Verif.Props

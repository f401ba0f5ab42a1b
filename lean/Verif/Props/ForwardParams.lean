import Verif.Props.CtSent
import Verif.Props.Forward
/-!
# C75: received messages whose content type has parameters
-/
set_option autoImplicit false

namespace Verif.Props
open Verif Verif.Mms Verif.Spec.Layout
open Verif.Spec.Wsp Verif.Spec.Mms Verif.Spec.MmsEnc

theorem ctHeader_inv {d : Dict HVal} {media : Str} {params : Dict Val} {t : List Nat}
    (h : d.get CT = some (.ct media params)) (ht : encodeCtHeader d = .ok t) : ∃ c, t = 0x84 :: c ∧ Carries media params c := by
  obtain ⟨c, rfl⟩ := encodeCt_layout ht
  refine ⟨c, rfl, ?_⟩
  unfold encodeCtHeader at ht
  have hx : d.index (py! "Content-Type") = .ok (.ct media params) := Dict.index_some h
  have hn : encodeMmsFieldName (py! "Content-Type") = .ok (toInts [0x84]) := rfl
  rw [hx] at ht
  obtain ⟨v, hv, ht⟩ := bind_ok_invE ht
  cases hv
  obtain ⟨r, hr, ht⟩ := bind_ok_invE ht
  rw [hn] at ht
  obtain ⟨a, ha, ht⟩ := bind_ok_invE ht
  cases ha
  rw [toOctets_ints (l := [0x84]) (by simp)] at ht
  obtain ⟨a, ha, ht⟩ := bind_ok_invE ht
  cases ha
  obtain ⟨b, hb, ht⟩ := bind_ok_invE ht
  injection ht with ht
  injection ht with _ ht
  change b = c at ht
  subst ht
  exact ⟨r, hr, hb⟩

theorem encode_carries {env : Env} {ord : Dict HVal → Dict HVal} {rnd : Nat} {m m' : Msg} {o : List Nat} {media : Str}
    {params : Dict Val} (hct : m.headers.get CT = some (.ct media params)) (h : encode env ord rnd m = .ok o m') :
    ∃ pre c b, o = pre ++ (0x84 :: c) ++ b ∧ Carries media params c ∧ encodeMessageBody env ord m = .ok b := by
  obtain ⟨hd, b, h1, h2, rfl⟩ := encode_inv h
  obtain ⟨vt, vi, vv, x, y, z, r, t, _, _, _, _, _, _, _, gt, rfl, rfl⟩ := emh_inv h1
  obtain ⟨c, rfl, hc⟩ := ctHeader_inv (by rw [rest_get' (by decide), prepare_get _ _ _ (by decide), if_neg (by decide),
    if_neg (by decide), if_neg (by decide), hct]) gt
  exact ⟨_, c, b, rfl, hc, h2⟩

/-- a conformant message with a quality factor, a character set or Differences in its content type, such as
`charset=utf-8`, is read, but cannot be sent on -/
theorem C75_charset (env : Env) (ord : Dict HVal → Dict HVal) (rnd : Nat) (hs : List Hdr) (c : CType) (ps : List Part)
    (hw : ∀ h ∈ hs, h.WF) (hc : c.WF) (hp : ∀ p ∈ ps, p.WF) (hl : ps.length < 2 ^ 63)
    (n : Str) (hn : n ∈ [py! "Q", py! "Charset", py! "Differences"]) (v : Val) (hv : c.params.get n = some v) :
    ∃ m, decodeData (sent hs c ps) = .ok m ∧ m.headers.get (py! "Content-Type") = some (.ct c.media c.params) ∧
      List.Forall₂ SamePart ps m.dataParts ∧ ∀ o m', encode env ord rnd m ≠ .ok o m' := by
  obtain ⟨m, h1, h2, _, h4, h5⟩ := C46_partial hs c ps [] hw hc hp hl
  rw [List.append_nil] at h1
  refine ⟨m, h1, h2, h4, fun o m' he => ?_⟩
  obtain ⟨_, x, _, _, hx, _⟩ := encode_carries h2 he
  exact C43_charset _ _ n hn v (Dict.mem_of_get hv) x hx

theorem params_foldl_ok (ps : List Param) (d : Dict Val) (hd : d.Ok) : (ps.foldl (fun d p => d.set p.key p.value) d).Ok := by
  induction ps generalizing d with
  | nil => exact hd
  | cons p r ih => exact ih _ (hd.set _ _)

/-- with any other parameters it is read as well, but what is then sent as its content type, if it can be sent at all, is
never read as the content type that was received: at most half of the parameters are found -/
theorem C75_parameters (env : Env) (ord : Dict HVal → Dict HVal) (rnd : Nat) (hs : List Hdr) (c : CType) (ps : List Part)
    (hw : ∀ h ∈ hs, h.WF) (hc : c.WF) (hp : ∀ p ∈ ps, p.WF) (hl : ps.length < 2 ^ 63) (hne : c.params ≠ []) :
    ∃ m, decodeData (sent hs c ps) = .ok m ∧ m.headers.get (py! "Content-Type") = some (.ct c.media c.params) ∧
      ∀ o m', encode env ord rnd m = .ok o m' →
        ∃ pre x b, o = pre ++ (0x84 :: x) ++ b ∧ Carries c.media c.params x ∧ encodeMessageBody env ord m = .ok b ∧
          ∀ t d s', decodeContentTypeValue ⟨x ++ b, 0⟩ = .ok (t, d) s' →
            2 * d.length ≤ c.params.length ∧ ¬ ∀ n, d.get n = c.params.get n := by
  obtain ⟨m, h1, h2, _, _, _⟩ := C46_partial hs c ps [] hw hc hp hl
  rw [List.append_nil] at h1
  refine ⟨m, h1, h2, fun o m' he => ?_⟩
  obtain ⟨pre, x, b, h3, h4, h5⟩ := encode_carries h2 he
  have hk : c.params.Ok := by
    cases c with
    | constrained m => exact absurd rfl hne
    | general m qs => exact params_foldl_ok qs [] (by unfold Dict.Ok; decide)
  exact ⟨pre, x, b, h3, h4, h5, fun t d s' hd => C43_never _ _ x hk hne h4 b t d s' hd⟩

/-! a message with a character set and one with a presentation -/

def charsetType : CType := .general (.known 3 (py! "text/plain")) [.charset (.short 106) (py! "utf-8")]
def startType : CType := .general (.known 51 (py! "application/vnd.wap.multipart.related")) [.start (py! "<0000>"),
  .relatedType (py! "application/smil")]

theorem charsetType_wf : charsetType.WF := by
  refine ⟨⟨by decide, by decide +kernel⟩, ?_, by decide +kernel⟩
  intro p hp
  rw [List.mem_singleton.1 hp]
  exact ⟨(by decide : (106 : Nat) < 128), by decide +kernel⟩

theorem startType_wf : startType.WF := by
  refine ⟨⟨by decide, by decide +kernel⟩, ?_, by decide +kernel⟩
  intro p hp
  simp only [List.mem_cons, List.not_mem_nil, or_false] at hp
  rcases hp with rfl | rfl
  · show (0 : Nat) ∉ _; decide
  · show IsAsciiText _
    unfold IsAsciiText
    decide

example := C75_charset sampleEnv id 1 plainHeaders charsetType sampleParts plainHeaders_wf charsetType_wf sampleParts_wf
  (by decide) (py! "Charset") (by decide) (.str (py! "utf-8")) (by decide +kernel)
example := C75_parameters sampleEnv id 1 plainHeaders startType sampleParts plainHeaders_wf startType_wf sampleParts_wf
  (by decide) (by decide +kernel)
/-- it can be sent -/
example : ∃ m, decodeData (sent plainHeaders startType sampleParts) = .ok m ∧ ∃ o m', encode sampleEnv id 1 m = .ok o m' := by
  have h : (match decodeData (sent plainHeaders startType sampleParts) with
    | .ok m => match encode sampleEnv id 1 m with | .ok _ _ => true | .err _ _ => false
    | .error _ => false) = true := by decide +kernel
  split at h
  · rename_i m hm
    split at h
    · rename_i o m' ho
      exact ⟨m, hm, o, m', ho⟩
    · cases h
  · cases h

end Verif.Props

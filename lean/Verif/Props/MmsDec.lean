import Verif.Proofs.Mms3
/-!
# Properties of decoding conformant MMS messages (C40 continued, C45, C46, C58 decoding, C63)

`Hdr`, `CType`, `Part` of `Verif.Spec.Mms` are what a conformant sender writes: `enc` its octets, `name`, `value` its
meaning, `Conf` conformance, `WF` conformance without the forms listed in the refutations below.
-/
set_option autoImplicit false

namespace Verif.Props
open Verif Verif.Mms Verif.Spec.Mms
open Verif.Spec.Wsp (IsToken text)

/-! ### C40 encoded strings and From -/

/-- the full property for Encoded-string-values: Subject, To, Cc, Bcc, Response-Text -/
def C40_encoded_full : Prop := ∀ s : List Nat, 0 ∉ s → s.head? ≠ some 127 →
    ∃ l : List Nat, encodeEncodedStringValue (.v (.str s)) = .ok (toInts l) ∧
      ∀ rest, decodeEncodedStringValue ⟨l ++ rest, 0⟩ = .ok s ⟨rest, 0⟩

/-- the empty string is read as a length followed by a character set -/
theorem C40_encoded_refuted : ¬ C40_encoded_full := by
  intro h
  obtain ⟨l, h1, h2⟩ := h [] (by decide) (by decide)
  have he : encodeEncodedStringValue (.v (.str [])) = .ok (toInts [0]) := by decide
  rw [he] at h1
  injection h1 with h1
  have hl : l = [0] := (toInts_inj h1).symm
  have h3 := h2 [132, 65, 0]
  rw [hl] at h3
  revert h3
  decide +kernel

/-- strings that start with a character from 32 on, other than 127, round trip.  Missing: the empty string and strings
that start with a control character, whose first octet is taken for a length. -/
theorem C40_encoded_partial (s : List Nat) (h0 : 0 ∉ s) (c : Nat) (hc : s.head? = some c) (h1 : 32 ≤ c) (h2 : c ≠ 127) :
    ∃ l : List Nat, encodeEncodedStringValue (.v (.str s)) = .ok (toInts l) ∧
      ∀ rest, decodeEncodedStringValue ⟨l ++ rest, 0⟩ = .ok s ⟨rest, 0⟩ :=
  ⟨s ++ [0], by rw [← textOctets_eq]; rfl, encodedString_raw h0 hc h1 h2⟩

example := C40_encoded_partial (py! "+123/TYPE=PLMN") (by decide) 43 rfl (by decide) (by decide)

/-- a sender address round trips under the same condition -/
theorem C40_from_partial (s : List Nat) (h0 : 0 ∉ s) (c : Nat) (hc : s.head? = some c) (h1 : 32 ≤ c) (h2 : c ≠ 127) :
    ∃ l : List Nat, encodeFromValue (.v (.str s)) = .ok (toInts l) ∧
      ∀ rest, decodeFromValue ⟨l ++ rest, 0⟩ = .ok s ⟨rest, 0⟩ := by
  refine ⟨sized (128 :: (s ++ [0])), ?_, ?_⟩
  · unfold encodeFromValue
    have hne : s.length ≠ 0 := by
      cases s with
      | nil => cases hc
      | cons _ _ => simp
    simp only [hlen, bind, Except.bind, if_neg hne, encodeEncodedStringValue, encodeTextStringH, encodeTextString,
      textOctets_eq]
    congr 1
    have := encodeValueLength_eq (128 :: (s ++ [0])).length
    rw [show ((toInts (s ++ [0])).length : Int) + 1 = ((128 :: (s ++ [0])).length : Int) by simp [toInts], this]
    simp [sized, toInts]
  · intro rest
    exact fromAddr_ok (encodedString_raw h0 hc h1 h2 rest)

example := C40_from_partial (py! "+123/TYPE=PLMN") (by decide) 43 rfl (by decide) (by decide)

/-- the empty sender asks the network to insert it, and is read as '<not inserted>' -/
theorem C40_from_empty : encodeFromValue (.v (.str [])) = .ok (toInts [1, 129]) ∧
    ∀ rest, decodeFromValue ⟨[1, 129] ++ rest, 0⟩ = .ok (py! "<not inserted>") ⟨rest, 0⟩ :=
  ⟨by decide, fun rest => fromInsert_ok rest⟩

example : (0 : Nat) ∉ (py! "+123/TYPE=PLMN" : List Nat) ∧ (py! "+123/TYPE=PLMN" : List Nat).head? = some 43 := by decide

/-! ### C45 conformant headers -/

/-- the headers a decoded message has even if they are not in the data -/
def defaultHeader (n : List Nat) : Option HVal :=
  if n = py! "Message-Type" then some (.v (.str (py! "m-send-req")))
  else if n = py! "Transaction-Id" then some (.v (.str (py! "1234")))
  else if n = py! "MMS-Version" then some (.v (.str (py! "1.0")))
  else if n = py! "Content-Type" then some (.ct (py! "application/vnd.wap.multipart.mixed") [])
  else none

/-- the value header `n` must have after the headers `hs`: the last one given, else the default -/
def expected (hs : List Hdr) (n : List Nat) : Option HVal :=
  match lastValue hs n with
  | some v => some v
  | none => defaultHeader n

theorem defaults_eq (n : Str) : Msg.new.headers.get n = defaultHeader n := by
  unfold Msg.new defaultHeader
  simp only [Dict.get, @eq_comm _ _ n]

/-- the full property: conformant headers in any order followed by the Content-Type and any body -/
def C45_full : Prop := ∀ (hs : List Hdr) (c : CType) (body : List Nat), (∀ h ∈ hs, h.Conf) → c.Conf →
    ∃ d, decodeMessageHeader ⟨hs.flatMap Hdr.enc ++ (0x84 :: c.enc ++ body), 0⟩ = .ok d ⟨body, 0⟩ ∧
      d.get (py! "Content-Type") = some (.ct c.media c.params) ∧
      ∀ n, n ≠ py! "Content-Type" → d.get n = expected hs n

/-- a relative Delivery-Time given as a Short-integer is not read, and what follows is misread -/
theorem C45_refuted : ¬ C45_full := by
  intro h
  obtain ⟨d, h1, h2, h3⟩ := h [.deliveryRelShort 5]
    (.constrained (.known 35 (py! "application/vnd.wap.multipart.mixed"))) [0]
    (by intro x hx; rw [List.mem_singleton] at hx; subst hx; show (5 : Nat) < 128; decide)
    (by show mediaTypes[35]? = some _; decide +kernel)
  have he : decodeMessageHeader ⟨[Hdr.deliveryRelShort 5].flatMap Hdr.enc ++ (0x84 ::
      (CType.constrained (.known 35 (py! "application/vnd.wap.multipart.mixed"))).enc ++ [0]), 0⟩ =
      .ok (Msg.new.headers.set (py! "Age") (.v (.str [132, 163]))) ⟨[], 0⟩ := by decide +kernel
  rw [he] at h1
  injection h1 with _ h1
  injection h1 with h1
  cases h1

/-- an MMS-Version without minor number (minor field 15) is read as "<major>.15" -/
theorem C45_version_major (major : Nat) (h : major ≤ 7) (rest : List Nat) :
    decodeVersionValue ⟨Spec.Wsp.shortInt (16 * major + 15) ++ rest, 0⟩ = .ok (dotted major 15) ⟨rest, 0⟩ := by
  unfold Spec.Wsp.shortInt
  rw [List.cons_append, List.nil_append, decodeVersionValue_octet (by omega) (by omega), dotted_eq,
    show (128 + (16 * major + 15) - 128) / 16 = major by omega, show (128 + (16 * major + 15)) % 16 = 15 by omega]

example := C45_version_major 1 (by decide) [7]

/-- an empty Subject swallows the next headers: here the Subject comes out as the octet of the content type -/
theorem C45_empty_subject : decodeMessageHeader ⟨(Hdr.str .subject []).enc ++ [0x84, 0xa3, 0], 0⟩ =
    .ok (Msg.new.headers.set (py! "Subject") (.v (.str [0xa3]))) ⟨[], 0⟩ := by decide +kernel

/-- an example meeting the hypotheses of `C45_partial` and `C46_partial` -/
def sampleHeaders : List Hdr := [.messageType 4, .transactionId (py! "t1"), .version 1 2,
  .date ⟨2026, 11, 16, 0, 0, 0, none⟩ [0x6a, 0xfa, 0x47, 0x80], .fromAddr (py! "+44123/TYPE=PLMN"),
  .strCs .subject (.short 106) (py! "Hello"), .bool .readReply true, .expiryRel (.long [1, 0x51, 0x80])]

def sampleParts : List Part := [
  ⟨.general (.known 3 (py! "text/plain")) [.charset (.short 106) (py! "utf-8"), .name (py! "a.txt")],
    [.app (py! "X-Foo") (py! "bar")], [72, 105]⟩,
  ⟨.constrained (.text (py! "application/smil")), [], []⟩]

theorem sampleHeaders_wf : ∀ h ∈ sampleHeaders, h.WF := by
  intro h hh
  simp only [sampleHeaders, List.mem_cons, List.not_mem_nil, or_false] at hh
  rcases hh with rfl | rfl | rfl | rfl | rfl | rfl | rfl | rfl
  · show (4 : Nat) < 7; decide
  · show (0 : Nat) ∉ _; decide
  · show 1 ≤ 1 ∧ 1 ≤ 7 ∧ 2 ≤ 14; decide
  · refine ⟨⟨by decide, by decide⟩, ⟨by decide, by decide, by decide, by decide +kernel, ?_⟩, rfl, by decide, ?_⟩
    · decide
    · decide +kernel
  · exact ⟨by decide, 43, rfl, by decide⟩
  · exact ⟨by show (106 : Nat) < 128; decide, by show (0 : Nat) ∉ _; decide⟩
  · trivial
  · exact ⟨by decide, by decide⟩

theorem sampleParts_wf : ∀ p ∈ sampleParts, p.WF := by
  intro p hp
  simp only [sampleParts, List.mem_cons, List.not_mem_nil, or_false] at hp
  rcases hp with rfl | rfl
  · refine ⟨⟨⟨by decide, by decide +kernel⟩, ?_, by decide +kernel⟩, ?_, by decide +kernel, by decide +kernel⟩
    · intro q hq
      simp only [List.mem_cons, List.not_mem_nil, or_false] at hq
      rcases hq with rfl | rfl
      · exact ⟨by show (106 : Nat) < 128; decide, by decide⟩
      · show (0 : Nat) ∉ _; decide
    · intro q hq
      simp only [List.mem_cons, List.not_mem_nil, or_false] at hq
      subst hq
      exact ⟨⟨by decide, by decide⟩, by show (0 : Nat) ∉ _; decide⟩
  · exact ⟨⟨by decide, 97, rfl, by decide⟩, by simp, by decide +kernel, by decide +kernel⟩

/-- every sequence of headers in `Hdr.WF`, in any order and number, then Content-Type: exactly these values, the last
occurrence of a name counting, on top of the defaults, and the body untouched.  Missing compared with `C45_full`:
relative Delivery-Time as Short-integer, versions without minor number, Encoded-strings that are empty or start with
a control character, and content types outside `CType.WF` (see C46, C63). -/
theorem C45_partial (hs : List Hdr) (c : CType) (body : List Nat) (hw : ∀ h ∈ hs, h.WF) (hc : c.WF) :
    ∃ d, decodeMessageHeader ⟨hs.flatMap Hdr.enc ++ (0x84 :: c.enc ++ body), 0⟩ = .ok d ⟨body, 0⟩ ∧
      d.get (py! "Content-Type") = some (.ct c.media c.params) ∧
      ∀ n, n ≠ py! "Content-Type" → d.get n = expected hs n := by
  refine ⟨_, messageHeader_ct hs hw hc body, ?_, ?_⟩
  · rw [dict_get_set, if_pos rfl]
  · intro n hn
    rw [dict_get_set, if_neg (fun e => hn e.symm), setAll_get, defaults_eq]
    rfl

example := C45_partial sampleHeaders (.constrained (.known 35 (py! "application/vnd.wap.multipart.mixed"))) [7] sampleHeaders_wf
  ⟨by decide, by decide +kernel⟩

/-- messages that end without Content-Type, such as notifications: the same, and no parts -/
theorem C45_no_content_type_partial (hs : List Hdr) (hw : ∀ h ∈ hs, h.WF) :
    ∃ m, decodeData (hs.flatMap Hdr.enc) = .ok m ∧ m.dataParts = [] ∧ m.pages = [] ∧
      ∀ n, m.headers.get n = expected hs n := by
  refine ⟨_, decodeData_end hs hw, rfl, rfl, ?_⟩
  intro n
  simp only []
  rw [setAll_get, defaults_eq]
  rfl

example := C45_no_content_type_partial sampleHeaders sampleHeaders_wf

/-- a permutation of headers with distinct names gives the same header values -/
theorem C45_order_partial (hs hs' : List Hdr) (hw : ∀ h ∈ hs, h.WF) (hperm : hs.Perm hs')
    (hnd : (hs.map Hdr.name).Nodup) : ∃ m m', decodeData (hs.flatMap Hdr.enc) = .ok m ∧
      decodeData (hs'.flatMap Hdr.enc) = .ok m' ∧ ∀ n, m.headers.get n = m'.headers.get n := by
  refine ⟨_, _, decodeData_end hs hw, decodeData_end hs' (fun h hh => hw h (hperm.mem_iff.2 hh)), ?_⟩
  intro n
  simp only []
  rw [setAll_get, setAll_get, lastValue_perm hperm hnd]

example := C45_order_partial sampleHeaders sampleHeaders.reverse sampleHeaders_wf (List.reverse_perm _).symm (by decide +kernel)

/-! ### C46 conformant multipart bodies -/

/-- a decoded part is the part that was sent: content type, parameters, the other headers (last occurrence counting)
and the data, as the `data` property, `len()`, `headers` and `content_type_parameters` show them -/
structure SamePart (p : Part) (d : DataPart) : Prop where
  params : d.ctParams = p.ctype.params
  headers : ∀ n, d.headers.get n = match lastPartValue p.headers n with
    | some v => some (.v (.str v))
    | none => if n = py! "Content-Type" then some (.ct p.ctype.media p.ctype.params) else none
  data : ∀ env, d.readData env = .ok p.data
  len : ∀ env, d.len env = .ok p.data.length

/-- the full property: headers, Content-Type, then a multipart body with any number and size of parts (below 2^63) -/
def C46_full : Prop := ∀ (hs : List Hdr) (c : CType) (ps : List Part) (rest : List Nat), (∀ h ∈ hs, h.WF) → c.Conf →
    (∀ p ∈ ps, p.Conf) → ps.length < 2 ^ 63 →
    ∃ m, decodeData (hs.flatMap Hdr.enc ++ (0x84 :: c.enc ++ (multipart ps ++ rest))) = .ok m ∧
      m.headers.get (py! "Content-Type") = some (.ct c.media c.params) ∧ m.pages = [] ∧
      List.Forall₂ SamePart ps m.dataParts

theorem forall₂_map {α β : Type} {R : α → β → Prop} {f : α → β} (h : ∀ a, R a (f a)) (l : List α) :
    List.Forall₂ R l (l.map f) := by
  induction l with
  | nil => exact .nil
  | cons a l ih => exact .cons (h a) ih

/-- everything in `WF`.  Missing compared with `C46_full`: the four parameter forms and the part headers refuted below,
and the content type 14 (C63). -/
theorem C46_partial (hs : List Hdr) (c : CType) (ps : List Part) (rest : List Nat) (hw : ∀ h ∈ hs, h.WF) (hc : c.WF)
    (hp : ∀ p ∈ ps, p.WF) (hl : ps.length < 2 ^ 63) :
    ∃ m, decodeData (hs.flatMap Hdr.enc ++ (0x84 :: c.enc ++ (multipart ps ++ rest))) = .ok m ∧
      m.headers.get (py! "Content-Type") = some (.ct c.media c.params) ∧ m.pages = [] ∧
      List.Forall₂ SamePart ps m.dataParts ∧ ∀ n, n ≠ py! "Content-Type" → m.headers.get n = expected hs n := by
  refine ⟨_, decodeData_ok hs hw hc ps hp hl rest, ?_, rfl, ?_, ?_⟩
  · simp only []
    rw [dict_get_set, if_pos rfl]
  · simp only []
    refine forall₂_map ?_ ps
    intro p
    refine ⟨rfl, ?_, fun _ => rfl, fun _ => rfl⟩
    intro n
    simp only [partOf]
    rw [setApps_get]
    simp only [Dict.get, @eq_comm _ _ n]
    rfl
  · intro n hn
    simp only []
    rw [dict_get_set, if_neg (fun e => hn e.symm), setAll_get, defaults_eq]
    rfl

example := C46_partial sampleHeaders (.constrained (.known 35 (py! "application/vnd.wap.multipart.mixed"))) sampleParts []
  sampleHeaders_wf ⟨by decide, by decide +kernel⟩ sampleParts_wf (by decide)

/-- the charset "any" (octet 128) is read as charset "0" -/
theorem C46_refuted : ¬ C46_full := by
  intro h
  obtain ⟨m, h1, _, _, h2⟩ := h [] (.constrained (.known 35 (py! "application/vnd.wap.multipart.mixed")))
    [⟨.general (.known 3 (py! "text/plain")) [.charsetAny], [], [72]⟩] [] (by simp)
    (by show mediaTypes[35]? = some _; decide +kernel)
    (by
      intro p hp
      rw [List.mem_singleton] at hp
      subst hp
      refine ⟨⟨?_, ?_, ?_⟩, ?_, ?_, ?_⟩
      · show mediaTypes[3]? = some _; decide +kernel
      · intro q hq; rw [List.mem_singleton] at hq; subst hq; trivial
      · decide +kernel
      · simp
      · decide +kernel
      · decide +kernel) (by decide)
  have he : decodeData (([] : List Hdr).flatMap Hdr.enc ++ (0x84 ::
      (CType.constrained (.known 35 (py! "application/vnd.wap.multipart.mixed"))).enc ++
      (multipart [⟨.general (.known 3 (py! "text/plain")) [.charsetAny], [], [72]⟩] ++ []))) =
      .ok { Msg.new with dataParts := [{
        ctParams := [(py! "Charset", .str (py! "0"))]
        headers := [(py! "Content-Type", .ct (py! "text/plain") [(py! "Charset", .str (py! "0"))])]
        filename := none, data := some [72] }] } := by decide +kernel
  rw [he] at h1
  injection h1 with h1
  subst h1
  cases h2 with
  | cons h2 _ =>
    have := h2.params
    revert this
    decide +kernel

/-- a parameter without value (octet 0) is read as the number 0 -/
theorem C46_no_value : decodeContentTypeValue ⟨(CType.general (.known 3 (py! "text/plain")) [.otherNone (py! "foo")]).enc, 0⟩
    = .ok (py! "text/plain", [(py! "foo", .int 0)]) ⟨[], 0⟩ := by decide +kernel

/-- a quoted string parameter keeps the quote and ends at the first space -/
theorem C46_quoted : decodeContentTypeValue
    ⟨(CType.general (.known 3 (py! "text/plain")) [.otherQuoted (py! "foo") (py! "a b")]).enc, 0⟩
    = .ok (py! "text/plain", [(py! "foo", .str (py! "\"a"))]) ⟨[], 0⟩ := by decide +kernel

/-- the Differences parameter makes the decoder fail -/
theorem C46_differences : decodeContentTypeValue
    ⟨(CType.general (.known 3 (py! "text/plain")) [.differences (py! "foo")]).enc, 0⟩
    = .err .attributeError ⟨[], 0⟩ := by decide +kernel

/-- a part whose Content-Location has its well-known number: content type and data are right, the location is lost -/
theorem C46_location_lost (c : CType) (hc : c.WF) (t : List Nat) (ht : IsToken t) (data rest : List Nat)
    (hl : (Part.mk c [.location t] data).head.length < 2 ^ 63) (hd : data.length < 2 ^ 63) :
    ∃ d, decodePart ⟨(Part.mk c [.location t] data).enc ++ rest, 0⟩ = .ok d ⟨rest, 0⟩ ∧
      d.ctParams = c.params ∧ d.headers.get (py! "Content-Type") = some (.ct c.media c.params) ∧
      d.data = some data ∧ d.headers.get (py! "Content-Location") = none :=
  ⟨_, partLocation hc ht data rest hl hd, rfl, rfl, rfl, rfl⟩

example : ∃ m, decodeData (sampleHeaders.flatMap Hdr.enc ++ (0x84 ::
      (CType.constrained (.known 35 (py! "application/vnd.wap.multipart.mixed"))).enc ++ (multipart sampleParts ++ [])))
      = .ok m ∧ List.Forall₂ SamePart sampleParts m.dataParts := by
  obtain ⟨m, h1, _, _, h2, _⟩ := C46_partial sampleHeaders
    (.constrained (.known 35 (py! "application/vnd.wap.multipart.mixed"))) sampleParts [] sampleHeaders_wf
    ⟨by decide, by decide +kernel⟩ sampleParts_wf (by decide)
  exact ⟨m, h1, h2⟩

example : (sampleHeaders.map Hdr.name).Nodup := by decide +kernel

/-- the forms that are read are conformant -/
theorem hdr_conf {h : Hdr} (hw : h.WF) : h.Conf := by
  cases h <;> first | exact hw | exact hw.1 | exact hw.elim

/-! ### C63 registered content type numbers -/

/-- the full property: every registered number is read as its media type -/
def C63_full : Prop := ∀ (n : Nat) (s rest : List Nat), mediaTypes[n]? = some s →
    decodeContentTypeValue ⟨(128 + n) :: rest, 0⟩ = .ok (s, []) ⟨rest, 0⟩

/-- number 14 is read as 'multipart/byterantes' -/
theorem C63_refuted : ¬ C63_full := by
  intro h
  have := h 14 (py! "multipart/byteranges") [] (by decide +kernel)
  revert this
  decide +kernel

/-- all other numbers are right -/
theorem C63_partial (n : Nat) (h14 : n ≠ 14) (s : List Nat) (h : mediaTypes[n]? = some s) (rest : List Nat) :
    decodeContentTypeValue ⟨(128 + n) :: rest, 0⟩ = .ok (s, []) ⟨rest, 0⟩ :=
  decodeContentTypeValue_constrained (decodeConstrainedMedia_known (media_known ⟨h14, h⟩).1 rest)

example := C63_partial 35 (by decide) (py! "application/vnd.wap.multipart.mixed") (by decide +kernel)

/-- and each media type other than 14 is sent with its registered number -/
theorem C63_encode_partial (n : Nat) (h14 : n ≠ 14) (s : List Nat) (h : mediaTypes[n]? = some s) :
    encodeContentTypeValue s [] = .ok (ints [((128 + n : Nat) : Int)]) := by
  have hn := (media_known ⟨h14, h⟩)
  have hall : ∀ i : Fin 76, i.val ≠ 14 → ∀ s, wellKnownContentTypes[i.val]? = some s →
      indexOf wellKnownContentTypes s = some i.val := by
    have : ∀ i : Fin 76, i.val ≠ 14 → (wellKnownContentTypes[i.val]?).elim true
        (fun s => indexOf wellKnownContentTypes s == some i.val) = true := by decide +kernel
    intro i hi s hs
    have := this i hi
    rw [hs] at this
    simpa using this
  have := encodeContentTypeValue_known (hall ⟨n, hn.2⟩ h14 s hn.1)
  rw [this]
  rfl

example : mediaTypes[35]? = some (py! "application/vnd.wap.multipart.mixed") ∧ mediaTypes.length = 76 := by decide +kernel

/-! ### C58 unknown status octets -/

/-- the full property: an octet outside the table gives the documented name 'Unrecognised' (Status) or
'Error-unspecified' (Response-Status), and an unknown status name is sent as 'Unrecognised' (0x84) -/
def C58_full : Prop :=
  (∀ (b : Nat) (rest : List Nat), b < 256 → ¬ (128 ≤ b ∧ b ≤ 132) →
    decodeStatusValue ⟨b :: rest, 0⟩ = .ok (.str (py! "Unrecognised")) ⟨rest, 0⟩) ∧
  (∀ (b : Nat) (rest : List Nat), b < 256 → ¬ (128 ≤ b ∧ b ≤ 136) →
    decodeResponseStatusValue ⟨b :: rest, 0⟩ = .ok (.str (py! "Error-unspecified")) ⟨rest, 0⟩) ∧
  (∀ s : Str, s ∉ statusNames → headerOctets (py! "Status") (.v (.str s)) = .ok [0x95, 0x84])

theorem C58_refuted : ¬ C58_full := by
  rintro ⟨h, _, _⟩
  have := h 0 [] (by decide) (by decide)
  revert this
  decide +kernel

/-- known octets give their names; every other octet gives the number of the fallback instead of its name -/
theorem C58_status_partial (b : Nat) (rest : List Nat) : decodeStatusValue ⟨b :: rest, 0⟩ =
    .ok (if 128 ≤ b ∧ b ≤ 132 then .str (statusNames.getD (b - 128) []) else .int 0x84) ⟨rest, 0⟩ := by
  by_cases h : 128 ≤ b ∧ b ≤ 132
  · rw [if_pos h]
    have := status_ok (i := b - 128) (by omega) rest
    rw [show 128 + (b - 128) = b by omega] at this
    exact this
  · rw [if_neg h]
    have hl : lookupNum statusValues b = none := by
      simp only [statusValues, lookupNum]
      repeat rw [if_neg (by omega)]
    unfold decodeStatusValue
    rw [M.bind_ok (next_cons _ _ _), hl]
    rfl

theorem C58_response_status_partial (b : Nat) (rest : List Nat) : decodeResponseStatusValue ⟨b :: rest, 0⟩ =
    .ok (if 128 ≤ b ∧ b ≤ 136 then .str (responseNames.getD (b - 128) []) else .int 0x81) ⟨rest, 0⟩ := by
  by_cases h : 128 ≤ b ∧ b ≤ 136
  · rw [if_pos h]
    have := responseStatus_ok (i := b - 128) (by omega) rest
    rw [show 128 + (b - 128) = b by omega] at this
    exact this
  · rw [if_neg h]
    have hl : lookupNum responseStatusValues b = none := by
      simp only [responseStatusValues, lookupNum]
      repeat rw [if_neg (by omega)]
    unfold decodeResponseStatusValue
    rw [M.bind_ok (preview_zero _ _), M.bind_ok (next_cons _ _ _), hl]
    rfl

/-- known status names are sent as their octet; every other name makes encoding fail with TypeError -/
theorem C58_encode_partial (s : Str) : headerOctets (py! "Status") (.v (.str s)) =
    (match indexOf statusNames s with
     | some i => .ok [0x95, 128 + i]
     | none => .error .typeError) := by
  have : ∀ s : Str, lookupName statusValues s = (indexOf statusNames s).map (128 + ·) := by
    intro s
    simp only [statusValues, statusNames, lookupName, indexOf]
    repeat' split
    all_goals simp_all
  unfold headerOctets encodeHeader
  have hf : findField mmsFieldNames (py! "Status") = some (0x15, .statusValue) := by decide +kernel
  rw [hf]
  simp only [encodeMmsValue, encodeStatusValue, this]
  cases h : indexOf statusNames s with
  | none => rfl
  | some i =>
    have hi : i < 5 := by
      have := indexOf_lt h
      simpa [statusNames] using this
    simp only [Option.map_some]
    have : ∀ i : Fin 5, (do
        let a ← encodeShortInteger ((0x15 : Nat) : Int)
        let b ← (.ok [.int ((128 + i.val : Nat) : Int)] : Py (List Item))
        toOctets (ints a ++ b) : Py (List Nat)) = .ok [0x95, 128 + i.val] := by decide
    exact this ⟨i, hi⟩

example : decodeStatusValue ⟨[0x99], 0⟩ = .ok (.int 0x84) ⟨[], 0⟩ ∧ (py! "Lost" : Str) ∉ statusNames := by decide +kernel

end Verif.Props

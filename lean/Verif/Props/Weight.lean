import Verif.Proofs.Weight
import Verif.Proofs.WeightSms
import Verif.Props.Slices
/-!
# C118: what is decoded is not much larger than what arrived
-/
set_option autoImplicit false

namespace Verif.Props
open Verif Verif.Mms Verif.Deliver

/-- the length of data or of a string, 0 for None -/
def sizeOfData : Option (List Nat) → Nat
  | some d => d.length
  | none => 0

theorem weight_parts (l : List DataPart) : Mms.Weight.parts l =
    (l.map fun p => Spec.Weight.headers p.headers).sum + 80 * (l.map fun p => sizeOfData p.data).sum := by
  induction l with
  | nil => rfl
  | cons p l ih =>
    have : Mms.Weight.parts (p :: l) = Mms.Weight.part p + Mms.Weight.parts l := by simp [Mms.Weight.parts]
    rw [this, ih]
    have : Mms.Weight.part p = Spec.Weight.headers p.headers + 80 * sizeOfData p.data := by
      unfold Mms.Weight.part sizeOfData
      cases p.data <;> rfl
    rw [this]
    simp only [List.map_cons, List.sum_cons]
    omega

theorem entries_length {ds : List (List Nat)} {l rest : List Nat} (h : Spec.Parts.Entries ds l rest) :
    2 * ds.length + (ds.map List.length).sum + rest.length ≤ l.length := by
  induction h with
  | nil => simp
  | cons ha hb _ ih =>
    obtain ⟨_, _, rfl, _⟩ := ha
    obtain ⟨_, _, rfl, _⟩ := hb
    simp only [List.length_append, List.length_cons, List.map_cons, List.sum_cons, List.length_nil]
    omega

theorem sizes_of_data : ∀ (l : List DataPart) (ds : List (List Nat)), l.map DataPart.data = ds.map some →
    l.length = ds.length ∧ (l.map fun p => sizeOfData p.data).sum = (ds.map List.length).sum
  | [], [], _ => ⟨rfl, rfl⟩
  | [], _ :: _, h => by simp at h
  | _ :: _, [], h => by simp at h
  | p :: l, d :: ds, h => by
    simp only [List.map_cons, List.cons.injEq] at h
    obtain ⟨h1, h2⟩ := sizes_of_data l ds h.2
    refine ⟨by simp [h1], ?_⟩
    simp only [List.map_cons, List.sum_cons, h2, h.1]
    rfl

/-- whatever octets are decoded: the data of all parts together are no longer than what was decoded, and each part takes
two octets more, so that a short message cannot have many parts -/
theorem C118_parts (data : List Nat) (hb : ∀ x ∈ data, x < 256) (m : Msg) (h : decodeData data = .ok m) :
    2 * m.dataParts.length + (m.dataParts.map fun p => sizeOfData p.data).sum ≤ data.length := by
  by_cases hp : m.dataParts = []
  · rw [hp]
    exact Nat.zero_le _
  · obtain ⟨head, cnt, body, rest, ds, e, _, h2, h3⟩ := C76_entries data hb m h hp
    obtain ⟨h4, h5⟩ := sizes_of_data _ _ h2
    have h6 := entries_length h3
    rw [h4, h5, e]
    simp only [List.length_append]
    omega

/-- whatever octets are decoded: names and values of all headers, those of the parts included, have at most 80 characters
for every octet that is not data of a part, besides the 101 of the headers every message starts with -/
theorem C118_headers (data : List Nat) (hb : ∀ x ∈ data, x < 256) (m : Msg) (h : decodeData data = .ok m) :
    Spec.Weight.headers m.headers + (m.dataParts.map fun p => Spec.Weight.headers p.headers).sum ≤
      80 * (data.length - (m.dataParts.map fun p => sizeOfData p.data).sum) + 101 := by
  have h1 := Mms.Weight.decodeData_wt hb h
  rw [weight_parts] at h1
  have h2 := C118_parts data hb m h
  have h3 : Spec.Weight.headers Msg.new.headers = 101 := by decide +kernel
  omega

/-- whatever PDU is received: service centre, number and text together are no longer than the PDU; those of a
status report, whose number and text are made up by the code, by at most 41 characters longer -/
theorem C118_sms (pdu : Str) (strict : Bool) (d : State) (h : smsDeliver pdu strict = .ok d) :
    (d.sr = none → sizeOfData d.csca + sizeOfData d.number + sizeOfData d.text ≤ pdu.length) ∧
    sizeOfData d.csca + sizeOfData d.number + sizeOfData d.text ≤ pdu.length + 41 := by
  obtain ⟨h1, h2⟩ := Deliver.Weight.smsDeliver_le h
  have e : ∀ o, Deliver.Weight.olen o = sizeOfData o := fun o => by cases o <;> rfl
  unfold Deliver.Weight.total at h1 h2
  rw [e, e, e] at h1 h2
  exact ⟨h2, h1⟩

/-- a message with two parts -/
def twoParts : List Nat := [0x8c, 0x84, 0x84, 0xa3, 2, 1, 2, 0x83, 104, 105, 1, 1, 0x83, 33]

example : ∃ m, decodeData twoParts = .ok m ∧ m.dataParts.length = 2 ∧ (m.dataParts.map fun p => sizeOfData p.data).sum = 3 ∧
    Spec.Weight.headers m.headers = 106 := ⟨_, rfl, by decide +kernel, by decide +kernel, by decide +kernel⟩

/-- headers can have more characters than the message has octets: two octets add 16 characters -/
example : ∃ m, decodeData [0x86, 0x80] = .ok m ∧ Spec.Weight.headers m.headers = 101 + 16 :=
  ⟨_, rfl, by decide +kernel⟩

/-- a text message -/
example : ∃ d, smsDeliver (py! "07914346466554F6040B914316565811F9000020602231404180084D3AE98B57A783") = .ok d ∧ d.sr = none ∧
    sizeOfData d.csca + sizeOfData d.number + sizeOfData d.text = 32 := ⟨_, rfl, by decide +kernel, by decide +kernel⟩

/-- a status report whose number and text are longer than its PDU -/
example : (py! "0006050081116011111111001160111111110000").length = 40 ∧
    ∃ d, smsDeliver (py! "0006050081116011111111001160111111110000") = .ok d ∧
    sizeOfData d.csca + sizeOfData d.number + sizeOfData d.text = 41 := ⟨by decide, _, rfl, by decide +kernel⟩

end Verif.Props

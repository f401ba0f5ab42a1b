import Verif.Proofs.Safe2
import Verif.Spec.Parts
/-!
# C76: the data of the parts are octets of the message
-/
set_option autoImplicit false

namespace Verif.Mms
open Verif.Spec.Parts

theorem uintVarLoop_octets (l : List Nat) (hb : ∀ x ∈ l, x < 256) (u n : Nat) (s' : It) (h : uintVarLoop u l = .ok n s') :
    ∃ ds x, l = ds ++ [x] ++ s'.rem ∧ (∀ d ∈ ds, 128 ≤ d) ∧ x < 128 ∧
      n = (ds ++ [x]).foldl (fun a d => a * 128 + d % 128) u := by
  induction l generalizing u with
  | nil => cases h
  | cons b l ih =>
    have hb' := hb b List.mem_cons_self
    have e : (u <<< 7) ||| (b &&& 0x7f) = u * 128 + b % 128 := by
      have h1 : b &&& 0x7f = b % 2 ^ 7 := Nat.and_two_pow_sub_one_eq_mod b 7
      rw [h1, ← Nat.shiftLeft_add_eq_or_of_lt (Nat.mod_lt _ (by decide)), Nat.shiftLeft_eq]
    unfold uintVarLoop at h
    rw [Nat.shiftRight_eq_div_pow] at h
    split at h
    · rename_i hc
      rw [e] at h
      obtain ⟨ds, x, h1, h2, h3, h4⟩ := ih (fun x hx => hb x (List.mem_cons_of_mem _ hx)) _ h
      refine ⟨b :: ds, x, by rw [h1]; rfl, ?_, h3, h4⟩
      intro d hd
      rcases List.mem_cons.1 hd with rfl | hd
      · omega
      · exact h2 d hd
    · rename_i hc
      injection h with h1 h2
      subst h1 h2
      exact ⟨[], b, rfl, by simp, by omega, e⟩

theorem decodeUintVar_octets {s s' : It} {n : Nat} (hb : ∀ x ∈ s.rem, x < 256) (h : decodeUintVar s = .ok n s') :
    ∃ o, s.rem = o ++ s'.rem ∧ IsUintVar o n := by
  obtain ⟨ds, x, h1, h2, h3, h4⟩ := uintVarLoop_octets _ hb _ _ _ h
  exact ⟨ds ++ [x], h1, ds, x, rfl, h2, h3, h4⟩

theorem decodePart_octets {s s' : It} {p : DataPart} (hb : ∀ x ∈ s.rem, x < 256) (h : decodePart s = .ok p s') :
    ∃ a b hdrs d, s.rem = a ++ b ++ hdrs ++ d ++ s'.rem ∧ IsUintVar a hdrs.length ∧ IsUintVar b d.length ∧
      p.data = some d := by
  unfold decodePart at h
  obtain ⟨hl, s1, h1, h⟩ := bind_ok_invM h
  obtain ⟨dl, s2, h2, h⟩ := bind_ok_invM h
  obtain ⟨_, s3, h3, h⟩ := bind_ok_invM h
  obtain ⟨ct, s4, h4, h⟩ := bind_ok_invM h
  obtain ⟨⟨m, ps, hd⟩, s5, h5, h⟩ := bind_ok_invM h
  obtain ⟨_, s6, h6, h⟩ := bind_ok_invM h
  obtain ⟨d, s7, h7, h⟩ := bind_ok_invM h
  injection h with hp hs
  subst hp hs
  obtain ⟨a, e1, ha⟩ := decodeUintVar_octets hb h1
  obtain ⟨b, e2, hb'⟩ := decodeUintVar_octets (fun x hx => hb x (by rw [e1]; exact List.mem_append_right _ hx)) h2
  have a3 := (xrangeCheck_state h3).1
  have a4 := nextN_count _ _ _ _ h4
  have a5 := onFresh_state h5
  have a6 := (xrangeCheck_state h6).1
  have a7 := nextN_count _ _ _ _ h7
  subst a3 a5 a6
  refine ⟨a, b, ct, d, ?_, by rw [a4.1]; exact ha, by rw [a7.1]; exact hb', rfl⟩
  rw [e1, e2, ← a4.2, ← a7.2]
  simp

theorem partLoop_octets (n : Nat) (acc : List DataPart) (s s' : It) (hb : ∀ x ∈ s.rem, x < 256) (l : List DataPart)
    (h : partLoop n acc s = .ok l s') : ∃ new ds, l = acc ++ new ∧ new.length = n ∧
      new.map DataPart.data = ds.map some ∧ Entries ds s.rem s'.rem := by
  induction n generalizing acc s with
  | zero =>
    injection h with h1 h2
    subst h1 h2
    exact ⟨[], [], by simp, rfl, rfl, .nil _⟩
  | succ n ih =>
    simp only [partLoop] at h
    obtain ⟨p, s1, h1, h⟩ := bind_ok_invM h
    obtain ⟨a, b, hdrs, d, e, ha, hb', hd⟩ := decodePart_octets hb h1
    obtain ⟨new, ds, e1, e2, e3, e4⟩ := ih _ _ (fun x hx => hb x (by rw [e]; exact List.mem_append_right _ hx)) h
    exact ⟨p :: new, d :: ds, by rw [e1]; simp, by simp [e2], by simp [hd, e3], by rw [e]; exact .cons ha hb' e4⟩

end Verif.Mms

namespace Verif.Props
open Verif Verif.Mms
open Verif.Spec.Parts

/-- for any octets that decode to a message with parts: after the headers come the number of the parts and, one after
the other, entries that hold exactly the data of the parts in their order, each preceded by its length -/
theorem C76_entries (data : List Nat) (hb : ∀ x ∈ data, x < 256) (m : Msg) (h : decodeData data = .ok m)
    (hp : m.dataParts ≠ []) : ∃ head cnt body rest ds, data = head ++ cnt ++ body ∧ IsUintVar cnt m.dataParts.length ∧
      m.dataParts.map DataPart.data = ds.map some ∧ Entries ds body rest := by
  obtain ⟨hdrs, parts, s1, s2, h1, h2, rfl⟩ := decodeData_inv h
  have hp : parts ≠ [] := hp
  obtain ⟨head, hh⟩ : s1.rem <:+ data := (messageHeader_safe (It.new data)).1 _ _ h1
  have hb1 : ∀ x ∈ s1.rem, x < 256 := fun x hx => hb x (by rw [← hh]; exact List.mem_append_right _ hx)
  unfold decodeMessageBody at h2
  cases hu : decodeUintVar s1 with
  | err e s3 =>
    rw [hu] at h2
    have h3 := (uintVar_safe s1).2 _ _ hu
    have he : e = .stopIteration := by simpa using h3.1
    subst he
    injection h2 with h2 _
    exact absurd h2.symm hp
  | ok n s3 =>
    rw [hu] at h2
    obtain ⟨_, s4, h4, h3⟩ := bind_ok_invM (m := xrangeCheck n) (f := fun _ => partLoop n []) h2
    have := (xrangeCheck_state h4).1
    subst this
    obtain ⟨cnt, e1, e2⟩ := decodeUintVar_octets hb1 hu
    obtain ⟨new, ds, e3, e4, e5, e6⟩ := partLoop_octets _ _ _ _
      (fun x hx => hb1 x (by rw [e1]; exact List.mem_append_right _ hx)) _ h3
    simp only [List.nil_append] at e3
    subst e3
    exact ⟨head, cnt, s4.rem, s2.rem, ds, by rw [← hh, e1]; simp, by rw [e4]; exact e2, e5, e6⟩

/-- so the data of every part are consecutive octets of what was decoded -/
theorem C76_verbatim (data : List Nat) (hb : ∀ x ∈ data, x < 256) (m : Msg) (h : decodeData data = .ok m) (p : DataPart)
    (hp : p ∈ m.dataParts) : ∃ d, p.data = some d ∧ d <:+: data := by
  obtain ⟨head, cnt, body, rest, ds, e, _, h2, h3⟩ := C76_entries data hb m h (List.ne_nil_of_mem hp)
  have hm : p.data ∈ ds.map some := by rw [← h2]; exact List.mem_map_of_mem hp
  obtain ⟨d, hd, hpd⟩ := List.mem_map.1 hm
  refine ⟨d, hpd.symm, ?_⟩
  have key : ∀ (ds : List (List Nat)) (l r : List Nat), Entries ds l r → d ∈ ds → d <:+: l := by
    intro ds l r h
    induction h with
    | nil => intro h; cases h
    | @cons a b hdrs d' l rest ds ha hb h ih =>
      intro hd
      rcases List.mem_cons.1 hd with rfl | hd
      · exact ⟨a ++ b ++ hdrs, l, rfl⟩
      · obtain ⟨x, y, e⟩ := ih hd
        exact ⟨a ++ b ++ hdrs ++ d' ++ x, y, by rw [← e]; simp⟩
  obtain ⟨x, y, e'⟩ := key ds body rest h3 hd
  exact ⟨head ++ cnt ++ x, y, by rw [e, ← e']; simp⟩

example : ∃ m, decodeData [0x84, 0xa3, 1, 1, 2, 0x83, 72, 105] = .ok m ∧ m.dataParts ≠ [] :=
  ⟨_, rfl, by decide +kernel⟩

end Verif.Props

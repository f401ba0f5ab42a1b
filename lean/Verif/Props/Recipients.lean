import Verif.Props.MmsDec
/-!
# C96: recipients of a received message

A message may name any number of recipients: the headers To, Cc and Bcc can be repeated.
-/
set_option autoImplicit false

namespace Verif.Props
open Verif Verif.Mms
open Verif.Spec.Wsp Verif.Spec.Mms

/-- the headers that name recipients -/
def RecipientName (n : List Nat) : Prop := n = py! "To" ∨ n = py! "Cc" ∨ n = py! "Bcc"

/-- C96 in full: every recipient of the message is seen in its headers. -/
def C96_full : Prop := ∀ (hs : List Hdr) (c : CType) (ps : List Part) (rest : List Nat), (∀ h ∈ hs, h.WF) → c.WF →
    (∀ p ∈ ps, p.WF) → ps.length < 2 ^ 63 →
    ∃ m, decodeData (hs.flatMap Hdr.enc ++ (0x84 :: c.enc ++ (multipart ps ++ rest))) = .ok m ∧
      ∀ h ∈ hs, RecipientName h.name → m.headers.get h.name = some h.value

theorem lastValue_append (hs gs : List Hdr) (n : List Nat) :
    lastValue (hs ++ gs) n = match lastValue gs n with | some v => some v | none => lastValue hs n := by
  have key : ∀ (l : List Hdr) (o : Option HVal),
      l.foldl (fun o h => if h.name = n then some h.value else o) o =
        match lastValue l n with | some v => some v | none => o := by
    intro l
    induction l using List.reverseRecOn with
    | nil => intro o; rfl
    | append_singleton l h ih =>
      intro o
      rw [List.foldl_append]
      unfold lastValue
      rw [List.foldl_append]
      simp only [List.foldl_cons, List.foldl_nil]
      by_cases e : h.name = n
      · rw [if_pos e, if_pos e]
      · rw [if_neg e, if_neg e]
        exact ih o
  unfold lastValue
  rw [List.foldl_append]
  exact key gs _

/-- the value of a name is that of the last of its headers -/
theorem lastValue_last (l1 l2 : List Hdr) (h : Hdr) (h2 : ∀ g ∈ l2, g.name ≠ h.name) :
    lastValue (l1 ++ h :: l2) h.name = some h.value := by
  have hn : lastValue l2 h.name = none := by
    induction l2 using List.reverseRecOn with
    | nil => rfl
    | append_singleton l g ih =>
      rw [lastValue_append]
      have : lastValue [g] h.name = none := by
        show (if g.name = h.name then _ else _) = _
        rw [if_neg (h2 g (by simp))]
      rw [this]
      exact ih (fun x hx => h2 x (by simp [hx]))
  have e : l1 ++ h :: l2 = (l1 ++ [h]) ++ l2 := by simp
  rw [e, lastValue_append, hn, lastValue_append]
  have : lastValue [h] h.name = some h.value := by
    show (if h.name = h.name then _ else _) = _
    rw [if_pos rfl]
  rw [this]

theorem recipient_ne {n : List Nat} (h : RecipientName n) : n ≠ py! "Content-Type" := by
  rcases h with rfl | rfl | rfl <;> decide

/-- Of several headers with the same name the last is seen, whatever comes before and after. -/
theorem C96_last (l1 l2 : List Hdr) (h : Hdr) (c : CType) (ps : List Part) (rest : List Nat) (hn : RecipientName h.name)
    (hw : ∀ g ∈ l1 ++ h :: l2, g.WF) (hc : c.WF) (hp : ∀ p ∈ ps, p.WF) (hl : ps.length < 2 ^ 63)
    (hlast : ∀ g ∈ l2, g.name ≠ h.name) :
    ∃ m, decodeData ((l1 ++ h :: l2).flatMap Hdr.enc ++ (0x84 :: c.enc ++ (multipart ps ++ rest))) = .ok m ∧
      m.headers.get h.name = some h.value := by
  obtain ⟨m, h1, _, _, _, h2⟩ := C46_partial (l1 ++ h :: l2) c ps rest hw hc hp hl
  refine ⟨m, h1, ?_⟩
  rw [h2 _ (recipient_ne hn)]
  unfold expected
  rw [lastValue_last l1 l2 h hlast]

/-- C96 exactly: all recipients named by a header are seen if and only if they are all the same.  So what is missing for
`C96_full` are messages that name different recipients in headers of one name (`C96_refuted`). -/
theorem C96_partial (hs : List Hdr) (c : CType) (ps : List Part) (rest : List Nat) (hw : ∀ h ∈ hs, h.WF) (hc : c.WF)
    (hp : ∀ p ∈ ps, p.WF) (hl : ps.length < 2 ^ 63) (n : List Nat) (hn : RecipientName n) :
    ∃ m, decodeData (hs.flatMap Hdr.enc ++ (0x84 :: c.enc ++ (multipart ps ++ rest))) = .ok m ∧
      ((∀ h ∈ hs, h.name = n → m.headers.get n = some h.value) ↔
        ∀ h ∈ hs, ∀ h' ∈ hs, h.name = n → h'.name = n → h.value = h'.value) := by
  obtain ⟨m, h1, _, _, _, h2⟩ := C46_partial hs c ps rest hw hc hp hl
  refine ⟨m, h1, ?_⟩
  have hg : m.headers.get n = expected hs n := h2 _ (recipient_ne hn)
  constructor
  · intro h a ha b hb ea eb
    have e1 := h a ha ea
    rw [h b hb eb] at e1
    exact (Option.some.inj e1).symm
  · intro h a ha ea
    rw [hg]
    unfold expected
    -- the last header with that name
    have : ∃ b ∈ hs, b.name = n ∧ lastValue hs n = some b.value := by
      clear hg h2 h1 h hw
      induction hs using List.reverseRecOn with
      | nil => cases ha
      | append_singleton l g ih =>
        by_cases e : g.name = n
        · refine ⟨g, by simp, e, ?_⟩
          rw [← e]
          exact lastValue_last l [] g (by simp)
        · rcases List.mem_append.1 ha with hm | hm
          · obtain ⟨b, hb, e1, e2⟩ := ih hm
            refine ⟨b, by simp [hb], e1, ?_⟩
            rw [lastValue_append]
            have : lastValue [g] n = none := by
              show (if g.name = n then _ else _) = _
              rw [if_neg e]
            rw [this]
            exact e2
          · rw [List.mem_singleton] at hm
            subst hm
            exact absurd ea e
    obtain ⟨b, hb, eb, e⟩ := this
    rw [e, h a ha b hb ea eb]

/-- two recipients, one header each -/
def twoRecipients : List Hdr := [.str .to (py! "+1/TYPE=PLMN"), .str .to (py! "+2/TYPE=PLMN")]

theorem twoRecipients_wf : ∀ h ∈ twoRecipients, h.WF := by
  intro h hh
  simp only [twoRecipients, List.mem_cons, List.not_mem_nil, or_false] at hh
  rcases hh with rfl | rfl
  · exact ⟨by decide, 43, rfl, by decide⟩
  · exact ⟨by decide, 43, rfl, by decide⟩

/-- C96 is false of the code: of the recipients `+1` and `+2` only the last is left. -/
theorem C96_refuted : ¬ C96_full := by
  intro h
  obtain ⟨m, h1, h2⟩ := h twoRecipients (.constrained (.text (py! "text/plain"))) [] [] twoRecipients_wf
    ⟨by decide, 116, rfl, by decide, by decide⟩ (by simp) (by decide)
  have e1 := h2 (.str .to (py! "+1/TYPE=PLMN")) (by simp [twoRecipients]) (.inl rfl)
  have e2 := h2 (.str .to (py! "+2/TYPE=PLMN")) (by simp [twoRecipients]) (.inl rfl)
  have : (Hdr.str .to (py! "+1/TYPE=PLMN")).name = (Hdr.str .to (py! "+2/TYPE=PLMN")).name := rfl
  rw [this, e2] at e1
  revert e1
  decide +kernel

/-- an example for `C96_last` and `C96_partial`: the message above with the second recipient in Cc -/
example : ∃ m, decodeData ([Hdr.str .to (py! "+1/TYPE=PLMN"), .str .cc (py! "+2/TYPE=PLMN")].flatMap Hdr.enc ++
      (0x84 :: (CType.constrained (.text (py! "text/plain"))).enc ++ (multipart [] ++ []))) = .ok m ∧
    m.headers.get (py! "To") = some (.v (.str (py! "+1/TYPE=PLMN"))) :=
  C96_last [] [.str .cc (py! "+2/TYPE=PLMN")] (.str .to (py! "+1/TYPE=PLMN")) _ [] [] (.inl rfl) (by
    intro h hh
    simp only [List.nil_append, List.mem_cons, List.not_mem_nil, or_false] at hh
    rcases hh with rfl | rfl
    · exact ⟨by decide, 43, rfl, by decide⟩
    · exact ⟨by decide, 43, rfl, by decide⟩) ⟨by decide, 116, rfl, by decide, by decide⟩ (by simp) (by decide) (by
    intro g hg
    rw [List.mem_singleton] at hg
    subst hg
    decide)

end Verif.Props

import Verif.Model.Coders
/-!
# Filling a message in place gives what decoding as a function gives
-/
set_option autoImplicit false

namespace Verif.Mms

theorem headerLoopO_eq (fuel : Nat) : ∀ (i : It) (msg : Msg),
    (∀ h i', headerLoop fuel msg.headers i = .ok h i' → headerLoopO fuel (i, msg) = .ok () (i', { msg with headers := h })) ∧
    (∀ e i', headerLoop fuel msg.headers i = .err e i' → ∃ m', headerLoopO fuel (i, msg) = .err e (i', m')) := by
  induction fuel with
  | zero =>
    intro i msg
    refine ⟨fun h i' hh => (by cases hh), fun e i' hh => ⟨msg, ?_⟩⟩
    injection hh with h1 h2
    subst h1 h2
    rfl
  | succ fuel ih =>
    intro i msg
    simp only [headerLoop, headerLoopO]
    cases hd : decodeHeader i with
    | ok a i1 =>
      obtain ⟨h, v⟩ := a
      dsimp only
      split
      · refine ⟨fun h i' hh => ?_, fun e i' hh => (by cases hh)⟩
        injection hh with h1 h2
        subst h1 h2
        rfl
      · exact ih i1 { msg with headers := msg.headers.set h v }
    | err e i1 =>
      cases e with
      | stopIteration =>
        refine ⟨fun h i' hh => ?_, fun e i' hh => (by cases hh)⟩
        injection hh with h1 h2
        subst h1 h2
        rfl
      | _ =>
        refine ⟨fun h i' hh => (by cases hh), fun e i' hh => ⟨msg, ?_⟩⟩
        injection hh with h1 h2
        subst h1 h2
        rfl

theorem partLoopO_eq (n : Nat) : ∀ (i : It) (msg : Msg),
    (∀ ps i', partLoop n msg.dataParts i = .ok ps i' → partLoopO n (i, msg) = .ok () (i', { msg with dataParts := ps })) ∧
    (∀ e i', partLoop n msg.dataParts i = .err e i' → ∃ m', partLoopO n (i, msg) = .err e (i', m')) := by
  induction n with
  | zero =>
    intro i msg
    refine ⟨fun h i' hh => ?_, fun e i' hh => (by cases hh)⟩
    injection hh with h1 h2
    subst h1 h2
    rfl
  | succ n ih =>
    intro i msg
    simp only [partLoop, partLoopO, M.bind_apply, reading]
    cases hd : decodePart i with
    | ok p i1 => exact ih i1 { msg with dataParts := msg.dataParts ++ [p] }
    | err e i1 =>
      refine ⟨fun h i' hh => (by cases hh), fun e i' hh => ⟨msg, ?_⟩⟩
      injection hh with h1 h2
      subst h1 h2
      rfl

theorem bodyO_eq (i : It) (msg : Msg) (hm : msg.dataParts = []) :
    (∀ ps i', decodeMessageBody i = .ok ps i' → bodyO (i, msg) = .ok () (i', { msg with dataParts := ps })) ∧
    (∀ e i', decodeMessageBody i = .err e i' → ∃ m', bodyO (i, msg) = .err e (i', m')) := by
  simp only [decodeMessageBody, bodyO]
  cases hd : decodeUintVar i with
  | ok n i1 =>
    simp only [M.bind_apply, reading]
    cases hx : xrangeCheck n i1 with
    | ok u i2 =>
      have := partLoopO_eq n i2 msg
      rw [hm] at this
      exact this
    | err e i2 =>
      refine ⟨fun h i' hh => (by cases hh), fun e i' hh => ⟨msg, ?_⟩⟩
      injection hh with h1 h2
      subst h1 h2
      rfl
  | err e i1 =>
    cases e with
    | stopIteration =>
      refine ⟨fun h i' hh => ?_, fun e i' hh => (by cases hh)⟩
      injection hh with h1 h2
      subst h1 h2
      simp only [← hm]
    | _ =>
      refine ⟨fun h i' hh => (by cases hh), fun e i' hh => ⟨msg, ?_⟩⟩
      injection hh with h1 h2
      subst h1 h2
      rfl

theorem fill_eq (data : List Nat) :
    (∀ m, decodeData data = .ok m → ∃ i, (do headerO; bodyO : Fill Unit) (It.new data, Msg.new) = .ok () (i, m)) ∧
    (∀ e, decodeData data = .error e → ∃ f, (do headerO; bodyO : Fill Unit) (It.new data, Msg.new) = .err e f) := by
  obtain ⟨h1, h2⟩ := headerLoopO_eq ((It.new data).rem.length + 1) (It.new data) Msg.new
  unfold decodeData
  simp only [M.bind_apply, decodeMessageHeader, headerO]
  cases hh : headerLoop ((It.new data).rem.length + 1) Msg.new.headers (It.new data) with
  | err e i =>
    obtain ⟨m', hm⟩ := h2 _ _ hh
    rw [hm]
    refine ⟨fun m h => (by cases h), fun e' h => ⟨(i, m'), ?_⟩⟩
    injection h with h
    subst h
    rfl
  | ok h i =>
    rw [h1 _ _ hh]
    simp only
    obtain ⟨b1, b2⟩ := bodyO_eq i { Msg.new with headers := h } rfl
    cases hb : decodeMessageBody i with
    | err e i' =>
      obtain ⟨m', hm⟩ := b2 _ _ hb
      rw [hm]
      refine ⟨fun m h => (by cases h), fun e' h => ⟨(i', m'), ?_⟩⟩
      injection h with h
      subst h
      rfl
    | ok ps i' =>
      rw [b1 _ _ hb]
      refine ⟨fun m h => ⟨i', ?_⟩, fun e' h => (by cases h)⟩
      injection h with h
      subst h
      rfl

theorem partLoopO_frame (n : Nat) : ∀ (i : It) (msg : Msg) (e : PyErr) (f : It × Msg), partLoopO n (i, msg) = .err e f →
    f.2 = { msg with dataParts := f.2.dataParts } := by
  induction n with
  | zero => intro i msg e f h; cases h
  | succ n ih =>
    intro i msg e f h
    simp only [partLoopO, M.bind_apply, reading] at h
    cases hd : decodePart i with
    | ok p i1 =>
      rw [hd] at h
      have := ih i1 { msg with dataParts := msg.dataParts ++ [p] } e f h
      rw [this]
    | err e i1 =>
      rw [hd] at h
      injection h with h1 h2
      subst h2
      rfl

theorem bodyO_frame {i : It} {msg : Msg} {e : PyErr} {f : It × Msg} (h : bodyO (i, msg) = .err e f) :
    f.2 = { msg with dataParts := f.2.dataParts } := by
  unfold bodyO at h
  cases hd : decodeUintVar i with
  | ok n i1 =>
    simp only [hd, M.bind_apply, reading] at h
    cases hx : xrangeCheck n i1 with
    | ok u i2 =>
      rw [hx] at h
      exact partLoopO_frame n i2 msg e f h
    | err e i2 =>
      rw [hx] at h
      injection h with h1 h2
      subst h2
      rfl
  | err e i1 =>
    simp only [hd] at h
    cases e <;> first
      | (injection h with h1 h2; subst h2; rfl)
      | cases h

end Verif.Mms

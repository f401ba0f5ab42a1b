import Verif.Props.MsgHistory
import Verif.Props.SlideParts
import Verif.Props.Names
import Verif.Props.Smil
import Verif.Props.MovedText
import Verif.Props.SurviveMsg
/-!
# C82: from the calls that build a message to what its recipient decodes
-/
set_option autoImplicit false

namespace Verif.Props
open Verif Verif.Mms
open Verif.Spec.Slides Verif.Spec.MsgHistory
open Verif.Spec.Wsp Verif.Spec.Mms Verif.Spec.MmsEnc
open Verif.Spec.Names (Nameable namedHeader NamedPart ends)
open Verif.Spec.Xml (Plain parse Same presentation presentationOf)
open Verif.Spec.Survive (Survives)

/-- what a program does to a message: it adds a slide on which it made these calls (accepted or not), sets a header or
deletes one -/
inductive Doing
  | slide (h : List Step)
  | header (n : Str) (v : HVal)
  | drop (n : Str)

/-- the program, with its slides as the library makes them -/
def deeds (ds : List Doing) : List Deed := ds.map fun
  | .slide h => .page (pageAfter h)
  | .header n v => .header n v
  | .drop n => .drop n

/-- what one kind of a slide amounts to: its media type, its contents, what the presentation calls it, its times; `name`
is the base name of the file, if it comes from one -/
structure Item where
  media : Str
  data : Str
  src : Str
  name : Option Str
  begin_ : Int
  end_ : Int

/-- after these calls, with the files as they are when the message is encoded, the slide shows this as its image, audio or
text: that of the last call that was accepted -/
inductive Offers (env : Env) : Kind → List Step → Option Item → Prop
  | nothing (k : Kind) (h : List Step) (hk : ∀ s ∈ h, ¬ (s.spec.Ok ∧ s.spec.Sets k)) : Offers env k h none
  | text (h0 h : List Step) (e : Env) (t : Str) (tb te : Val) (b d : Int) (hb : IsInt tb b) (hd : IsInt te d)
      (ht : TimesOk b d) (hk : ∀ s ∈ h, ¬ (s.spec.Ok ∧ s.spec.Sets .text)) :
      Offers env .text (h0 ++ ⟨e, .inl (.text, .str t, tb, te)⟩ :: h) (some ⟨py! "text/plain", t, t, none, b, d⟩)
  | file (k : Kind) (hkt : k ≠ .text) (h0 h : List Step) (e : Env) (f c c' : Str) (hf : e.files f = some c)
      (hf' : env.files f = some c') (tb te : Val) (b d : Int) (hb : IsInt tb b) (hd : IsInt te d)
      (ht : TimesOk b d) (hk : ∀ s ∈ h, ¬ (s.spec.Ok ∧ s.spec.Sets k)) :
      Offers env k (h0 ++ ⟨e, .inl (k, .str f, tb, te)⟩ :: h) (some ⟨(e.mime f).getD (py! "application/octet-stream"), c',
        (f.reverse.takeWhile (· ≠ 47)).reverse, some (f.reverse.takeWhile (· ≠ 47)).reverse, b, d⟩)

def Item.medium (x : Item) : Medium := ⟨x.src, x.begin_, x.end_⟩

/-- what a program amounts to: its slides, and the contents of all slides, each slide with image, audio, text -/
inductive Amounts (env : Env) : List Doing → List Slide → List Item → Prop
  | nil : Amounts env [] [] []
  | header (n : Str) (v : HVal) (ds : List Doing) (ss : List Slide) (xs : List Item) (h : Amounts env ds ss xs) :
      Amounts env (.header n v :: ds) ss xs
  | drop (n : Str) (ds : List Doing) (ss : List Slide) (xs : List Item) (h : Amounts env ds ss xs) :
      Amounts env (.drop n :: ds) ss xs
  | slide (c : List Step) (i a t : Option Item) (n : Int) (hi : Offers env .image c i) (ha : Offers env .audio c a)
      (ht : Offers env .text c t) (hn : Lasts (c.map Step.spec) n) (ds : List Doing)
      (ss : List Slide) (xs : List Item) (h : Amounts env ds ss xs) :
      Amounts env (.slide c :: ds) (⟨n, i.map Item.medium, t.map Item.medium, a.map Item.medium⟩ :: ss)
        (i.toList ++ a.toList ++ t.toList ++ xs)

/-- a header of the part for this item, as the recipient sees it: the content type, and for files with separators in their
names a stray header -/
def Item.header (x : Item) (n : Str) : Option HVal :=
  match x.name with
  | some f => namedHeader x.media f n
  | none => if n = CT then some (.ct x.media []) else none

/-- what can be sent: a media type that the library can write, a file name that does not start with a control character,
sizes below 2 EiB -/
structure Item.Fits (x : Item) : Prop where
  media : Sends x.media
  mlen : x.media.length < 2 ^ 61
  name : ∀ f, x.name = some f → Nameable f ∧ f.length < 2 ^ 61
  len : x.data.length < 2 ^ 63

/-- Content-Type is left to the library -/
def Doing.Free : Doing → Prop
  | slide _ => True
  | header n _ => n ≠ CT
  | drop n => n ≠ CT

/-- the header comes back (`C44_iff`), and is none of those that the library renames or adds -/
def HeaderFits (n : Str) (v : HVal) : Prop :=
  Survives n v ∧ (∀ s, v = .v (.str s) → ∀ c ∈ s, c < 256) ∧ n ≠ XT ∧ n ≠ XI ∧ n ≠ XV

/-- headers that arrive as they were set -/
def Doing.Fits : Doing → Prop
  | slide _ => True
  | header n v => n ≠ CT ∧ HeaderFits n v
  | drop n => n ≠ CT ∧ n ≠ MT ∧ n ≠ TI ∧ n ≠ MV

theorem Doing.Fits.free {d : Doing} (h : d.Fits) : d.Free := by
  cases d with
  | slide _ => trivial
  | header n v => exact h.1
  | drop n => exact h.1

def Doing.isSlide : Doing → Bool
  | slide _ => true
  | _ => false

/-! ### what a slide holds -/

theorem lasts_unique {h : List Call} {a b : Int} (ha : Lasts h a) (hb : Lasts h b) : a = b := by
  induction ha generalizing b with
  | start =>
    generalize hh : ([] : List Call) = h at hb
    cases hb with
    | start => rfl
    | set h d n => simp at hh
    | keep h c n => simp at hh
  | set h d n hd hn =>
    generalize hh : h ++ [Call.setDuration d] = g at hb
    cases hb with
    | start => simp at hh
    | set h' d' n' hd' hn' =>
      obtain ⟨_, he⟩ := List.append_inj' hh rfl
      injection he with he
      injection he with he
      subst he
      have := (asPyInt_iff _ _).2 hd
      rw [(asPyInt_iff _ _).2 hd'] at this
      injection this with this
      exact this.symm
    | keep h' c n' hc hr =>
      obtain ⟨_, he⟩ := List.append_inj' hh rfl
      injection he with he
      subst he
      exact absurd ⟨⟨n, hd, hn⟩, d, rfl⟩ hc
  | keep h c n hc hr ih =>
    generalize hh : h ++ [c] = g at hb
    cases hb with
    | start => simp at hh
    | set h' d' n' hd' hn' =>
      obtain ⟨_, he⟩ := List.append_inj' hh rfl
      injection he with he
      subst he
      exact absurd ⟨⟨_, hd', hn'⟩, d', rfl⟩ hc
    | keep h' c' n' hc' hr' =>
      obtain ⟨rfl, he⟩ := List.append_inj' hh rfl
      exact ih hr'

/-- the part is what the item says -/
structure Embodies (env : Env) (p : DataPart) (x : Item) : Prop where
  read : p.readData env = .ok x.data
  headers : ∀ n, p.headers.get n = if py! "Content-Location" = n then x.name.map (fun f => HVal.v (.str f))
    else if CT = n then some (.ct x.media []) else none
  carried : x.Fits → Brought env p

theorem carried_env {env env' : Env} (hf : env'.files = env.files) {p : DataPart} (h : Brought env' p) : Brought env p := by
  have hr : ∀ p : DataPart, p.readData env' = p.readData env := by
    intro p; unfold DataPart.readData; rw [hf]
  have hl : ∀ p : DataPart, p.len env' = p.len env := by
    intro p; unfold DataPart.len; rw [hf, hr]
  rcases h with ⟨m, d, h⟩ | ⟨m, d, t, h⟩
  · exact .inl ⟨m, d, h.keys, h.ct, h.sends, h.app, by rw [← hr]; exact h.read, by rw [← hl]; exact h.len, h.small⟩
  · exact .inr ⟨m, d, t, h.keys, h.ct, h.sends, h.loc, h.name, h.only, by rw [← hr]; exact h.read,
      by rw [← hl]; exact h.len, h.small⟩

inductive SlotOffers (env : Env) : Option (DataPart × Int × Int) → Option Item → Prop
  | none : SlotOffers env none none
  | some (p : DataPart) (x : Item) (h : Embodies env p x) (hs : Src env p x.src ∨ (p.readData env = .ok x.src)) :
      SlotOffers env (some (p, x.begin_, x.end_)) (some x)

theorem offers_slot {env : Env} {k : Kind} {h : List Step} {r : Option Item} (hs : Offers env k h r) :
    SlotOffers env (slot (pageAfter h) k) r ∧
    (k ≠ .text → ∀ p b e, slot (pageAfter h) k = some (p, b, e) → ∀ x, r = some x → Src env p x.src) ∧
    (k = .text → ∀ p b e, slot (pageAfter h) k = some (p, b, e) → ∀ x, r = some x → p.readData env = .ok x.src) := by
  cases hs with
  | nothing _ _ hk =>
    rw [C54_none h k hk]
    exact ⟨.none, fun _ _ _ _ h => (by cases h), fun _ _ _ _ h => (by cases h)⟩
  | text h0 h e t tb te b d hb hd ht hk =>
    have hsl : slot (pageAfter (h0 ++ ⟨e, .inl (.text, .str t, tb, te)⟩ :: h)) .text = some (textPart t, b, d) := by
      rw [pageAfter_split, slot_kept .text h _ hk]
      simp only [slot, Step.run, Page.addText, textSlot_ok hb hd ht]
      rfl
    rw [hsl]
    refine ⟨.some (textPart t) ⟨py! "text/plain", t, t, none, b, d⟩ ⟨rfl, fun n => ?_, fun hf => ?_⟩ (.inr rfl),
      fun h => absurd rfl h, fun _ p b' e' h x hx => ?_⟩
    · show Dict.get [(py! "Content-Type", _)] n = _
      simp only [Dict.get, Option.map_none]
      by_cases e : py! "Content-Type" = n
      · rw [← e]; rfl
      · rw [if_neg e, show CT = py! "Content-Type" from rfl, if_neg e, ite_self]
    · obtain ⟨media, data, h | h⟩ := C47_text env t DataPart.new _ rfl hf.len
      · exact .inl ⟨media, data, h⟩
      · obtain ⟨_, h, _⟩ := h.loc
        cases h
    · injection h with h
      injection h with h
      injection hx with hx
      subst h hx
      rfl
  | file _ hkt h0 h e f c c' hf hf' tb te b d hb hd ht hk =>
    obtain ⟨part, hp, hs⟩ := fileSlot_ok hf hb hd ht
    have hsl : slot (pageAfter (h0 ++ ⟨e, .inl (k, .str f, tb, te)⟩ :: h)) k = some (part, b, d) := by
      rw [pageAfter_split, slot_kept k h _ hk]
      cases k with
      | text => exact absurd rfl hkt
      | image => simp only [Step.run, Page.addImage, hs]; rfl
      | audio => simp only [Step.run, Page.addAudio, hs]; rfl
    rw [hsl]
    rw [ofFile_ok e f c hf] at hp
    injection hp with hp
    have hsrc : Src env part (f.reverse.takeWhile (· ≠ 47)).reverse := .location _ (by rw [← hp]; rfl)
    refine ⟨.some part ⟨(e.mime f).getD (py! "application/octet-stream"), c',
        (f.reverse.takeWhile (· ≠ 47)).reverse, some (f.reverse.takeWhile (· ≠ 47)).reverse, b, d⟩
        ⟨by simp only [← hp, DataPart.readData, hf'], fun n => by rw [← hp]; rfl, fun hfit => ?_⟩ (.inl hsrc),
      fun _ p b' e' h x hx => ?_, fun h => absurd h hkt⟩
    · refine carried_env (env := env) (env' := { files := env.files, mime := e.mime }) rfl ?_
      refine C47_named_file _ f c' part ?_ hf' (hfit.name _ rfl).1 ?_ ⟨(hfit.name _ rfl).2, hfit.len⟩
      · rw [ofFile_ok { files := env.files, mime := e.mime } f c' hf', ← hp]
      · intro media hm
        have h1 := hfit.media
        have h2 := hfit.mlen
        have hm : e.mime f = some media := hm
        simp only [hm, Option.getD_some] at h1 h2
        exact ⟨h1, h2⟩
    · injection h with h
      injection h with h
      injection hx with hx
      subst h hx
      exact hsrc

/-- the parts of one slot -/
theorem slot_parts {env : Env} {s : Option (DataPart × Int × Int)} {r : Option Item} (h : SlotOffers env s r) :
    List.Forall₂ (Embodies env) (s.toList.map fun t => t.1) r.toList := by
  cases h with
  | none => exact .nil
  | some p x h _ => exact .cons h .nil

theorem slot_medium {env : Env} {s : Option (DataPart × Int × Int)} {r : Option Item} (h : SlotOffers env s r)
    (R : DataPart → Str → Prop) (hr : ∀ p b e, s = some (p, b, e) → ∀ x, r = some x → R p x.src) :
    SlotIs R s (r.map Item.medium) := by
  cases h with
  | none => exact .none
  | some p x h _ => exact .some p _ _ _ (hr _ _ _ rfl _ rfl)

/-- the pages of a program -/
def histories (ds : List Doing) : List Page := slides (deeds ds)

theorem amounts_pages {env : Env} {ds : List Doing} {ss : List Slide} {xs : List Item} (h : Amounts env ds ss xs) :
    List.Forall₂ (PageIs env) (histories ds) ss ∧
    List.Forall₂ (Embodies env) (partsOf (histories ds)) xs := by
  induction h with
  | nil => exact ⟨.nil, .nil⟩
  | header n v ds ss xs h ih => exact ih
  | drop n ds ss xs h ih => exact ih
  | slide c i a t n hi ha ht hn ds ss xs h ih =>
    obtain ⟨i1, i3⟩ := ih
    obtain ⟨hi1, hi2, _⟩ := offers_slot hi
    obtain ⟨ha1, ha2, _⟩ := offers_slot ha
    obtain ⟨ht1, _, ht2⟩ := offers_slot ht
    have hh : histories (.slide c :: ds) = pageAfter c :: histories ds := rfl
    rw [hh]
    refine ⟨.cons ⟨?_, ?_, ?_, ?_⟩ i1, ?_⟩
    · exact lasts_unique (C54_history c).2.1 hn
    · exact slot_medium hi1 _ (hi2 (by simp))
    · exact slot_medium ht1 _ (ht2 rfl)
    · exact slot_medium ha1 _ (ha2 (by simp))
    · have hp : partsOf (pageAfter c :: histories ds) = ((slot (pageAfter c) .image).toList.map fun t => t.1) ++
          ((slot (pageAfter c) .audio).toList.map fun t => t.1) ++ ((slot (pageAfter c) .text).toList.map fun t => t.1) ++
          partsOf (histories ds) := by
        show _ ++ partsOf _ = _
        congr 1
        simp only [slot]
        cases (pageAfter c).image <;> cases (pageAfter c).audio <;> cases (pageAfter c).text <;> rfl
      rw [hp]
      exact List.rel_append (List.rel_append (List.rel_append (slot_parts hi1) (slot_parts ha1)) (slot_parts ht1)) i3

/-! ### the headers -/

theorem deeds_sane {ds : List Doing} (h : ∀ d ∈ ds, d.Free) : ∀ d ∈ deeds ds, d.Sane := by
  intro d hd
  obtain ⟨x, hx, rfl⟩ := List.mem_map.1 hd
  have := h x hx
  cases x with
  | slide c => trivial
  | header n v => exact fun e => absurd e this
  | drop n => exact this

theorem deeds_snoc (ds : List Doing) (d : Doing) : deeds (ds ++ [d]) = deeds ds ++ deeds [d] := by simp [deeds]

/-- Content-Type is the library's -/
theorem program_type (ds : List Doing) (h : ∀ d ∈ ds, d.Free) : Worth CT (deeds ds)
    (some (.ct (if ds.any Doing.isSlide then py! "application/vnd.wap.multipart.related"
      else py! "application/vnd.wap.multipart.mixed") [])) := by
  induction ds using List.reverseRecOn with
  | nil => exact .default _ .ct
  | append_singleton ds d ih =>
    have ih := ih fun d hd => h d (by simp [hd])
    have hd := h d (by simp)
    rw [deeds_snoc, List.any_append]
    cases d with
    | slide c =>
      simp only [List.any_cons, Doing.isSlide, Bool.true_or, Bool.or_true, if_true]
      by_cases ha : ds.any Doing.isSlide = true
      · rw [if_pos ha] at ih
        refine .keep _ _ _ id (fun _ _ v t hv hf => ?_) ih
        injection hv with hv
        subst hv
        cases hf
        rfl
      · rw [if_neg ha] at ih
        exact .related _ _ _ _ rfl ih (.ct _ _) (by decide)
    | header n v =>
      simp only [List.any_cons, Doing.isSlide, List.any_nil, Bool.or_false]
      exact .keep _ _ _ hd (fun ⟨_, h⟩ => by cases h) ih
    | drop n =>
      simp only [List.any_cons, Doing.isSlide, List.any_nil, Bool.or_false]
      exact .keep _ _ _ hd (fun ⟨_, h⟩ => by cases h) ih

theorem default_fits {n : Str} {v : HVal} (h : Default n v) (hn : n ≠ CT) : HeaderFits n v := by
  have hb : ∀ s, v = .v (.str s) → ∀ c ∈ s, c < 256 := by
    cases h <;> intro s hs <;> cases hs <;> decide
  suffices Faithful n v ∧ n ≠ XT ∧ n ≠ XI ∧ n ≠ XV from ⟨faithful_survives hb this.1, hb, this.2⟩
  cases h with
  | type => exact ⟨.type _ (by decide), by decide, by decide, by decide⟩
  | transaction => exact ⟨.transactionId _ ⟨by decide, by decide, by decide⟩, by decide, by decide, by decide⟩
  | version =>
    refine ⟨?_, by decide, by decide, by decide⟩
    have := Faithful.version 1 0 (by decide)
    have e : dotted 1 0 = py! "1.0" := by decide +kernel
    rwa [e] at this
  | ct => exact absurd rfl hn

theorem program_fits (ds : List Doing) (h : ∀ d ∈ ds, d.Fits) (n : Str) (hn : n ≠ CT) (v : HVal)
    (hv : (msgAfter (deeds ds)).headers.get n = some v) : HeaderFits n v := by
  have key : ∀ ds : List Doing, (∀ d ∈ ds, d.Fits) → ∀ r, Worth n (deeds ds) r → ∀ v, r = some v →
      HeaderFits n v := by
    intro ds
    induction ds using List.reverseRecOn with
    | nil =>
      intro _ r hw v hv
      generalize hh : deeds [] = g at hw
      cases hw with
      | default v' hd => injection hv with hv; subst hv; exact default_fits hd hn
      | absent _ => cases hv
      | set h' v' => simp [deeds] at hh
      | del h' => simp [deeds] at hh
      | related h' => simp [deeds] at hh
      | keep h' => simp [deeds] at hh
    | append_singleton ds d ih =>
      intro hf r hw v hv
      have ih := ih fun d hd => hf d (by simp [hd])
      have hd := hf d (by simp)
      rw [deeds_snoc] at hw
      generalize hh : deeds ds ++ deeds [d] = g at hw
      cases hw with
      | default v' hd => simp [deeds] at hh
      | absent _ => cases hv
      | set h' v' =>
        obtain ⟨_, he⟩ := List.append_inj' hh rfl
        injection hv with hv
        subst hv
        cases d with
        | slide c => simp [deeds] at he
        | drop n' => simp [deeds] at he
        | header n' w =>
          injection he with he
          injection he with e1 e2
          subst e1 e2
          exact hd.2
      | del h' => cases hv
      | related h' p v' t hn' => exact absurd hn' hn
      | keep h' d' r hd' hp hr =>
        obtain ⟨rfl, _⟩ := List.append_inj' hh rfl
        exact ih _ hr _ hv
  exact key ds h _ ((C81_header (deeds ds) n _).1 hv) v rfl

theorem program_has (ds : List Doing) (h : ∀ d ∈ ds, d.Fits) (n : Str) (hn : n = MT ∨ n = TI ∨ n = MV) :
    ∃ v, (msgAfter (deeds ds)).headers.get n = some v := by
  induction ds using List.reverseRecOn with
  | nil => rcases hn with rfl | rfl | rfl <;> exact ⟨_, rfl⟩
  | append_singleton ds d ih =>
    obtain ⟨v, hv⟩ := ih fun d hd => h d (by simp [hd])
    have hd := h d (by simp)
    have hw := (C81_header (deeds ds) n _).1 hv
    rw [deeds_snoc]
    have hct : n ≠ py! "Content-Type" := by rcases hn with rfl | rfl | rfl <;> decide
    cases d with
    | slide c => exact ⟨v, (C81_header _ n _).2 (.keep _ _ _ id (fun _ e => absurd e hct) hw)⟩
    | header n' w =>
      by_cases e : n' = n
      · subst e
        exact ⟨w, (C81_header _ _ _).2 (.set _ _)⟩
      · exact ⟨v, (C81_header _ n _).2 (.keep _ _ _ e (fun _ e => absurd e hct) hw)⟩
    | drop n' =>
      have e : n' ≠ n := by
        rcases hn with rfl | rfl | rfl
        · exact hd.2.1
        · exact hd.2.2.1
        · exact hd.2.2.2
      exact ⟨v, (C81_header _ n _).2 (.keep _ _ _ e (fun _ e => absurd e hct) hw)⟩

theorem forall2_mem {α β : Type} {R : α → β → Prop} {as : List α} {bs : List β} (h : List.Forall₂ R as bs) :
    ∀ a ∈ as, ∃ b ∈ bs, R a b := by
  induction h with
  | nil => simp
  | cons h1 _ ih =>
    intro a ha
    rcases List.mem_cons.1 ha with rfl | ha
    · exact ⟨_, List.mem_cons_self, h1⟩
    · obtain ⟨b, hb, hr⟩ := ih a ha
      exact ⟨b, List.mem_cons_of_mem _ hb, hr⟩

theorem forall2_comp {α β γ : Type} {R : α → β → Prop} {S : α → γ → Prop} {T : β → γ → Prop} {as : List α} {bs : List β}
    {cs : List γ} (h1 : List.Forall₂ R as bs) (h2 : List.Forall₂ S as cs) (h : ∀ a b c, R a b → S a c → T b c) :
    List.Forall₂ T bs cs := by
  induction h1 generalizing cs with
  | nil => cases h2; exact .nil
  | cons hr _ ih =>
    cases h2 with
    | cons hs h2 => exact .cons (h _ _ _ hr hs) (ih h2)

/-- a message out of slides and headers that come back, and with the three headers that the library needs -/
theorem program_settled (ds : List Doing)
    (hh : ∀ n v, n ≠ CT → Worth n (deeds ds) (some v) → HeaderFits n v)
    (hm : ∀ n, n = MT ∨ n = TI ∨ n = MV → ∃ v, Worth n (deeds ds) (some v))
    (hto : Worth MT (deeds ds) (some (.v (.str (py! "m-send-req")))) →
      ∃ v, Worth (py! "To") (deeds ds) (some v) ∨ Worth (py! "Cc") (deeds ds) (some v)) :
    Settled (msgAfter (deeds ds)).headers := by
  have halias : ∀ n, n = XT ∨ n = XI ∨ n = XV → (msgAfter (deeds ds)).headers.get n = none := by
    intro n hn
    cases hg : (msgAfter (deeds ds)).headers.get n with
    | none => rfl
    | some v =>
      obtain ⟨_, _, h1, h2, h3⟩ := hh n v (by rcases hn with rfl | rfl | rfl <;> decide) ((C81_header _ _ _).1 hg)
      rcases hn with rfl | rfl | rfl
      · exact absurd rfl h1
      · exact absurd rfl h2
      · exact absurd rfl h3
  have has : ∀ n, n = MT ∨ n = TI ∨ n = MV → ∃ v, (msgAfter (deeds ds)).headers.get n = some v := by
    intro n hn
    obtain ⟨v, hv⟩ := hm n hn
    exact ⟨v, (C81_header _ _ _).2 hv⟩
  exact {
    type := has _ (.inl rfl)
    transaction := has _ (.inr (.inl rfl))
    version := has _ (.inr (.inr rfl))
    aliases := ⟨halias _ (.inl rfl), halias _ (.inr (.inl rfl)), halias _ (.inr (.inr rfl))⟩
    recipient := by
      rintro (h | h)
      · obtain ⟨v, h | h⟩ := hto ((C81_header _ _ _).1 h)
        · exact .inl ⟨v, (C81_header _ _ _).2 h⟩
        · exact .inr ⟨v, (C81_header _ _ _).2 h⟩
      · have hf := (hh MT _ (by decide) ((C81_header _ _ _).1 h)).1
        have huni : ∀ n v, Survives n v → ∀ s, v ≠ .v (.uni s) := by
          intro n v hf
          cases hf <;> exact fun s e => by cases e
        exact absurd rfl (huni _ _ hf _) }

theorem program_media (ds : List Doing) : Sends (if ds.any Doing.isSlide then py! "application/vnd.wap.multipart.related"
    else py! "application/vnd.wap.multipart.mixed") := by
  split
  · exact ⟨⟨by decide, 97, rfl, by decide, by decide⟩, by decide⟩
  · exact ⟨⟨by decide, 97, rfl, by decide, by decide⟩, by decide⟩

theorem program_comes (ds : List Doing) (hh : ∀ n v, n ≠ CT → Worth n (deeds ds) (some v) → HeaderFits n v) (n : Str) (v : HVal)
    (h : (msgAfter (deeds ds)).headers.get n = some v) (hc : n ≠ CT) : Comes n v := by
  obtain ⟨h1, h2, _⟩ := hh n v hc ((C81_header _ _ _).1 h)
  exact survives_comes h2 hc h1

/-- C82: whatever a program does to build a message, out of slides on which it calls what it likes and headers, if the
headers that it leaves can be sent, encoding succeeds and the recipient decodes: every header as the program left it, the
Content-Type of the library, the presentation, and then image, audio and text of every slide in order, each with the contents
and type of the last call that was accepted (and, for files with separators in their names, a stray header).
If the texts and file names have no control characters, the presentation is an XML document that shows the slides with
their durations and times, each with its own text if every slide with audio has one. -/
theorem C82_arrives (env : Env) (ord : Dict HVal → Dict HVal) (rnd : Nat) (ds : List Doing) (ss : List Slide)
    (xs : List Item) (ho : ∀ d, (ord d).Perm d) (ha : Amounts env ds ss xs) (hat : AudioTexts ss) (hd : ∀ d ∈ ds, d.Free)
    (hh : ∀ n v, n ≠ CT → Worth n (deeds ds) (some v) → HeaderFits n v)
    (hm : ∀ n, n = MT ∨ n = TI ∨ n = MV → ∃ v, Worth n (deeds ds) (some v)) (hx : ∀ x ∈ xs, x.Fits)
    (hto : Worth MT (deeds ds) (some (.v (.str (py! "m-send-req")))) →
      ∃ v, Worth (py! "To") (deeds ds) (some v) ∨ Worth (py! "Cc") (deeds ds) (some v))
    (hlen : ∀ smil, (msgAfter (deeds ds)).smil env = .ok smil → smil.length < 2 ^ 63) (hn : 3 * ds.length < 2 ^ 63 - 1) :
    ∃ o m' m2 q qs smil, encode env ord rnd (msgAfter (deeds ds)) = .ok o m' ∧ decodeData o = .ok m2 ∧
      (∀ n r, n ≠ CT → (m2.headers.get n = r ↔ Worth n (deeds ds) r)) ∧
      m2.headers.get CT = some (.ct (if ds.any Doing.isSlide then py! "application/vnd.wap.multipart.related"
        else py! "application/vnd.wap.multipart.mixed") []) ∧
      m2.dataParts = q :: qs ∧ q.data = some smil ∧
      (∀ n, q.headers.get n = Dict.get [(CT, .ct (py! "application/smil") []),
        (py! "Content-ID", .v (.str (py! "<0000>")))] n) ∧
      List.Forall₂ (fun (x : Item) (p : DataPart) => p.data = some x.data ∧ (∀ env', p.readData env' = .ok x.data) ∧
        ∀ n, p.headers.get n = x.header n) xs qs ∧
      ((∀ s ∈ ss, ∀ x : Medium, s.image = some x ∨ s.text = some x ∨ s.audio = some x → Plain x.src) →
        (∃ t pars, parse smil = some t ∧ Same t (presentationOf [] 176 220 pars) ∧ pars.length = ss.length ∧
          ∀ (j : Nat) (s : Slide) (p : Int × List Elem), ss[j]? = some s → pars[j]? = some p →
            p.1 = s.duration ∧ Arranged ss j s p.2) ∧
        ((∀ s ∈ ss, s.audio.isSome → s.text.isSome) → ∃ t, parse smil = some t ∧ Same t (presentation [] 176 220 ss))) := by
  obtain ⟨a1, a3⟩ := amounts_pages ha
  have hsane := deeds_sane hd
  have hpages : (msgAfter (deeds ds)).pages = histories ds := (C81_pages (deeds ds) hsane).1
  have hparts := C81_parts (deeds ds)
  have hnil : parts (deeds ds) = [] := by
    unfold parts deeds
    rw [List.filterMap_map, List.filterMap_eq_nil_iff]
    intro d _
    cases d <;> rfl
  rw [hnil] at hparts
  obtain ⟨pars, hbody, _, _⟩ := (C53_exact env (msgAfter (deeds ds)) ss (by rw [hpages]; exact a1)).1 hat
  obtain ⟨smil, hsmil⟩ : ∃ smil, (msgAfter (deeds ds)).smil env = .ok smil := ⟨_, by unfold Msg.smil Msg.smilDoc; rw [hbody]; rfl⟩
  have hct := (C81_header (deeds ds) CT _).2 (program_type ds hd)
  have hpl : (histories ds).length ≤ ds.length := by
    unfold histories slides
    refine Nat.le_trans (List.length_filterMap_le _ _) ?_
    simp [deeds]
  obtain ⟨o, m', m2, q, qs, h1, h2, h3, h4, h5, h6, h7⟩   := names_read env ord rnd (msgAfter (deeds ds)) _ smil ho
    (msgAfter_ok _) (program_settled ds hh hm hto) hct (program_media ds) (program_comes ds hh) hsmil (hlen _ hsmil)
    (by
      rw [hpages]
      intro p hp
      obtain ⟨x, hxm, he⟩ := forall2_mem a3 p hp
      exact he.carried (hx x hxm)) hparts.1 (by rw [hpages]; omega)
  rw [hpages] at h7
  refine ⟨o, m', m2, q, qs, smil, h1, h2, fun n r _ => ?_, ?_, h4, h5, h6, forall2_comp a3 h7 ?_, fun hp => ?_⟩
  · rw [h3]
    exact C81_header _ _ _
  · rw [h3]
    exact hct
  · rintro p x q he ⟨⟨data, r1, r2, r3⟩, r4⟩
    rw [he.read] at r1
    injection r1 with r1
    subst r1
    refine ⟨r2, r3, fun n => ?_⟩
    have hl := he.headers (py! "Content-Location")
    rw [if_pos rfl] at hl
    unfold Item.header
    cases r4 with
    | plain h hq =>
      rw [h] at hl
      have hnone : x.name = none := by
        cases hx : x.name with
        | none => rfl
        | some f => rw [hx] at hl; cases hl
      rw [hq, he.headers, hnone]
      by_cases e1 : py! "Content-Location" = n
      · rw [if_pos e1, ← e1]; rfl
      · rw [if_neg e1]
        by_cases e2 : n = CT
        · rw [if_pos e2.symm]; simp only [if_pos e2]
        · rw [if_neg (fun h => e2 h.symm)]; simp only [if_neg e2]
    | named media t hc h hq =>
      rw [h] at hl
      have hsome : x.name = some t := by
        cases hx : x.name with
        | none => rw [hx] at hl; cases hl
        | some f =>
          rw [hx] at hl
          injection hl with hl
          injection hl with hl
          injection hl with hl
          rw [hl]
      have hm := he.headers CT
      rw [if_neg (by decide), if_pos rfl, hc] at hm
      injection hm with hm
      injection hm with hm
      rw [hq, hsome, hm]
  · have hc : AllChars Plain (msgAfter (deeds ds)) ss := ⟨by rw [hparts.2.2.2]; simp, hp⟩
    constructor
    · obtain ⟨text, t, pars, t1, t2, t3, t4⟩ := C69_moved_partial env (msgAfter (deeds ds)) ss (by rw [hpages]; exact a1) hat hc
      rw [hsmil] at t1
      injection t1 with t1
      subst t1
      rw [hparts.2.1, hparts.2.2.1, hparts.2.2.2] at t3
      exact ⟨t, pars, t2, t3, t4⟩
    · intro a2
      obtain ⟨text, t, t1, t2, t3⟩ := C69_partial env (msgAfter (deeds ds)) ss (by rw [hpages]; exact a1) a2 hc
      rw [hsmil] at t1
      injection t1 with t1
      subst t1
      rw [hparts.2.1, hparts.2.2.1, hparts.2.2.2] at t3
      exact ⟨t, t2, t3⟩

/-- C82: a program that sets only headers that can be sent, and does not delete those that the library needs, leaves
headers as `C82_arrives` asks for. -/
theorem C82_headers (ds : List Doing) (hd : ∀ d ∈ ds, d.Fits) :
    (∀ d ∈ ds, d.Free) ∧ (∀ n v, n ≠ CT → Worth n (deeds ds) (some v) → HeaderFits n v) ∧
    ∀ n, n = MT ∨ n = TI ∨ n = MV → ∃ v, Worth n (deeds ds) (some v) := by
  refine ⟨fun d h => (hd d h).free, fun n v hn hw => program_fits ds hd n hn v ((C81_header _ _ _).2 hw), fun n hn => ?_⟩
  obtain ⟨v, hv⟩ := program_has ds hd n hn
  exact ⟨v, (C81_header _ _ _).1 hv⟩

/-- C82: the only other end of such a program: if a slide has audio and neither it nor a slide before it has a text, there
is no message, but NameError. -/
theorem C82_refused (env : Env) (ord : Dict HVal → Dict HVal) (rnd : Nat) (ds : List Doing) (ss : List Slide)
    (xs : List Item) (ho : ∀ d, (ord d).Perm d) (ha : Amounts env ds ss xs) (hat : ¬ AudioTexts ss) (hd : ∀ d ∈ ds, d.Free)
    (hh : ∀ n v, n ≠ CT → Worth n (deeds ds) (some v) → HeaderFits n v)
    (hm : ∀ n, n = MT ∨ n = TI ∨ n = MV → ∃ v, Worth n (deeds ds) (some v))
    (hto : Worth MT (deeds ds) (some (.v (.str (py! "m-send-req")))) →
      ∃ v, Worth (py! "To") (deeds ds) (some v) ∨ Worth (py! "Cc") (deeds ds) (some v)) :
    ∃ m', encode env ord rnd (msgAfter (deeds ds)) = .err .nameError m' := by
  obtain ⟨a1, a3⟩ := amounts_pages ha
  have hpages : (msgAfter (deeds ds)).pages = histories ds := (C81_pages (deeds ds) (deeds_sane hd)).1
  have hbody := (C53_exact env (msgAfter (deeds ds)) ss (by rw [hpages]; exact a1)).2 hat
  have hP := prepare_settled (msgAfter_ok (deeds ds)) (program_settled ds hh hm hto) rnd
  have hct := (C81_header (deeds ds) CT _).2 (program_type ds hd)
  obtain ⟨o, d, h1, h2, h3⟩ := header_ok (m := msgAfter (deeds ds)) ho rfl (prepare_ok (msgAfter_ok (deeds ds)) rnd)
    (by rw [hP]; exact hct) (program_media ds) (fun n v hg hc => program_comes ds hh n v (by rw [← hP n]; exact hg) hc)
  have hs : ∀ h, ({ msgAfter (deeds ds) with headers := h } : Msg).smil env = .error .nameError := by
    intro h
    have : ({ msgAfter (deeds ds) with headers := h } : Msg).smilBody env = .error .nameError := hbody
    unfold Msg.smil Msg.smilDoc
    rw [this]
    rfl
  have hu : ∀ m : Msg, toOctets (ints (encodeUintVar ((numEntries m : Nat) : Int))) = .ok (uintvar (numEntries m)) := by
    intro m
    have := toOctets_ints (uintvar_lt (numEntries m))
    unfold toInts at this
    rw [encodeUintVar_eq, this]
  have hb : ∀ h, encodeMessageBody env ord { msgAfter (deeds ds) with headers := h } = .error .nameError := by
    intro h
    unfold encodeMessageBody
    simp only [hu, hs h, bind, Except.bind]
  refine ⟨{ msgAfter (deeds ds) with headers := restHeaders (prepareHeaders rnd (msgAfter (deeds ds)).headers) }, ?_⟩
  unfold encode
  rw [M.bind_ok h1]
  simp only [bind, M.bind, M.get, M.lift, hb]

theorem last_split {α : Type} (P : α → Prop) (h : List α) :
    (∀ s ∈ h, ¬ P s) ∨ ∃ h0 s h1, h = h0 ++ s :: h1 ∧ P s ∧ ∀ t ∈ h1, ¬ P t := by
  induction h with
  | nil => exact .inl (by simp)
  | cons s r ih =>
    rcases ih with ih | ⟨h0, t, h1, rfl, hp, hn⟩
    · by_cases hs : P s
      · exact .inr ⟨[], s, r, rfl, hs, ih⟩
      · refine .inl fun t ht => ?_
        rcases List.mem_cons.1 ht with rfl | ht
        · exact hs
        · exact ih t ht
    · exact .inr ⟨s :: h0, t, h1, rfl, hp, hn⟩

theorem offers_exists (env : Env) (k : Kind) (h : List Step)
    (hf : ∀ s ∈ h, s.spec.Ok → ∀ k' f b e, s.call = .inl (k', .str f, b, e) → k' ≠ .text → ∃ c, env.files f = some c) :
    ∃ r, Offers env k h r ∧ (r.isSome ↔ ∃ s ∈ h, s.spec.Ok ∧ s.spec.Sets k) := by
  rcases last_split (fun s : Step => s.spec.Ok ∧ s.spec.Sets k) h with hn | ⟨h0, s, h1, rfl, ⟨hok, hset⟩, hn⟩
  · refine ⟨none, .nothing k h hn, fun h => (by cases h), fun ⟨s, hs, h⟩ => absurd h (hn s hs)⟩
  · have hin : ∃ t ∈ h0 ++ s :: h1, t.spec.Ok ∧ t.spec.Sets k := ⟨s, by simp, hok, hset⟩
    obtain ⟨e, call⟩ := s
    cases call with
    | inr d => exact absurd hset id
    | inl c =>
      obtain ⟨k', a, tb, te⟩ := c
      have hk : k' = k := hset
      have hok' := hok
      subst hk
      obtain ⟨⟨t, rfl⟩, ⟨b, d, hb, hd, ht⟩, hfile⟩ : (∃ t, a = .str t) ∧ (∃ x y, IsInt tb x ∧ IsInt te y ∧ TimesOk x y) ∧
        (k' = .text ∨ isFile e a = true) := hok
      by_cases hkt : k' = .text
      · subst hkt
        exact ⟨_, .text h0 h1 e t tb te b d hb hd ht hn, fun _ => hin, fun _ => rfl⟩
      · obtain ⟨c', hc'⟩ := hf ⟨e, .inl (k', .str t, tb, te)⟩ (by simp) hok' k' t tb te rfl hkt
        rcases hfile with h | h
        · exact absurd h hkt
        · obtain ⟨c, hc⟩ := Option.isSome_iff_exists.1 (show (e.files t).isSome = true from h)
          exact ⟨_, .file k' hkt h0 h1 e t c c' hc hc' tb te b d hb hd ht hn, fun _ => hin, fun _ => rfl⟩

/-- C82: every program amounts to something, as long as the files that were added are still there when the message is
encoded. -/
theorem C82_amounts (env : Env) (ds : List Doing)
    (hf : ∀ h, .slide h ∈ ds → ∀ s ∈ h, s.spec.Ok → ∀ k f b e, s.call = .inl (k, .str f, b, e) → k ≠ .text →
      ∃ c, env.files f = some c) :
    ∃ ss xs, Amounts env ds ss xs := by
  induction ds with
  | nil => exact ⟨_, _, .nil⟩
  | cons d ds ih =>
    obtain ⟨ss, xs, ha⟩ := ih (fun h hm => hf h (List.mem_cons_of_mem _ hm))
    cases d with
    | header n v => exact ⟨_, _, .header n v ds ss xs ha⟩
    | drop n => exact ⟨_, _, .drop n ds ss xs ha⟩
    | slide h =>
      obtain ⟨i, hi, _⟩ := offers_exists env .image h (hf h List.mem_cons_self)
      obtain ⟨a, ha', _⟩ := offers_exists env .audio h (hf h List.mem_cons_self)
      obtain ⟨t, ht, _⟩ := offers_exists env .text h (hf h List.mem_cons_self)
      exact ⟨_, _, .slide h i a t _ hi ha' ht (C54_history h).2.1 ds ss xs ha⟩

/-! a program: a recipient is set, a photo is added, a text is set twice and then once more without success, the duration
is changed, a subject is set and deleted -/

def sampleSteps : List Step := [
  ⟨sampleEnv, .inl (.image, .str (py! "/tmp/a.jpg"), .int 1, .int 9)⟩,
  ⟨sampleEnv, .inl (.text, .str (py! "hi"), .int 0, .int 0)⟩,
  ⟨sampleEnv, .inl (.text, .str (py! "hello"), .int 0, .int 0)⟩,
  ⟨sampleEnv, .inl (.text, .str (py! "no"), .int 100, .int 50)⟩,
  ⟨sampleEnv, .inr (.int 7000)⟩]

def sampleProgram : List Doing := [.header (py! "To") (.v (.str (py! "+34600000000"))),
  .header (py! "Subject") (.v (.str (py! "x"))), .slide sampleSteps, .drop (py! "Subject")]

def samplePicture : Item := ⟨py! "image/jpeg", [1, 2, 3], py! "a.jpg", some (py! "a.jpg"), 1, 9⟩
def sampleText : Item := ⟨py! "text/plain", py! "hello", py! "hello", none, 0, 0⟩

theorem small_int (n : Nat) (h : n < 10000 := by decide) : IsInt (.int n) n := .int _ (by omega) (by omega)

theorem sample_amounts : Amounts sampleEnv sampleProgram
    [⟨7000, some ⟨py! "a.jpg", 1, 9⟩, some ⟨py! "hello", 0, 0⟩, none⟩] [samplePicture, sampleText] := by
  refine .header _ _ _ _ _ (.header _ _ _ _ _ (.slide sampleSteps (some samplePicture) none (some sampleText) 7000 ?_ ?_ ?_ ?_
    _ _ _ (.drop _ _ _ _ .nil)))
  · refine .file .image (by decide) [] sampleSteps.tail sampleEnv (py! "/tmp/a.jpg") [1, 2, 3] [1, 2, 3] (by decide) (by decide) _ _ 1 9
      (small_int 1) (small_int 9) (by unfold TimesOk; omega) ?_
    intro s hs ⟨_, h⟩
    simp only [sampleSteps, List.tail_cons, List.mem_cons, List.not_mem_nil, or_false] at hs
    rcases hs with rfl | rfl | rfl | rfl <;> cases h
  · refine .nothing _ _ ?_
    intro s hs ⟨_, h⟩
    simp only [sampleSteps, List.mem_cons, List.not_mem_nil, or_false] at hs
    rcases hs with rfl | rfl | rfl | rfl | rfl <;> cases h
  · refine .text (sampleSteps.take 2) (sampleSteps.drop 3) sampleEnv (py! "hello") _ _ 0 0 (small_int 0) (small_int 0) (by unfold TimesOk; omega) ?_
    intro s hs ⟨ho, h⟩
    simp only [sampleSteps, List.drop_succ_cons, List.drop_zero, List.mem_cons, List.not_mem_nil, or_false] at hs
    rcases hs with rfl | rfl
    · obtain ⟨_, ⟨x, y, hx, hy, ht⟩, _⟩ := ho
      cases hx
      cases hy
      exact ht (by decide)
    · cases h
  · exact .set (sampleSteps.take 4 |>.map Step.spec) (.int 7000) 7000 (small_int 7000) (by decide)

theorem sample_fits : (∀ d ∈ sampleProgram, d.Fits) ∧ ∀ x ∈ [samplePicture, sampleText], x.Fits := by
  constructor
  · intro d hd
    simp only [sampleProgram, List.mem_cons, List.not_mem_nil, or_false] at hd
    rcases hd with rfl | rfl | rfl | rfl
    · have hb : ∀ s, HVal.v (.str (py! "+34600000000")) = .v (.str s) → ∀ c ∈ s, c < 256 := by
        intro s hs; cases hs; decide
      exact ⟨by decide, faithful_survives hb (.text .to _ ⟨by decide, by decide, 43, rfl, by decide, by decide⟩), hb, by decide, by decide, by decide⟩
    · have hb : ∀ s, HVal.v (.str (py! "x")) = .v (.str s) → ∀ c ∈ s, c < 256 := by
        intro s hs; cases hs; decide
      exact ⟨by decide, faithful_survives hb (.text .subject _ ⟨by decide, by decide, 120, rfl, by decide, by decide⟩), hb, by decide, by decide, by decide⟩
    · trivial
    · exact ⟨by decide, by decide, by decide, by decide⟩
  · intro x hx
    simp only [List.mem_cons, List.not_mem_nil, or_false] at hx
    rcases hx with rfl | rfl
    · exact ⟨⟨⟨by decide, 105, rfl, by decide, by decide⟩, by decide⟩, by decide,
        fun f h => by injection h with h; subst h; exact ⟨⟨by decide, by decide, 97, rfl, by decide⟩, by decide⟩, by decide⟩
    · exact ⟨⟨⟨by decide, 116, rfl, by decide, by decide⟩, by decide⟩, by decide, fun f h => (by cases h), by decide⟩

/-- the hypotheses of `C82_arrives` hold for this program -/
example (ord : Dict HVal → Dict HVal) (ho : ∀ d, (ord d).Perm d) (rnd : Nat) : ∃ o m' m2,
    encode sampleEnv ord rnd (msgAfter (deeds sampleProgram)) = .ok o m' ∧ decodeData o = .ok m2 ∧
    m2.headers.get (py! "To") = some (.v (.str (py! "+34600000000"))) ∧ m2.headers.get (py! "Subject") = none ∧
    m2.dataParts.tail.map DataPart.data = [some [1, 2, 3], some (py! "hello")] := by
  have hlen : ∀ smil, (msgAfter (deeds sampleProgram)).smil sampleEnv = .ok smil → smil.length < 2 ^ 63 := by
    intro smil hs
    have : (match (msgAfter (deeds sampleProgram)).smil sampleEnv with
      | .ok s => decide (s.length < 1000) | .error _ => false) = true := by decide +kernel
    rw [hs] at this
    exact Nat.lt_trans (of_decide_eq_true this) (by decide)
  have hto : (msgAfter (deeds sampleProgram)).headers.get (py! "To") = some (.v (.str (py! "+34600000000"))) := by decide +kernel
  have hsu : (msgAfter (deeds sampleProgram)).headers.get (py! "Subject") = none := by decide +kernel
  obtain ⟨o, m', m2, q, qs, smil, h1, h2, h3, _, h4, _, _, h5, _⟩ := C82_arrives sampleEnv ord rnd sampleProgram _ _ ho
    sample_amounts (fun j s hs ha => by
      rcases j with _ | j
      · cases hs; cases ha
      · simp at hs) (C82_headers _ sample_fits.1).1 (C82_headers _ sample_fits.1).2.1 (C82_headers _ sample_fits.1).2.2 sample_fits.2 (fun _ => ⟨_, .inl ((C81_header _ _ _).1 hto)⟩) hlen (by decide)
  refine ⟨o, m', m2, h1, h2, (h3 _ _ (by decide)).2 ((C81_header _ _ _).1 hto),
    (h3 _ _ (by decide)).2 ((C81_header _ _ _).1 hsu), ?_⟩
  rw [h4]
  cases h5 with
  | cons a b =>
    cases b with
    | cons b c =>
      cases c
      simp only [List.tail_cons, List.map_cons, List.map_nil, a.1, b.1]
      rfl

/-- the hypotheses of `C82_refused` hold for a program that adds a recording and no text -/
example (ord : Dict HVal → Dict HVal) (ho : ∀ d, (ord d).Perm d) (rnd : Nat) : ∃ m', encode sampleEnv ord rnd (msgAfter (deeds
    [.header (py! "To") (.v (.str (py! "+34600000000"))), .slide [⟨sampleEnv, .inl (.audio, .str (py! "/tmp/a.jpg"), .int 1, .int 9)⟩]])) =
    .err .nameError m' := by
  have hfit : ∀ d ∈ [Doing.header (py! "To") (.v (.str (py! "+34600000000"))),
      .slide [⟨sampleEnv, .inl (.audio, .str (py! "/tmp/a.jpg"), .int 1, .int 9)⟩]], d.Fits := by
    intro d hd
    simp only [List.mem_cons, List.not_mem_nil, or_false] at hd
    rcases hd with rfl | rfl
    · exact sample_fits.1 _ (by simp [sampleProgram])
    · trivial
  refine C82_refused sampleEnv ord rnd _ [⟨4000, none, none, some ⟨py! "a.jpg", 1, 9⟩⟩] [⟨py! "image/jpeg", [1, 2, 3], py! "a.jpg", some (py! "a.jpg"), 1, 9⟩] ho
    (.header _ _ _ _ _ (.slide _ none (some ⟨py! "image/jpeg", [1, 2, 3], py! "a.jpg", some (py! "a.jpg"), 1, 9⟩) none 4000 (.nothing _ _ ?_) ?_ (.nothing _ _ ?_) ?_ _ _ _ .nil)) ?_
    (C82_headers _ hfit).1 (C82_headers _ hfit).2.1 (C82_headers _ hfit).2.2 ?_
  · intro s hs ⟨_, h⟩
    simp only [List.mem_cons, List.not_mem_nil, or_false] at hs
    subst hs
    cases h
  · exact .file .audio (by decide) [] [] sampleEnv (py! "/tmp/a.jpg") [1, 2, 3] [1, 2, 3] (by decide) (by decide) _ _ 1 9
      (small_int 1) (small_int 9) (by unfold TimesOk; omega) (by simp)
  · intro s hs ⟨_, h⟩
    simp only [List.mem_cons, List.not_mem_nil, or_false] at hs
    subst hs
    cases h
  · exact .keep [] _ _ (fun ⟨_, d, h⟩ => by cases h) .start
  · intro h
    obtain ⟨i, hi, ⟨s, hs, ht⟩, _⟩ := h 0 _ rfl rfl
    have : i = 0 := by omega
    subst this
    cases hs
    cases ht
  · intro _
    exact ⟨_, .inl ((C81_header _ _ (some (.v (.str (py! "+34600000000"))))).1 (by decide +kernel))⟩

end Verif.Props

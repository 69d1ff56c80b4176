import Verif.Props.Access
import Verif.Section.LocalAll
/-
  Where undefined behaviour comes from: a reading function that reaches it has met a record with certain data.
-/
set_option linter.unusedVariables false
set_option linter.unusedSectionVars false
set_option linter.unusedSimpArgs false
namespace ENDFtk
open Props
variable [Disco]

/-- Whenever the behaviour of the reading function is undefined, some line of the text shows a control record with `Q`. -/
class Blames (Q : Cont → Prop) {α : Type} (p : Parser α) : Prop where
  blame : ∀ {s}, p s = .error .ub → ∃ k c, LineShows k s c ∧ Q c

/-- The same for a component. -/
class CBlames (Q : Cont → Prop) {α : Type} (c : Comp α) : Prop where
  read : ∀ t, Blames Q (c.read t)

instance {Q : Cont → Prop} {α : Type} (c : Comp α) [h : CBlames Q c] (t : Nums) : Blames Q (c.read t) := h.read t

namespace Blames
variable {α β : Type} {Q : Cont → Prop}

instance pure (a : α) : Blames Q (Pure.pure a : Parser α) := ⟨fun h => by cases h⟩
instance fail : Blames Q (Parser.fail .exc : Parser α) := ⟨fun h => by cases h⟩

theorem later {p : Parser α} [hp : ENDFtk.Local p] {s s' : St} {a : α} (h : p s = .ok (a, s')) {k : Nat} {c : Cont} (hl : LineShows k s' c) :
    ∃ k, LineShows k s c := by
  obtain ⟨ls, k1, -⟩ := hp.run h
  exact ⟨k + ls.length, by unfold LineShows; rw [lineAt_lines k1]; exact hl⟩

theorem bind {p : Parser α} {f : α → Parser β} [hl : ENDFtk.Local p] (hp : Blames Q p) (hf : ∀ a, Blames Q (f a)) : Blames Q (p >>= f) where
  blame := by
    intro s h
    cases hps : p s with
    | error e =>
      rw [Parser.bind_err hps] at h
      cases h
      exact hp.blame hps
    | ok r =>
      obtain ⟨a, s'⟩ := r
      rw [Parser.bind_ok hps] at h
      obtain ⟨k, c, h1, h2⟩ := (hf a).blame h
      obtain ⟨k', h3⟩ := later hps h1
      exact ⟨k', c, h3, h2⟩

theorem mapErr {p : Parser α} {g : Err → Err} (hg : ∀ e, g e = .ub → e = .ub) (hp : Blames Q p) : Blames Q (Parser.mapErr g p) where
  blame := by
    intro s h
    obtain ⟨e, h1, h2⟩ := Parser.mapErr_error.mp h
    cases hg e h2
    exact hp.blame h1

theorem ite {p q : Parser α} {c : Prop} {inst : Decidable c} (hp : Blames Q p) (hq : Blames Q q) : Blames Q (if c then p else q) := by
  split
  · exact hp
  · exact hq

theorem ofReads {E : Err → Prop} (hE : ¬E .ub) {R : α → List Text → Prop} {p : Parser α} (h : Reads E R p) : Blames Q p where
  blame := by
    intro s hs
    have := h s
    rw [hs] at this
    exact (hE this).elim

theorem liftE {x : Except Err α} (h : x ≠ .error .ub) : Blames Q (liftE x) where
  blame := by
    intro s hs
    cases x with
    | ok a => cases hs
    | error e => simp only [ENDFtk.liftE] at hs; cases hs; exact (h rfl).elim

end Blames


theorem stdErr_ub : ¬StdErr .ub := by intro h; cases h

theorem CBlames.ofLaw {Q : Cont → Prop} {α : Type} {c : Comp α} (h : c.Law StdErr) : CBlames Q c := ⟨fun t => Blames.ofReads stdErr_ub (h.reads t)⟩

theorem catchStd_isUb (e : Err) (h : catchStd e = .ub) : e = .ub := by cases e <;> simp_all [catchStd]

section
variable {α β σ μ V : Type} {Q : Cont → Prop}

instance (p : Parser α) [hp : Blames Q p] : Blames Q (Parser.mapErr catchStd p) := .mapErr catchStd_isUb hp

theorem Blames.readMany {p : Parser α} [Local p] (hp : Blames Q p) : ∀ n, Blames Q (readMany p n)
  | 0 => .pure _
  | n + 1 => .bind hp fun _ => .bind (readMany hp n) fun _ => .pure _

instance (p : Parser α) [Local p] [hp : Blames Q p] (n : Int) : Blames Q (readSequence p n) := .ite .fail (hp.readMany _)
instance (p : Parser α) [Local p] [hp : Blames Q p] (n : Int) : Blames Q (readSequenceL p n) := .ite .fail (hp.readMany _)

instance (p : Parser α) [Local p] [hp : Blames Q p] (n : Nat) : Blames Q (readMany p n) := hp.readMany n

instance (r : TAB2) (xs : List α) : Blames Q (liftE (ISeq.make r xs)) := .liftE (by
  intro h; unfold ISeq.make at h; grind)

instance : CBlames Q contC := .ofLaw contC_law
instance : CBlames Q listC := .ofLaw listC_law
instance : CBlames Q tab1C := .ofLaw tab1C_law
instance : CBlames Q tab2C := .ofLaw tab2C_law
instance (t : Nums) : Blames Q (readCont t) := Blames.ofReads stdErr_ub (contC_law.reads t)
instance (t : Nums) : Blames Q (readLIST t) := Blames.ofReads stdErr_ub (listC_law.reads t)
instance (t : Nums) : Blames Q (readTAB1 t) := Blames.ofReads stdErr_ub (tab1C_law.reads t)
instance (t : Nums) : Blames Q (readTAB2 t) := Blames.ofReads stdErr_ub (tab2C_law.reads t)

end

/-- Follows the structure of a reading function. -/
macro "blam" : tactic => `(tactic| repeat' (first
  | assumption
  | infer_instance
  | apply Blames.bind
  | apply Blames.mapErr catchStd_isUb
  | apply Blames.ite
  | intro _
  | split))

syntax "cblam " ident : tactic
macro_rules
  | `(tactic| cblam $d:ident) => `(tactic| first
      | (unfold $d; infer_instance)
      | (refine ⟨fun t => ?_⟩; dsimp only [$d:ident]; blam)
      | (unfold $d; blam))

section
variable {α β σ μ V : Type} {Q : Cont → Prop}

instance : CBlames Q nilC := ⟨fun t => by show Blames Q (pure ()); infer_instance⟩
instance (c : Comp α) (d : α → Comp β) [CLocal c] [CBlames Q c] [∀ a, CLocal (d a)] [∀ a, CBlames Q (d a)] : CBlames Q (c.andThen d) := ⟨fun t => by
  unfold Comp.andThen; simp only; blam⟩
instance (c : Comp α) (n : Int) [CLocal c] [CBlames Q c] : CBlames Q (seqC c n) := ⟨fun t => by unfold seqC; simp only; blam⟩
instance (c : Comp α) (P : Printer V) (f : α → V) [CLocal c] [CBlames Q c] : CBlames Q (c.via P f) := ⟨fun t => by unfold Comp.via; simp only; blam⟩
instance (P : Printer V) : CBlames Q P.none := ⟨fun t => by unfold Printer.none; simp only; blam⟩
instance (c d : Comp V) (p : Prop) [Decidable p] [CBlames Q c] [CBlames Q d] : CBlames Q (if p then c else d) := by split <;> infer_instance
instance (c : Comp α) [CLocal c] [CBlames Q c] : CBlames Q (iseqC c) := by cblam iseqC
instance (c : TAB2 → Comp α) [∀ r, CLocal (c r)] [∀ r, CBlames Q (c r)] : CBlames Q (iseqD c) := by cblam iseqD
instance (c : Comp α) (n : Int) [CLocal c] [CBlames Q c] : CBlames Q (manyC c n) := by cblam manyC
instance (p : Prop) [Decidable p] (c : Comp α) [CLocal c] [CBlames Q c] : CBlames Q (optC p c) := by cblam optC
instance (H : Header σ) (m : Comp μ) (c : Comp α) [CLocal m] [CBlames Q m] [CLocal c] [CBlames Q c] : CBlames Q (contSeqC H m c) := by cblam contSeqC

instance checked_noOv (c : Comp α) (P : α → Prop) [DecidablePred P] [CLocal c] [CBlames Q c] : CBlames Q (c.checked P) := ⟨fun t => by
  unfold Comp.checked; simp only [if_false]; blam⟩

/-- The line of a LIST record. -/
def listLine (l : LIST) : Cont := ⟨l.c1, l.c2, l.l1, l.l2, l.npl, l.n2⟩

theorem list_checked {P : LIST → Prop} [DecidablePred P] {ov : LIST → Prop} [DecidablePred ov] (h : ∀ l, ¬P l → ov l → Q (listLine l)) :
    CBlames Q (listC.checked P ov) := ⟨fun t => ⟨by
  intro s hs
  have hs : (do let a ← readLIST t; if P a then pure a else Parser.fail (if ov a then .ub else .exc) : Parser LIST) s = .error .ub := hs
  cases hl : readLIST t s with
  | error e =>
    rw [Parser.bind_err hl] at hs
    cases hs
    exact Blames.blame (p := readLIST t) hl
  | ok r =>
    obtain ⟨l, s'⟩ := r
    rw [Parser.bind_ok hl] at hs
    refine ⟨0, listLine l, list_line hl, ?_⟩
    by_cases hp : P l
    · rw [if_pos hp] at hs; cases hs
    · rw [if_neg hp] at hs
      by_cases ho : ov l
      · exact h l hp ho
      · rw [if_neg ho] at hs; cases hs⟩⟩

theorem list_checkedE' {c : Comp LIST} [CBlames Q c] (hc : ∀ {t s a s'}, c.read t s = .ok (a, s') → readLIST t s = .ok (a, s')) {f : LIST → Except Err Unit}
    (h : ∀ l, f l = .error .ub → Q (listLine l)) : CBlames Q (c.checkedE f) := ⟨fun t => ⟨by
  intro s hs
  have hs : (do let a ← c.read t; liftE (f a); pure a : Parser LIST) s = .error .ub := hs
  cases hl : c.read t s with
  | error e =>
    rw [Parser.bind_err hl] at hs
    cases hs
    exact Blames.blame (p := c.read t) hl
  | ok r =>
    obtain ⟨l, s'⟩ := r
    rw [Parser.bind_ok hl] at hs
    refine ⟨0, listLine l, list_line (hc hl), h l ?_⟩
    cases hf : f l with
    | ok u => rw [hf] at hs; cases hs
    | error e => rw [hf] at hs; rw [Parser.bind_err (e := e) rfl] at hs; cases hs; rfl⟩⟩

theorem list_checkedE {f : LIST → Except Err Unit} (h : ∀ l, f l = .error .ub → Q (listLine l)) : CBlames Q (listC.checkedE f) :=
  list_checkedE' (fun h => h) h

end

end ENDFtk

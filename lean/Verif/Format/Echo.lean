import Verif.Format.Accept
import Verif.Format.PrintProof
/-
  The records that were read and the records that are printed.
-/
set_option linter.unusedVariables false
set_option linter.unusedSectionVars false
set_option linter.unusedSimpArgs false
namespace ENDFtk
variable [Disco]
open Fmt

namespace Fmt

/-- The types that keep their records as they are. -/
def exact : SectionType → Prop
  | .mf1mt458 | .mf2mt151 | .mf4 | .mf14 | .mf31 | .mf33 | .mf34 | .mf40 => False
  | _ => True

/-- The types that keep their records as they are, in the same order, except for the fields of CONT records. -/
def exactUpToCont : SectionType → Prop
  | .mf1mt458 | .mf2mt151 => False
  | _ => True

/-- The same record, or both are CONT records. -/
def same : Rec → Rec → Prop
  | .cont _, .cont _ => True
  | r, r' => r = r'

/-- The same records one by one, apart from the fields of CONT records. -/
inductive Same : List Rec → List Rec → Prop
  | nil : Same [] []
  | cons {r r' : Rec} {rs rs' : List Rec} : same r r' → Same rs rs' → Same (r :: rs) (r' :: rs')

end Fmt

theorem Fmt.Same.refl (rs : List Rec) : Same rs rs := by
  induction rs with
  | nil => exact .nil
  | cons r rs ih => refine .cons ?_ ih; cases r <;> trivial

theorem Fmt.Same.of_eq {r r' : List Rec} (h : r = r') : Same r r' := h ▸ .refl r

theorem Fmt.Same.append {a b c d : List Rec} (h1 : Same a b) (h2 : Same c d) : Same (a ++ c) (b ++ d) := by
  induction h1 with
  | nil => exact h2
  | cons h _ ih => exact .cons h ih

theorem many_flat {α : Type} {G : α → List Rec → Prop} {f : α → List Rec} (h : ∀ x rs, G x rs → rs = f x) {xs : List α} {rs : List Rec} (hm : Many G xs rs) :
    rs = xs.flatMap f := by
  induction hm with
  | nil => rfl
  | cons h1 _ ih => rw [List.flatMap_cons, h _ _ h1, ih]

theorem many_same {α : Type} {G : α → List Rec → Prop} {f : α → List Rec} (h : ∀ x rs, G x rs → Same rs (f x)) {xs : List α} {rs : List Rec} (hm : Many G xs rs) :
    Same rs (xs.flatMap f) := by
  induction hm with
  | nil => exact .nil
  | cons h1 _ ih => rw [List.flatMap_cons]; exact (h _ _ h1).append ih

theorem flatMap_single {α : Type} (f : α → Rec) (xs : List α) : xs.flatMap (fun x => [f x]) = xs.map f := by
  induction xs with
  | nil => rfl
  | cons x xs ih => simp [ih]

theorem tab2Of_lists {b : ISeq LIST} {rs : List Rec} (h : tab2Of .list b rs) : rs = tab2P listP b := by
  rw [h.1, tab2P]; congr 1; exact (flatMap_single _ _).symm
theorem tab2Of_tab1s {b : ISeq TAB1} {rs : List Rec} (h : tab2Of .tab1 b rs) : rs = tab2P tab1P b := by
  rw [h.1, tab2P]; congr 1; exact (flatMap_single _ _).symm
theorem tab2Lists_eq {P : TAB2 → LIST → Prop} {b : ISeq LIST} {rs : List Rec} (h : tab2Lists P b rs) : rs = tab2P listP b := by
  rw [h.1, tab2P]; congr 1; exact (flatMap_single _ _).symm

theorem nubar_exact {n : Int} {x : Nubar} {rs : List Rec} (h : nubar n x rs) : rs = nubarP x := by
  cases x <;> exact h.2

theorem decay_exact {n : Int} {x : Decay} {rs : List Rec} (h : decay n x rs) : rs = decayP x := by
  cases x with
  | indep r => exact h.2
  | dep b => rw [h.2.1]; simp only [decayP, tab2P]; congr 1; exact (flatMap_single _ _).symm

theorem spectrum_exact {n : Int} {x : Spectrum} {rs : List Rec} (h : spectrum n x rs) : rs = spectrumP x := by
  cases x with
  | tabulated b => exact tab2Of_tab1s h.2
  | _ => exact h.2

theorem law6_exact {mt n : Int} {x : Law6} {rs : List Rec} (h : law6 mt n x rs) : rs = law6P x := by
  cases x with
  | elsewhere l => exact h.2.2.2
  | continuum b => exact tab2Lists_eq h.2
  | twoBody b => exact tab2Lists_eq h.2
  | charged b => exact tab2Lists_eq h.2
  | laboratory b =>
    obtain ⟨_, ⟨r, rfl, hm⟩, _⟩ := h
    rw [law6P, tab2P, many_flat (f := tab2P tab1P) (fun _ _ h => tab2Of_tab1s h) hm]
  | _ => exact h.2

theorem coherent_exact {x : TabLists} {rs : List Rec} (h : coherent x rs) : rs = tabListsP x := h.1

theorem filterMap_opt (s : List (Option TAB1)) : s.filterMap (·.map Rec.tab1) = s.flatMap (fun o => o.toList.map .tab1) := by
  induction s with
  | nil => rfl
  | cons o s ih => cases o <;> simp [ih]

theorem mf7mt4_exact {h : Cont} {x : ScatteringData} {rs : List Rec} (hx : Fmt.mf7mt4 h x rs) : rs = scatteringP x := by
  obtain ⟨-, -, -, ⟨r, rfl, hr⟩, -⟩ := hx
  rw [filterMap_opt, scatteringP]
  congr 3
  cases hl : x.law with
  | none => rw [hl] at hr; exact hr.2
  | some b =>
    rw [hl] at hr
    obtain ⟨-, ⟨r1, rfl, hm⟩, -⟩ := hr
    rw [many_flat (f := tabListsP) (fun _ _ h => h.1) hm]
    simp [tab2P]

theorem law26_exact {n : Int} {x : Law26} {rs : List Rec} (h : law26 n x rs) : rs = Fmt.law26P x := by
  cases x with
  | continuum b => exact tab2Lists_eq h.2
  | twoBody b => exact tab2Of_lists h.2.1
  | transfer r => exact h.2

theorem records_exact (T : SectionType) (he : Fmt.exact T) (awr : Dbl) (h : Cont) (mt : Int) (x : T.Data) (rs : List Rec) (hb : Fmt.body T h mt x rs) :
    rs = Fmt.records T awr x := by
  cases T with
  | mf1mt451 => exact hb.2.2.2.2.1
  | mf1mt452 => exact nubar_exact hb
  | mf1mt455 => obtain ⟨r1, r2, rfl, h1, h2⟩ := hb; rw [decay_exact h1, nubar_exact h2]; rfl
  | mf1mt456 => exact nubar_exact hb
  | mf1mt458 => exact he.elim
  | mf1mt460 => cases x with
    | discrete l => exact hb.2.1
    | continuous r => exact hb.2.1
  | mf2mt151 => exact he.elim
  | mf2mt152 => exact hb.2.2.1
  | mf3 => exact hb
  | mf4 => exact he.elim
  | mf5 => exact many_flat (fun y r h => by obtain ⟨r', rfl, h2⟩ := h; rw [spectrum_exact h2]) hb.2.2
  | mf6 => exact many_flat (fun y r h => by obtain ⟨r', rfl, h2⟩ := h; rw [law6_exact h2]) hb.2.2.2
  | mf7mt2 => cases x with
    | coherent b => exact hb.2.1
    | incoherent r => exact hb.2
    | mixed b r => obtain ⟨_, r1, rfl, h1⟩ := hb; rw [coherent_exact h1]; rfl
  | mf7mt4 => exact mf7mt4_exact hb
  | mf7mt451 => exact hb.1.2.1
  | mf8mt454 => exact hb.2.1
  | mf8mt457 =>
    obtain ⟨-, -, -, -, -, r, rfl, hm⟩ := hb
    rw [many_flat (f := decaySpectrumP) (fun _ _ h => h.1) hm]; rfl
  | mf8mt459 => exact hb.2.1
  | mf9 => exact hb.2.2
  | mf10 => exact hb.2.2
  | mf12 => cases x with
    | multiplicities b => exact hb.2.2.2.2
    | transitions l => exact hb.2.1
  | mf13 => exact hb.2.2.2
  | mf14 => exact he.elim
  | mf15 => exact many_flat (fun y r h => by obtain ⟨-, r', rfl, h2⟩ := h; rw [tab2Of_tab1s h2]) hb.2.2
  | mf23 => exact hb
  | mf26 => exact many_flat (fun y r h => by obtain ⟨r', rfl, h2⟩ := h; rw [law26_exact h2]) hb.2
  | mf27 => exact hb
  | mf28 => exact hb.2.1
  | mf31 => exact he.elim
  | mf33 => exact he.elim
  | mf34 => exact he.elim
  | mf35 => exact hb.2.1
  | mf40 => exact he.elim

theorem same_cons {r : List Rec} {r' : List Rec} {c c' : Cont} (h : Same r r') : Same (.cont c :: r) (.cont c' :: r') := .cons trivial h

theorem angular_exact {n : Int} {x : Angular} {rs : List Rec} (h : angular n x rs) : rs = angularP x := by
  cases x with
  | isotropic => exact h.2
  | legendre b => exact tab2Of_lists h.2
  | tabulated b => exact tab2Of_tab1s h.2
  | mixed b => obtain ⟨-, ⟨r1, r2, rfl, h1, h2⟩, -⟩ := h; rw [tab2Of_lists h1, tab2Of_tab1s h2]; rfl

theorem derived_same {x : Derived} {rs : List Rec} (h : derived x rs) : Same rs (derivedP x) := by
  obtain ⟨c, h⟩ := h
  cases x with
  | redundant l => rw [h.2]; exact same_cons (.refl _)
  | ratio n l => rw [h.2.2]; exact same_cons (.refl _)

theorem reactionBlock_same {x : ReactionBlock} {rs : List Rec} (h : reactionBlock x rs) : Same rs (reactionBlockP x) := by
  obtain ⟨c, r, rfl, -, -, -, -, -, -, hm, -⟩ := h
  exact same_cons ((many_same (fun _ _ h => derived_same h) hm).append (.refl _))

theorem legendreBlock_same {x : LegendreBlock} {rs : List Rec} (h : legendreBlock x rs) : Same rs (legendreBlockP x) := by
  obtain ⟨c, rfl, -⟩ := h
  exact same_cons (.refl _)

theorem reactionBlock34_same {mt : Int} {x : ReactionBlock34} {rs : List Rec} (h : reactionBlock34 mt x rs) : Same rs (reactionBlock34P x) := by
  obtain ⟨c, r, rfl, -, -, -, -, -, hm⟩ := h
  exact same_cons (many_same (fun _ _ h => legendreBlock_same h) hm)

theorem levelBlock_same {x : LevelBlock} {rs : List Rec} (h : levelBlock x rs) : Same rs (levelBlockP x) := by
  obtain ⟨c, r, rfl, -, -, -, -, -, hm⟩ := h
  exact same_cons (many_same (fun _ _ h => reactionBlock_same h) hm)

theorem records_same (T : SectionType) (he : Fmt.exactUpToCont T) (awr : Dbl) (h : Cont) (mt : Int) (x : T.Data) (rs : List Rec) (hb : Fmt.body T h mt x rs) :
    Same rs (Fmt.records T awr x) := by
  cases T with
  | mf1mt458 => exact he.elim
  | mf2mt151 => exact he.elim
  | mf4 =>
    obtain ⟨c, r, rfl, -, h2⟩ := hb
    rw [angular_exact h2]; exact same_cons (.refl _)
  | mf14 =>
    obtain ⟨-, hb⟩ := hb
    rcases hb with ⟨-, h2, rfl⟩ | ⟨-, -, iso, other, r1, r2, h2, rfl, -, -, h3, h4⟩
    · show Same [] (x.photons.flatMap Fmt.photonP)
      rw [h2]; exact .nil
    · show Same _ (x.photons.flatMap Fmt.photonP)
      rw [h2, List.flatMap_append]
      refine (many_same (fun y r h => ?_) h3).append (many_same (fun y r h => ?_) h4)
      · obtain ⟨c, rfl, rfl⟩ := h; exact same_cons .nil
      · cases y with
        | isotropic _ _ => exact h.elim
        | legendre b => exact .of_eq (tab2Of_lists h.2)
        | tabulated b => exact .of_eq (tab2Of_tab1s h.2)
  | mf31 => exact many_same (fun _ _ h => reactionBlock_same h) hb.2
  | mf33 => exact many_same (fun _ _ h => reactionBlock_same h) hb.2.2
  | mf34 => exact many_same (fun _ _ h => reactionBlock34_same h) hb.2.2
  | mf40 => exact many_same (fun _ _ h => levelBlock_same h) hb.2.2
  | _ => refine .of_eq (records_exact _ ?_ awr h mt x rs hb); trivial

end ENDFtk

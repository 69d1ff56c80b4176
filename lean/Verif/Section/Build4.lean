import Verif.Section.Build
import Verif.Section.MF31
/-
  The public constructors from data, part 4: section 152 of file 2, files 31, 33, 34, 35 and 40.
-/
set_option linter.unusedVariables false
set_option linter.unusedSectionVars false
set_option linter.unusedSimpArgs false
namespace ENDFtk
variable [Disco]
namespace Make

/-! ### MF2 MT152 -/

/-- section/2/152/src/ctor.hpp 6-12, 45-60 -/
def mf2mt152 (za : Int) (awr : Dbl) (lssf : Bool) (interpolation : Int) (temperature : Dbl) (dilutions energies : List Dbl)
    (total elastic fission capture cwTotal : List (List Dbl)) : Except Err (Sect Dilution) :=
  ENDFtk.mf2mt152.build 152 za awr ((DilutionTables.make temperature dilutions energies total elastic fission capture cwTotal).bind fun l => .ok ⟨lssf, interpolation, l⟩)

/-- section/2/152/src/ctor.hpp 6-12, 83-94 -/
def mf2mt152Single (za : Int) (awr : Dbl) (lssf : Bool) (interpolation : Int) (temperature : Dbl) (energies total elastic fission capture cwTotal : List Dbl) :
    Except Err (Sect Dilution) :=
  ENDFtk.mf2mt152.build 152 za awr ((DilutionTables.make1 temperature energies total elastic fission capture cwTotal).bind fun l => .ok ⟨lssf, interpolation, l⟩)

/-! ### components of the covariance files -/

/-- Explicit covariance data made by one of the constructors; `lb` is the LB of the constructor of CovariancePairs. -/
inductive ExplicitBuilt : LIST → Prop
  | pairs {lb : Int} {energies fvalues : List Dbl} {l : LIST} (hl : IsInt32 lb) (h : CovariancePairs.make2 lb energies fvalues = .ok l) : ExplicitBuilt l
  | pairs4 {lb : Int} {ek fk el fl : List Dbl} {l : LIST} (hl : IsInt32 lb) (h : CovariancePairs.make4 lb ek fk el fl = .ok l) : ExplicitBuilt l
  | square {ls : Int} {energies values : List Dbl} {l : LIST} (h : SquareMatrix.make ls energies values = .ok l) : ExplicitBuilt l
  | rectangular {rowEnergies columnEnergies values : List Dbl} {l : LIST} (h : RectangularMatrix.make rowEnergies columnEnergies values = .ok l) : ExplicitBuilt l

/-- Derived covariance data made by one of the constructors, with an LTY that the format has (C48_derivedRatio: the constructor does not verify it). -/
inductive DerivedBuilt : Derived → Prop
  | redundant {e1 e2 : Dbl} {coefficients : List Dbl} {reactions : List Int} {d : Derived} (h : DerivedRedundant.make e1 e2 coefficients reactions = .ok d) : DerivedBuilt d
  | ratio {lty : Int} {e1 e2 : Dbl} {mats mts xmfs xlfss : Int} {energies weights : List Dbl} {d : Derived} (hl : lty = 1 ∨ lty = 2 ∨ lty = 3)
      (h : DerivedRatio.make lty e1 e2 mats mts xmfs xlfss energies weights = .ok d) : DerivedBuilt d

/-- section/ReactionBlock/src/ctor.hpp 12-18, and (with one array empty) 31-34, 48-51: nothing is verified -/
def reactionBlock (xmf1 xlfs1 mat1 mt1 : Int) (nc : List Derived) (ni : List LIST) : ReactionBlock := ⟨xmf1, xlfs1, mat1, mt1, nc, ni⟩

/-- The numbers are of type `int`, the covariance data were made by the constructors. -/
def ReactionBuilt (b : ReactionBlock) : Prop := (∀ x ∈ b.derived, DerivedBuilt x) ∧ ∀ x ∈ b.explicit, ExplicitBuilt x

/-- The integers fit. -/
def ReactionInts (b : ReactionBlock) : Prop :=
  IsInt32 b.xmf1 ∧ IsInt32 b.xlfs1 ∧ IsInt32 b.mat1 ∧ IsInt32 b.mt1 ∧ SeqInts (fun d : Derived => d.list.Ints) b.derived ∧ SeqInts LIST.Ints b.explicit

/-! ### MF31 and MF33 -/

/-- section/31/src/ctor.hpp 9-12 -/
def mf31 (mt za : Int) (awr : Dbl) (reactions : List ReactionBlock) : Except Err (Sect (List ReactionBlock)) := ENDFtk.mf31.build mt za awr (.ok reactions)

/-- section/33/src/ctor.hpp 9-12 -/
def mf33 (mt za : Int) (awr : Dbl) (reactions : List ReactionBlock) : Except Err (Sect (Int × List ReactionBlock)) := ENDFtk.mf33.build mt za awr (.ok (0, reactions))

/-- section/33/src/ctor.hpp 22-23: the reaction is lumped -/
def mf33Lumped (mt za : Int) (awr : Dbl) (mtl : Int) : Except Err (Sect (Int × List ReactionBlock)) := ENDFtk.mf33.build mt za awr (.ok (mtl, []))

/-! ### MF34 -/

/-- section/34/LegendreBlock/src/ctor.hpp 10-13 -/
def legendreBlock (order order1 lct : Int) (data : List LIST) : LegendreBlock := ⟨order, order1, lct, data⟩

/-- section/34/ReactionBlock/src/ctor.hpp 11-16, verifySize.hpp 1-35: `mt` is compared, but not kept -/
def reactionBlock34 (mt mt1 nl nl1 : Int) (blocks : List LegendreBlock) : Except Err ReactionBlock34 :=
  if legendreSizeOk nl nl1 (asInt blocks.length) (mt == mt1) then .ok ⟨mt1, nl, nl1, blocks⟩
  else .error (if legendreSizeOv nl nl1 (mt == mt1) then .ub else .exc)

/-- A reaction block made for the MT number. -/
def Reaction34Built (mt : Int) (b : ReactionBlock34) : Prop := ∃ mt1 nl nl1 blocks,
  (∀ x ∈ blocks, ∀ l ∈ x.data, ExplicitBuilt l) ∧ reactionBlock34 mt mt1 nl nl1 blocks = .ok b

/-- The integers fit. -/
def LegendreBlockInts (b : LegendreBlock) : Prop := IsInt32 b.order ∧ IsInt32 b.order1 ∧ IsInt32 b.lct ∧ SeqInts LIST.Ints b.data
/-- The integers fit. -/
def Reaction34Ints (b : ReactionBlock34) : Prop := IsInt32 b.mt1 ∧ IsInt32 b.nl ∧ IsInt32 b.nl1 ∧ SeqInts LegendreBlockInts b.blocks

/-- section/34/src/ctor.hpp 10-13 -/
def mf34 (mt za : Int) (awr : Dbl) (ltt : Int) (reactions : List ReactionBlock34) : Except Err (Sect (Int × List ReactionBlock34)) :=
  ENDFtk.mf34.build mt za awr (.ok (ltt, reactions))

/-! ### MF35 -/

/-- section/35/src/ctor.hpp 9-12 -/
def mf35 (mt za : Int) (awr : Dbl) (blocks : List LIST) : Except Err (Sect (List LIST)) := ENDFtk.mf35.build mt za awr (.ok blocks)

/-! ### MF40 -/

/-- section/40/LevelBlock/src/ctor.hpp 11-14 -/
def levelBlock (qm qi : Dbl) (izap lfs : Int) (reactions : List ReactionBlock) : LevelBlock := ⟨qm, qi, izap, lfs, reactions⟩

/-- The integers fit. -/
def LevelInts (b : LevelBlock) : Prop := IsInt32 b.izap ∧ IsInt32 b.lfs ∧ SeqInts ReactionInts b.reactions

/-- section/40/src/ctor.hpp 10-13 -/
def mf40 (mt za : Int) (awr : Dbl) (lis : Int) (blocks : List LevelBlock) : Except Err (Sect (Int × List LevelBlock)) := ENDFtk.mf40.build mt za awr (.ok (lis, blocks))

end Make
end ENDFtk

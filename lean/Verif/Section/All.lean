import Verif.Section.MF1b
import Verif.Section.MF4
import Verif.Section.MF5
import Verif.Section.MF6
import Verif.Section.MF7
import Verif.Section.MF8
import Verif.Section.MF12
import Verif.Section.MF31
import Verif.Section.MF2
/-
  All modelled section types together (the alternatives of Material.hpp 53-87).
-/
set_option linter.unusedVariables false
set_option linter.unusedSectionVars false
set_option linter.unusedSimpArgs false
namespace ENDFtk
variable [Disco]

/-- The section types of Material.hpp 53-87 (except 32/151). -/
inductive SectionType where
  | mf1mt451 | mf1mt452 | mf1mt455 | mf1mt456 | mf1mt458 | mf1mt460 | mf2mt151 | mf2mt152 | mf3 | mf4 | mf5 | mf6 | mf7mt2 | mf7mt4 | mf7mt451 | mf8mt454 | mf8mt457 | mf8mt459 | mf9 | mf10 | mf12 | mf13 | mf14 | mf15 | mf23 | mf26 | mf27 | mf28 | mf31 | mf33 | mf34 | mf35 | mf40
deriving DecidableEq, Repr

theorem SecDef.Law.weaken {β : Type} {D : SecDef β} (h : D.Law StdErr) : D.Law UbErr :=
  { h with reads := fun head t hf => (h.reads head t hf).conseq (fun _ h => .inl h) (fun _ _ h => h) }

namespace SectionType

/-- The data of a section apart from ZA, AWR and MT. -/
abbrev Data : SectionType → Type
  | .mf1mt451 => Info451
  | .mf1mt452 => Nubar
  | .mf1mt455 => Delayed
  | .mf1mt456 => Nubar
  | .mf1mt458 => Release
  | .mf1mt460 => Photons
  | .mf2mt151 => List Isotope
  | .mf2mt152 => Dilution
  | .mf3 => TAB1
  | .mf4 => MF4Data
  | .mf5 => List Partial5
  | .mf6 => MF6Data
  | .mf7mt2 => Elastic
  | .mf7mt4 => ScatteringData
  | .mf7mt451 => List LIST
  | .mf8mt454 => List LIST
  | .mf8mt457 => DecayData
  | .mf8mt459 => List LIST
  | .mf9 => Products
  | .mf10 => Products
  | .mf12 => PhotonProduction
  | .mf13 => TotalPartials
  | .mf14 => MF14Data
  | .mf15 => List Partial15
  | .mf23 => TAB1
  | .mf26 => List Product26
  | .mf27 => TAB1
  | .mf28 => List LIST
  | .mf31 => List ReactionBlock
  | .mf33 => Int × List ReactionBlock
  | .mf34 => Int × List ReactionBlock34
  | .mf35 => List LIST
  | .mf40 => Int × List LevelBlock

/-- The model of the section type. -/
def defn : (T : SectionType) → SecDef T.Data
  | .mf1mt451 => ENDFtk.mf1mt451
  | .mf1mt452 => ENDFtk.mf1nubar 452
  | .mf1mt455 => ENDFtk.mf1mt455
  | .mf1mt456 => ENDFtk.mf1nubar 456
  | .mf1mt458 => ENDFtk.mf1mt458
  | .mf1mt460 => ENDFtk.mf1mt460
  | .mf2mt151 => ENDFtk.mf2mt151
  | .mf2mt152 => ENDFtk.mf2mt152
  | .mf3 => ENDFtk.mf3
  | .mf4 => ENDFtk.mf4
  | .mf5 => ENDFtk.mf5
  | .mf6 => ENDFtk.mf6
  | .mf7mt2 => ENDFtk.mf7mt2
  | .mf7mt4 => ENDFtk.mf7mt4
  | .mf7mt451 => ENDFtk.mf7mt451
  | .mf8mt454 => ENDFtk.mf8mt454
  | .mf8mt457 => ENDFtk.mf8mt457
  | .mf8mt459 => ENDFtk.mf8mt459
  | .mf9 => ENDFtk.mf9
  | .mf10 => ENDFtk.mf10
  | .mf12 => ENDFtk.mf12
  | .mf13 => ENDFtk.mf13
  | .mf14 => ENDFtk.mf14
  | .mf15 => ENDFtk.mf15
  | .mf23 => ENDFtk.mf23
  | .mf26 => ENDFtk.mf26
  | .mf27 => ENDFtk.mf27
  | .mf28 => ENDFtk.mf28
  | .mf31 => ENDFtk.mf31
  | .mf33 => ENDFtk.mf33
  | .mf34 => ENDFtk.mf34
  | .mf35 => ENDFtk.mf35
  | .mf40 => ENDFtk.mf40

/-- The types for which every failure of reading is an exception derived from `std::exception`; for the others a text can also
    violate the precondition of a library function or make an operation on `int`s overflow. -/
def clean : SectionType → Bool
  | .mf2mt151 | .mf2mt152 | .mf6 | .mf7mt4 | .mf7mt451 | .mf8mt454 | .mf8mt457 | .mf8mt459 | .mf12 | .mf26 | .mf28 | .mf31 | .mf33 | .mf34 | .mf35 | .mf40 => false
  | _ => true

theorem lawUb : (T : SectionType) → T.defn.Law UbErr
  | .mf1mt451 => SecDef.Law.weaken mf1mt451_law
  | .mf1mt452 => SecDef.Law.weaken (mf1nubar_law (by decide) (by decide))
  | .mf1mt455 => SecDef.Law.weaken mf1mt455_law
  | .mf1mt456 => SecDef.Law.weaken (mf1nubar_law (by decide) (by decide))
  | .mf1mt458 => SecDef.Law.weaken mf1mt458_law
  | .mf1mt460 => SecDef.Law.weaken mf1mt460_law
  | .mf2mt151 => mf2mt151_law
  | .mf2mt152 => mf2mt152_law
  | .mf3 => SecDef.Law.weaken mf3_law
  | .mf4 => SecDef.Law.weaken mf4_law
  | .mf5 => SecDef.Law.weaken mf5_law
  | .mf6 => mf6_law
  | .mf7mt2 => SecDef.Law.weaken mf7mt2_law
  | .mf7mt4 => mf7mt4_law
  | .mf7mt451 => mf7mt451_law
  | .mf8mt454 => mf8mt454_law
  | .mf8mt457 => mf8mt457_law
  | .mf8mt459 => mf8mt459_law
  | .mf9 => SecDef.Law.weaken mf9_law
  | .mf10 => SecDef.Law.weaken mf10_law
  | .mf12 => mf12_law
  | .mf13 => SecDef.Law.weaken mf13_law
  | .mf14 => SecDef.Law.weaken mf14_law
  | .mf15 => SecDef.Law.weaken mf15_law
  | .mf23 => SecDef.Law.weaken mf23_law
  | .mf26 => mf26_law
  | .mf27 => SecDef.Law.weaken mf27_law
  | .mf28 => mf28_law
  | .mf31 => mf31_law
  | .mf33 => mf33_law
  | .mf34 => mf34_law
  | .mf35 => mf35_law
  | .mf40 => mf40_law

theorem lawStd : (T : SectionType) → T.clean = true → T.defn.Law StdErr
  | .mf1mt451, _ => mf1mt451_law
  | .mf1mt452, _ => mf1nubar_law (by decide) (by decide)
  | .mf1mt455, _ => mf1mt455_law
  | .mf1mt456, _ => mf1nubar_law (by decide) (by decide)
  | .mf1mt458, _ => mf1mt458_law
  | .mf1mt460, _ => mf1mt460_law
  | .mf2mt151, h => absurd h (by decide)
  | .mf2mt152, h => absurd h (by decide)
  | .mf3, _ => mf3_law
  | .mf4, _ => mf4_law
  | .mf5, _ => mf5_law
  | .mf6, h => absurd h (by decide)
  | .mf7mt2, _ => mf7mt2_law
  | .mf7mt4, h => absurd h (by decide)
  | .mf7mt451, h => absurd h (by decide)
  | .mf8mt454, h => absurd h (by decide)
  | .mf8mt457, h => absurd h (by decide)
  | .mf8mt459, h => absurd h (by decide)
  | .mf9, _ => mf9_law
  | .mf10, _ => mf10_law
  | .mf12, h => absurd h (by decide)
  | .mf13, _ => mf13_law
  | .mf14, _ => mf14_law
  | .mf15, _ => mf15_law
  | .mf23, _ => mf23_law
  | .mf26, h => absurd h (by decide)
  | .mf27, _ => mf27_law
  | .mf28, h => absurd h (by decide)
  | .mf31, h => absurd h (by decide)
  | .mf33, h => absurd h (by decide)
  | .mf34, h => absurd h (by decide)
  | .mf35, h => absurd h (by decide)
  | .mf40, h => absurd h (by decide)

end SectionType
end ENDFtk

import Verif.Section.Access
import Verif.Section.Build4
import Verif.Section.Build5
/-
  The getters of the sections and of the components that are records, part 3: file 2.
  (Getters of components with several columns are in Verif/Section/Getters.lean.)
-/
set_option linter.unusedVariables false
namespace ENDFtk
variable [Disco]
namespace Get

/-! ### resolved resonances, LRF = 1, 2, 3 -/

namespace BreitWigner
/-- section/2/151/BreitWignerReichMooreBase.hpp 65, 75, 85, 96, 108, 119 -/
def SPI (b : BwHeader × Unit × List LIST) : Dbl := b.1.spi
def AP (b : BwHeader × Unit × List LIST) : Dbl := b.1.ap
def LAD (b : BwHeader × Unit × List LIST) : Bool := b.1.lad
def NLS (b : BwHeader × Unit × List LIST) : Int := asInt b.2.2.length
def NLSC (b : BwHeader × Unit × List LIST) : Int := b.1.nlsc
def lValues (b : BwHeader × Unit × List LIST) : List LIST := b.2.2
end BreitWigner

/-! ### unresolved resonances -/

namespace CaseA
/-- section/2/151/UnresolvedBase.hpp 28, 33, 38, UnresolvedBaseWithoutSpin.hpp 95, 105 -/
def SPI (b : UrHeader × Unit × List LIST) : Dbl := b.1.spi
def AP (b : UrHeader × Unit × List LIST) : Dbl := b.1.ap
def LSSF (b : UrHeader × Unit × List LIST) : Bool := b.1.lssf
def NLS (b : UrHeader × Unit × List LIST) : Int := asInt b.2.2.length
def lValues (b : UrHeader × Unit × List LIST) : List LIST := b.2.2
end CaseA

namespace CaseC
/-- section/2/151/UnresolvedBase.hpp 28, 33, 38, UnresolvedBaseWithoutSpin.hpp 95, 105 -/
def SPI (b : UrHeader × Unit × List LValueC) : Dbl := b.1.spi
def AP (b : UrHeader × Unit × List LValueC) : Dbl := b.1.ap
def LSSF (b : UrHeader × Unit × List LValueC) : Bool := b.1.lssf
def NLS (b : UrHeader × Unit × List LValueC) : Int := asInt b.2.2.length
def lValues (b : UrHeader × Unit × List LValueC) : List LValueC := b.2.2
end CaseC

namespace CaseB
/-- section/2/151/UnresolvedEnergyDependentFissionWidths.hpp 64, 69, 74, 79, 84, UnresolvedBaseWithoutSpin.hpp 95, 105 -/
def SPI (b : LIST × List LValueC) : Dbl := b.1.c1
def AP (b : LIST × List LValueC) : Dbl := b.1.c2
def LSSF (b : LIST × List LValueC) : Bool := decide (b.1.l1 ≠ 0)
def NE (b : LIST × List LValueC) : Int := asInt b.1.data.length
def ES (b : LIST × List LValueC) : List Dbl := b.1.data
def NLS (b : LIST × List LValueC) : Int := asInt b.2.length
def lValues (b : LIST × List LValueC) : List LValueC := b.2
end CaseB

namespace LValue
/-- section/2/151/UnresolvedLValueBase.hpp 27, 38, 48, 58 -/
def AWRI (b : LValueC) : Dbl := b.1.awri
def L (b : LValueC) : Int := b.1.l
def NJS (b : LValueC) : Int := asInt b.2.2.length
def jValues (b : LValueC) : List LIST := b.2.2
end LValue

/-! ### resolved resonances, LRF = 7 -/

namespace Backgrounds
/-- section/2/151/RMatrixLimited/BackgroundChannels.hpp 33, 43, 51-58 -/
def NCH (b : List (Option Background)) : Int := toUInt32 b.length
def KBK (b : List (Option Background)) : Int := toUInt32 (countPresent b)
/-- section/2/151/RMatrixLimited/BackgroundChannels.hpp 43, and `channelIndex()` of section/2/151/RMatrixLimited/BaseBackgroundRMatrix.hpp 42-47 for the
    element: its position plus one -/
def rmatrix (b : List (Option Background)) (i : Nat) : Option (Int × Background) := match b[i]? with
  | some (some r) => some ((i : Int) + 1, r)
  | _ => none
end Backgrounds

namespace Tabulated
/-- section/2/151/RMatrixLimited/TabulatedBackgroundRMatrix.hpp 40, 50, 60, 70, 80, 90, 100, 110-118 -/
def NP (re im : TAB1) : Int := re.NP
def NR (re im : TAB1) : Int := re.NR
def INT (re im : TAB1) : List Int := re.INT
def NBT (re im : TAB1) : List Int := re.NBT
def E (re im : TAB1) : List Dbl := re.x
def RBR (re im : TAB1) : List Dbl := re.y
def RBI (re im : TAB1) : List Dbl := im.y
def RB (re im : TAB1) : List (Dbl × Dbl) := re.y.zip im.y
end Tabulated

namespace Sammy
/-- section/2/151/RMatrixLimited/SammyBackgroundRMatrix.hpp 48, 53, 58, 63, 68: `data_[i]` -/
def R0 (r : List Dbl) : Except Err Dbl := atE r 0
def R1 (r : List Dbl) : Except Err Dbl := atE r 1
def R2 (r : List Dbl) : Except Err Dbl := atE r 2
def S0 (r : List Dbl) : Except Err Dbl := atE r 3
def S1 (r : List Dbl) : Except Err Dbl := atE r 4
end Sammy

namespace Frohner
/-- section/2/151/RMatrixLimited/FrohnerBackgroundRMatrix.hpp 48, 53, 58: `data_[i]` -/
def R0 (r : List Dbl) : Except Err Dbl := atE r 0
def S0 (r : List Dbl) : Except Err Dbl := atE r 1
def GA (r : List Dbl) : Except Err Dbl := atE r 2
end Frohner

namespace Spin
/-- section/2/151/RMatrixLimited/SpinGroup.hpp 30, 40, 50, 60, 70, 80, 85, 90 -/
def AJ (b : SpinGroup) : Dbl := ResonanceChannels.spin b.1.1
def PJ (b : SpinGroup) : Dbl := ResonanceChannels.parity b.1.1
def NCH (b : SpinGroup) : Int := ResonanceChannels.numberChannels b.1.1
def KBK (b : SpinGroup) : Int := ResonanceChannels.numberBackgroundChannels b.1.1
def channels (b : SpinGroup) : LIST := b.1.1
def parameters (b : SpinGroup) : LIST := b.1.2
def background (b : SpinGroup) : List (Option Background) := b.2
/-- section/2/151/RMatrixLimited/SpinGroup.hpp 65: `NCH()`, not `KBK()` -/
def numberBackgroundChannels (b : SpinGroup) : Int := NCH b
end Spin

namespace RMatrix
/-- section/2/151/RMatrixLimited.hpp 87, 97, 107, 117, 127, 132 -/
def IFG (b : RmlHeader × LIST × List SpinGroup) : Bool := b.1.ifg
def KRM (b : RmlHeader × LIST × List SpinGroup) : Int := b.1.krm
def KRL (b : RmlHeader × LIST × List SpinGroup) : Bool := b.1.krl
def NJS (b : RmlHeader × LIST × List SpinGroup) : Int := toUInt32 b.2.2.length
def particlePairs (b : RmlHeader × LIST × List SpinGroup) : LIST := b.2.1
def spinGroups (b : RmlHeader × LIST × List SpinGroup) : List SpinGroup := b.2.2

/-- `ranges::cpp20::distance( begin, find( r, x ) )`: the number of elements if `x` is not there -/
def distance (r : List Int) (x : Int) : Nat := r.findIdx (· == x)

/-- section/2/151/RMatrixLimited/src/SPI.hpp 4-11 (the reaction numbers are `int`s; an index that is out of range is undefined) -/
def SPI (b : RmlHeader × LIST × List SpinGroup) : Except Err Dbl :=
  (ParticlePairs.reactionNumbers (particlePairs b)).bind fun mt =>
  (ParticlePairs.spinParticleB (particlePairs b)).bind fun spins => atE spins (distance mt 2)

/-- section/2/151/RMatrixLimited/src/AP.hpp 9-22 (`elastic` is converted to `int`) -/
def AP (b : RmlHeader × LIST × List SpinGroup) : Except Err Dbl :=
  (ParticlePairs.reactionNumbers (particlePairs b)).bind fun mt =>
  (atE (spinGroups b) 0).bind fun group =>
  (ResonanceChannels.particlePairNumbers (Spin.channels group)).bind fun ppi =>
  (ResonanceChannels.trueChannelRadii (Spin.channels group)).bind fun radii => atE radii (distance ppi (toInt32 (distance mt 2 + 1 : Nat)))
end RMatrix

/-! ### resonance ranges, isotopes and the section -/

namespace Radius
/-- section/2/151/ScatteringRadius.hpp 20, 30 -/
def E (r : TAB1) : List Dbl := r.x
def AP (r : TAB1) : List Dbl := r.y
end Radius

namespace Range
/-- section/2/151/ResonanceRange.hpp 54, 64, 74, 86, 110, 120, 130, 138 -/
def EL (x : ResRange) : Dbl := x.el
def EH (x : ResRange) : Dbl := x.eh
def LRU (x : ResRange) : Int := x.parameters.lru
def LRF (x : ResRange) : Int := x.parameters.lrf
def NRO (x : ResRange) : Bool := x.radius.isSome
def NAPS (x : ResRange) : Int := x.naps
def scatteringRadius (x : ResRange) : Option TAB1 := x.radius
def parameters (x : ResRange) : ResParams := x.parameters
/-- section/2/151/ResonanceRange.hpp 98, with section/2/151/SpecialCase.hpp 46, BreitWignerReichMooreBase.hpp 52, RMatrixLimited.hpp 74,
    UnresolvedEnergyIndependent.hpp 49, UnresolvedEnergyDependentFissionWidths.hpp 59, UnresolvedEnergyDependent.hpp 49 -/
def LFW (x : ResRange) : Bool := match x.parameters with
  | .caseB _ => true
  | _ => false
end Range

namespace Isotope2
/-- section/2/151/Isotope.hpp 33, 43, 53, 63, 73 -/
def ZAI (x : Isotope) : Int := x.zai
def ABN (x : Isotope) : Dbl := x.abn
def LFW (x : Isotope) : Int := if x.lfw then 1 else 0
def NER (x : Isotope) : Int := toUInt32 x.ranges.length
def resonanceRanges (x : Isotope) : List ResRange := x.ranges
end Isotope2

namespace MF2MT151
/-- section/2/151.hpp 103, 108 -/
def NIS (s : Sect (List Isotope)) : Int := toUInt32 s.data.length
def isotopes (s : Sect (List Isotope)) : List Isotope := s.data
end MF2MT151

namespace MF2MT152
/-- section/2/152.hpp 55, 65, 70, 80, 90, 100, 124 -/
def LSSF (s : Sect Dilution) : Bool := s.data.lssf
def interpolation (s : Sect Dilution) : Int := s.data.interpolation
def TEMZ (s : Sect Dilution) : Dbl := DilutionTables.temperature s.data.data
def NW (s : Sect Dilution) : Int := asInt s.data.data.data.length
def NREAC (s : Sect Dilution) : Int := DilutionTables.numberReactions s.data.data
def NSIGZ (s : Sect Dilution) : Int := DilutionTables.numberDilutions s.data.data
def NUNR (s : Sect Dilution) : Int := DilutionTables.numberEnergies s.data.data
/-- section/2/152.hpp 110-114, 134-139 -/
def SIGZ (s : Sect Dilution) : Except Err (List Dbl) := DilutionTables.dilutions s.data.data
def EUNR (s : Sect Dilution) : Except Err (List Dbl) := DilutionTables.energies s.data.data
end MF2MT152

end Get
end ENDFtk

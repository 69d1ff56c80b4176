import Verif.Section.Access
import Verif.Section.Getters32
import Verif.Section.Build6
/-
  The getters of the sections and of the components that are records, part 4: file 32.
  (Getters of components with several columns are in Verif/Section/Getters32.lean.)
-/
set_option linter.unusedVariables false
set_option linter.unusedSectionVars false
namespace ENDFtk
variable [Disco]
namespace Get

/-! ### LCOMP = 0 -/

namespace Limited32
/-- section/32/151/LimitedCovarianceBase.hpp 75, 85, 95, 109, 120, 130 -/
def SPI (b : (Dbl × Dbl) × Option Dbl × List LIST) : Dbl := b.1.1
def AP (b : (Dbl × Dbl) × Option Dbl × List LIST) : Dbl := b.1.2
def DAP (b : (Dbl × Dbl) × Option Dbl × List LIST) : Option Dbl := b.2.1
def NLS (b : (Dbl × Dbl) × Option Dbl × List LIST) : Int := asInt b.2.2.length
def ISR (b : (Dbl × Dbl) × Option Dbl × List LIST) : Bool := b.2.1.isSome
def lValues (b : (Dbl × Dbl) × Option Dbl × List LIST) : List LIST := b.2.2
end Limited32

/-! ### LCOMP = 1 -/

namespace General32
variable {δ α : Type}
/-- section/32/151/GeneralCovarianceBase.hpp 81, 91, 102, 113, 127, 138, 148, 158, 168, 176 -/
def SPI (b : (Dbl × Dbl × Int) × Option δ × Dbl × List α × List LIST) : Dbl := b.1.1
def AP (b : (Dbl × Dbl × Int) × Option δ × Dbl × List α × List LIST) : Dbl := b.1.2.1
def NLS (b : (Dbl × Dbl × Int) × Option δ × Dbl × List α × List LIST) : Int := b.1.2.2
def DAP (b : (Dbl × Dbl × Int) × Option δ × Dbl × List α × List LIST) : Option δ := b.2.1
def AWRI (b : (Dbl × Dbl × Int) × Option δ × Dbl × List α × List LIST) : Dbl := b.2.2.1
def NSRS (b : (Dbl × Dbl × Int) × Option δ × Dbl × List α × List LIST) : Int := asInt b.2.2.2.1.length
def NLRS (b : (Dbl × Dbl × Int) × Option δ × Dbl × List α × List LIST) : Int := asInt b.2.2.2.2.length
def ISR (b : (Dbl × Dbl × Int) × Option δ × Dbl × List α × List LIST) : Bool := b.2.1.isSome
def shortRangeBlocks (b : (Dbl × Dbl × Int) × Option δ × Dbl × List α × List LIST) : List α := b.2.2.2.1
def longRangeBlocks (b : (Dbl × Dbl × Int) × Option δ × Dbl × List α × List LIST) : List LIST := b.2.2.2.2
end General32

namespace ShortRml32
/-- section/32/151/ShortRangeRMatrixLimitedBlock.hpp 33, 44, 52 -/
def NJSX (b : Unit × List LIST × LIST) : Int := asInt b.2.1.length
def resonanceParameters (b : Unit × List LIST × LIST) : List LIST := b.2.1
def covarianceMatrix (b : Unit × List LIST × LIST) : LIST := b.2.2
end ShortRml32

/-! ### LCOMP = 2 -/

section
variable [CorrOps]

namespace Correlations32
/-- section/32/151/CompactCorrelationMatrix.hpp 39, 49, 60, 66, 71 (NNN is stored as an `int` and returned as an `unsigned int`) -/
def NDIGIT (m : CorrMatrix) : Int := m.ndigit
def NNN (m : CorrMatrix) : Int := toUnsigned m.nnn
def I (m : CorrMatrix) : List Int := m.elems.map (·.1)
def J (m : CorrMatrix) : List Int := m.elems.map (·.2.1)
def correlations (m : CorrMatrix) : List Dbl := m.elems.map (·.2.2)
end Correlations32

namespace Compact32
variable {δ α : Type}
/-- section/32/151/CompactCovarianceBase.hpp 79, 89, 99, 104, 109, 122, 132, 140 -/
def SPI (b : (Dbl × Dbl × Int × Int) × Option δ × α × CorrMatrix) : Dbl := b.1.1
def AP (b : (Dbl × Dbl × Int × Int) × Option δ × α × CorrMatrix) : Dbl := b.1.2.1
def L1 (b : (Dbl × Dbl × Int × Int) × Option δ × α × CorrMatrix) : Int := b.1.2.2.1
def N1 (b : (Dbl × Dbl × Int × Int) × Option δ × α × CorrMatrix) : Int := b.1.2.2.2
def DAP (b : (Dbl × Dbl × Int × Int) × Option δ × α × CorrMatrix) : Option δ := b.2.1
def ISR (b : (Dbl × Dbl × Int × Int) × Option δ × α × CorrMatrix) : Bool := b.2.1.isSome
def uncertainties (b : (Dbl × Dbl × Int × Int) × Option δ × α × CorrMatrix) : α := b.2.2.1
def correlationMatrix (b : (Dbl × Dbl × Int × Int) × Option δ × α × CorrMatrix) : CorrMatrix := b.2.2.2
/-- section/32/151/CompactReichMoore.hpp 45, CompactRMatrixLimited.hpp 45, 55: `LAD()` and `IFG()` are L1 converted to `bool`, `NJS()` is N1 converted to
    `unsigned int` -/
def LAD (b : (Dbl × Dbl × Int × Int) × Option δ × α × CorrMatrix) : Bool := decide (L1 b ≠ 0)
def IFG (b : (Dbl × Dbl × Int × Int) × Option δ × α × CorrMatrix) : Bool := decide (L1 b ≠ 0)
def NJS (b : (Dbl × Dbl × Int × Int) × Option δ × α × CorrMatrix) : Int := toUInt32 (N1 b)
end Compact32

namespace CompactRml32
/-- section/32/151/CompactRMatrixLimitedUncertainties.hpp 37, 47, 52 -/
def NJSX (b : LIST × List (LIST × LIST)) : Int := toUInt32 b.2.length
def particlePairs (b : LIST × List (LIST × LIST)) : LIST := b.1
def spinGroups (b : LIST × List (LIST × LIST)) : List (LIST × LIST) := b.2
end CompactRml32

namespace CompactSpin32
/-- section/32/151/CompactRMatrixLimitedUncertainties/SpinGroup.hpp 29, 39, 49, 59, 69, 74 -/
def AJ (b : LIST × LIST) : Dbl := ResonanceChannels.spin b.1
def PJ (b : LIST × LIST) : Dbl := ResonanceChannels.parity b.1
def NCH (b : LIST × LIST) : Int := ResonanceChannels.numberChannels b.1
def NRSA (b : LIST × LIST) : Int := CompactParameters.numberResonances b.2
def channels (b : LIST × LIST) : LIST := b.1
def parameters (b : LIST × LIST) : LIST := b.2
end CompactSpin32

/-! ### unresolved resonances -/

namespace Unresolved32
/-- section/32/151/UnresolvedRelativeCovariances.hpp 75, 85, 95, 105, 113 -/
def SPI (b : (Dbl × Dbl) × List LIST × LIST) : Dbl := b.1.1
def AP (b : (Dbl × Dbl) × List LIST × LIST) : Dbl := b.1.2
def NLS (b : (Dbl × Dbl) × List LIST × LIST) : Int := asInt b.2.1.length
def lValues (b : (Dbl × Dbl) × List LIST × LIST) : List LIST := b.2.1
def covarianceMatrix (b : (Dbl × Dbl) × List LIST × LIST) : LIST := b.2.2
/-- section/32/151/UnresolvedRelativeCovariances.hpp 59: MPAR is at least 5 -/
def LFW (b : (Dbl × Dbl) × List LIST × LIST) : Bool := decide (5 ≤ TriangularMatrix.numberAverageParameters (covarianceMatrix b))
end Unresolved32

/-! ### ranges, isotopes, the section -/

namespace Radius32
/-- section/32/151/ScatteringRadiusCovariances.hpp 24, 34 -/
def NI (b : Unit × List LIST) : Int := asInt b.2.length
def data (b : Unit × List LIST) : List LIST := b.2
end Radius32

namespace Range32
/-- section/32/151/ResonanceRange.hpp 54, 64, 74, 86, 110, 120, 130, 138 -/
def EL (x : CovRange) : Dbl := x.el
def EH (x : CovRange) : Dbl := x.eh
def LRU (x : CovRange) : Int := x.parameters.type.lru
def LRF (x : CovRange) : Int := x.parameters.type.lrf
def NRO (x : CovRange) : Bool := x.radius.isSome
def NAPS (x : CovRange) : Int := x.naps
def scatteringRadius (x : CovRange) : Option (Unit × List LIST) := x.radius
def parameters (x : CovRange) : CovParams := x.parameters
/-- section/32/151/LimitedCovarianceBase.hpp 62, GeneralCovarianceBase.hpp 68, CompactCovarianceBase.hpp 66, UnresolvedRelativeCovariances.hpp 59 -/
def paramsLFW : CovParams → Bool
  | ⟨.unresolved, b⟩ => Unresolved32.LFW b
  | _ => false
/-- section/32/151/ResonanceRange.hpp 98 -/
def LFW (x : CovRange) : Bool := paramsLFW x.parameters
end Range32

namespace Isotope32
/-- section/32/151/Isotope.hpp 33, 38, 48, 58, 68 -/
def ZAI (x : CovIsotope) : Dbl := x.zai
def ABN (x : CovIsotope) : Dbl := x.abn
def LFW (x : CovIsotope) : Int := if x.lfw then 1 else 0
def NER (x : CovIsotope) : Int := toUInt32 x.ranges.length
def resonanceRanges (x : CovIsotope) : List CovRange := x.ranges
end Isotope32

namespace MF32MT151
/-- section/32/151.hpp 107, 112 -/
def NIS (s : Sect (List CovIsotope)) : Int := toUInt32 s.data.length
def isotopes (s : Sect (List CovIsotope)) : List CovIsotope := s.data
end MF32MT151

end

end Get
end ENDFtk

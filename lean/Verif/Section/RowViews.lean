import Verif.Section.Getters32
import Verif.Section.Access
/-
  Getters that give the components of a LIST record row by row: fission products, transitions, J values; and the angular distributions of file 4, one for each incident energy.
-/
namespace ENDFtk
variable [Disco]

namespace FissionYieldData

/-- section/8/FissionYieldData.hpp 128-136: each product is the four values of a row -/
def fissionProducts (l : LIST) : Except Err (List (List Dbl)) := chunkE 4 l.data
/-- section/8/FissionYieldData/FissionProduct.hpp 21-26 (`unsigned int`) -/
def FissionProduct.fissionProductIdentifier (c : List Dbl) : Except Err Int := (atE c 0).map Disco.trunc
/-- section/8/FissionYieldData/FissionProduct.hpp 31-36 (`unsigned int`) -/
def FissionProduct.isomericState (c : List Dbl) : Except Err Int := (atE c 1).map Disco.trunc
/-- section/8/FissionYieldData/FissionProduct.hpp 41-49 -/
def FissionProduct.fissionYield (c : List Dbl) : Except Err (Dbl × Dbl) := (atE c 2).bind fun y => (atE c 3).map fun dy => (y, dy)

end FissionYieldData

namespace SubshellData

/-- section/28/SubshellData.hpp 111-120: the rows of six values without the first -/
def transitions (l : LIST) : Except Err (List (List Dbl)) := (chunkE 6 l.data).bind (dropE 1)
/-- section/28/SubshellData/Transition.hpp 21-56 -/
def Transition.secondarySubshellDesignator (c : List Dbl) := atE c 0
def Transition.tertiarySubshellDesignator (c : List Dbl) := atE c 1
def Transition.transitionEnergy (c : List Dbl) := atE c 2
def Transition.transitionProbability (c : List Dbl) := atE c 3

end SubshellData

namespace TransitionProbabilities

/-- section/12/TransitionProbabilities/Transition.hpp 25-50; the rows are `transitions` -/
def Transition.energy (c : List Dbl) := atE c 0
def Transition.transitionProbability (c : List Dbl) := atE c 1
def Transition.conditionalProbability (c : List Dbl) : Except Err Dbl := if c.length = 3 then atE c 2 else .ok (Disco.ofInt 1)

end TransitionProbabilities

namespace UnresolvedALValue

/-- section/2/151/UnresolvedEnergyIndependent/LValue.hpp 54-61 -/
def jValues (l : LIST) : Except Err (List (List Dbl)) := chunkE 6 l.data
/-- section/2/151/UnresolvedEnergyIndependent/JValue.hpp 27-105 -/
def JValue.spin (c : List Dbl) := atE c 1
def JValue.averageLevelSpacing (c : List Dbl) := atE c 0
def JValue.neutronWidthDegreesFreedom (c : List Dbl) : Except Err Int := (atE c 2).map Disco.trunc
def JValue.averageNeutronWidth (c : List Dbl) := atE c 3
def JValue.averageGammaWidth (c : List Dbl) := atE c 4

end UnresolvedALValue

namespace UnresolvedCovLValue

/-- section/32/151/UnresolvedRelativeCovariances/LValue.hpp 54-61 -/
def jValues (l : LIST) : Except Err (List (List Dbl)) := chunkE 6 l.data
/-- section/32/151/UnresolvedRelativeCovariances/JValue.hpp 21-76 -/
def JValue.spin (c : List Dbl) := atE c 1
def JValue.averageLevelSpacing (c : List Dbl) := atE c 0
def JValue.averageNeutronWidth (c : List Dbl) := atE c 2
def JValue.averageGammaWidth (c : List Dbl) := atE c 3
def JValue.averageFissionWidth (c : List Dbl) := atE c 4
def JValue.averageCompetitiveWidth (c : List Dbl) := atE c 5

end UnresolvedCovLValue

namespace Get

/-- section/4/MixedDistributions/src/angularDistributions.hpp 8-18 (a variant of references) -/
def MixedDistributions.angularDistributions (b : Mixed) : List (LIST ⊕ TAB1) := b.legendre.seq.map .inl ++ b.tabulated.seq.map .inr

/-- section/4/src/angularDistributions.hpp 8-26, section/4/AngularDistributions.hpp 104-110 -/
def MF4.angularDistributions (s : Sect MF4Data) : List (LIST ⊕ TAB1) := match s.data.dist with
  | .isotropic => []
  | .legendre b => b.seq.map .inl
  | .tabulated b => b.seq.map .inr
  | .mixed b => MixedDistributions.angularDistributions b

end Get

end ENDFtk

import Verif.Section.Build2
import Verif.Section.MF1b
/-
  The getters of the sections and of the components that are records, part 1: the records, files 1, 3, 4, 5, 6, 23, 26 and 27.

  The getters with long names (`massDifferenceQValue()` for `QM()`, ...) only call the ones with the names of the ENDF format and are not repeated here,
  except where they do something else.  A getter of type `int` that returns a `long` is `toInt32` here.  The getters that return a member (an array of
  components, a `std::variant` with the data) are the fields of the structures.
-/
set_option linter.unusedVariables false
set_option linter.unusedSectionVars false
set_option linter.unusedSimpArgs false
namespace ENDFtk
variable [Disco]

/-! ### records -/

/-- record/InterpolationBase.hpp 74, 78 (`NZ()`: InterpolationRecord.hpp 41), 80-90 -/
def TAB2.NR (r : TAB2) : Int := r.bounds.length
def TAB2.NZ (r : TAB2) : Int := r.n2
def TAB2.INT (r : TAB2) : List Int := r.ints
def TAB2.NBT (r : TAB2) : List Int := r.bounds

/-- record/InterpolationBase.hpp 74, 80-90, TabulationRecord.hpp 69 -/
def TAB1.NR (r : TAB1) : Int := r.base.NR
def TAB1.NP (r : TAB1) : Int := r.x.length
def TAB1.INT (r : TAB1) : List Int := r.base.INT
def TAB1.NBT (r : TAB1) : List Int := r.base.NBT

/-! ### all sections -/

namespace Sect
variable {β : Type}
/-- section/BaseWithoutMT.hpp 40 -/
def ZA (s : Sect β) : Int := s.za
/-- section/BaseWithoutMT.hpp 50 -/
def AWR (s : Sect β) : Dbl := s.awr
/-- section/BaseWithoutMT.hpp 32, section/Base.hpp 27 -/
def MT (s : Sect β) : Int := s.mt
end Sect

namespace Get

/-- The result of `std::find_if`, or an exception if there is none (section/6.hpp 150-159, section/26.hpp 106-115, section/9.hpp and section/10.hpp). -/
def found {α : Type} : Option α → Except Err α
  | none => .error .exc
  | some p => .ok p

/-! ### file 1 -/

namespace MF1MT451
/-- section/1/451.hpp 63 -/
def LRP (s : Sect Info451) : Int := s.data.lrp
/-- section/1/451.hpp 73 -/
def LFI (s : Sect Info451) : Int := s.data.lfi
/-- section/1/451.hpp 78: conversion of an `int` to `bool` -/
def isFissile (s : Sect Info451) : Bool := LFI s != 0
/-- section/1/451.hpp 83 -/
def NLIB (s : Sect Info451) : Int := s.data.nlib
/-- section/1/451.hpp 93 -/
def NMOD (s : Sect Info451) : Int := s.data.nmod
/-- section/1/451.hpp 103 -/
def ELIS (s : Sect Info451) : Dbl := s.data.p0.c1
/-- section/1/451.hpp 113 -/
def STA (s : Sect Info451) : Dbl := s.data.p0.c2
/-- section/1/451.hpp 118: conversion of a `double` to `bool` -/
def isStable (s : Sect Info451) : Bool := !Disco.eqD (STA s) Disco.zero
/-- section/1/451.hpp 123 -/
def LIS (s : Sect Info451) : Int := toInt32 s.data.p0.l1
/-- section/1/451.hpp 133 -/
def LISO (s : Sect Info451) : Int := toInt32 s.data.p0.l2
/-- section/1/451.hpp 143 -/
def NFOR (s : Sect Info451) : Int := toInt32 s.data.p0.n2
/-- section/1/451.hpp 153 -/
def AWI (s : Sect Info451) : Dbl := s.data.p1.c1
/-- section/1/451.hpp 163 -/
def EMAX (s : Sect Info451) : Dbl := s.data.p1.c2
/-- section/1/451.hpp 173 -/
def LREL (s : Sect Info451) : Int := toInt32 s.data.p1.l1
/-- section/1/451.hpp 183 -/
def NSUB (s : Sect Info451) : Int := toInt32 s.data.p1.n1
/-- section/1/451.hpp 193 -/
def NVER (s : Sect Info451) : Int := toInt32 s.data.p1.n2
/-- section/1/451.hpp 203 -/
def TEMP (s : Sect Info451) : Dbl := s.data.p2.c1
/-- section/1/451.hpp 213 -/
def RTOL (s : Sect Info451) : Dbl := s.data.p2.c2
/-- section/1/451.hpp 223 -/
def LDRV (s : Sect Info451) : Int := toInt32 s.data.p2.l1
/-- section/1/451.hpp 233 -/
def NWD (s : Sect Info451) : Int := asInt s.data.desc.length
/-- section/1/451.hpp 238 -/
def NXC (s : Sect Info451) : Int := asInt s.data.index.length
end MF1MT451

namespace Multiplicity1
/-- section/1/452.hpp 53-58 (section/1/456.hpp is the same), section/1/455.hpp 69-74 -/
def LNU (b : Nubar) : Int := b.lnu
/-- section/1/PolynomialMultiplicity.hpp 45, 55 -/
def NCO (r : LIST) : Int := toInt32 r.npl
def C (r : LIST) : List Dbl := r.data
/-- section/1/TabulatedMultiplicity.hpp 45, 55 -/
def E (r : TAB1) : List Dbl := r.x
def NU (r : TAB1) : List Dbl := r.y
end Multiplicity1

namespace Constants455
/-- section/1/455.hpp 81-86 -/
def LDG (b : Decay) : Int := b.ldg
/-- section/1/455/EnergyIndependentConstants.hpp 30, 40; the same in section/1/460/ContinuousPhotons.hpp 42, 52 -/
def NNF (r : LIST) : Int := toInt32 r.npl
def lambdas (r : LIST) : List Dbl := r.data
/-- section/1/455/EnergyDependentConstants.hpp 33: the first record exists (a sequence is not empty) -/
def NNFdep (r : ISeq LIST) : Except Err Int := (atE r.seq 0).map nnf
/-- section/1/455/EnergyDependentConstants.hpp 44, 55, 65, 79 -/
def NR (r : ISeq LIST) : Int := r.tab2.NR
def NE (r : ISeq LIST) : Int := r.tab2.NZ
def INT (r : ISeq LIST) : List Int := r.tab2.INT
def NBT (r : ISeq LIST) : List Int := r.tab2.NBT
/-- section/1/455/EnergyDependentConstants.hpp 101-110, section/1/455/DecayConstants.hpp 33-43 -/
def E (r : ISeq LIST) : List Dbl := r.seq.map (·.c2)
end Constants455

namespace Release458
/-- section/1/458.hpp 67-72 -/
def LFC (b : Release) : Int := b.lfc
/-- section/1/458.hpp 79-84, section/1/458/TabulatedComponents.hpp 59 -/
def NFC (b : Release) : Int := b.nfc
/-- section/1/458.hpp 91-96, section/1/458/PolynomialComponents.hpp 37, ThermalPointComponents.hpp 35, TabulatedComponents.hpp 49 -/
def NPLY : Release → Int
  | .thermal _ => 0
  | .poly r => toInt32 r.l2
  | .tab _ => 0
/-- section/1/458/EnergyReleaseComponent.hpp 22 -/
def LDRV (r : TAB1) : Bool := if r.base.l1 = 1 then false else true
/-- section/1/458/EnergyReleaseComponent.hpp 32 -/
def IFC (r : TAB1) : Int := toInt32 r.base.l2
/-- section/1/458/EnergyReleaseComponent.hpp 42, 52 -/
def E (r : TAB1) : List Dbl := r.x
def EIFC (r : TAB1) : List Dbl := r.y
/-- section/1/458/TabulatedComponents.hpp 85, 101, 117, 133, 149, 165, 181, 197, 213 (`std::get` of an array of nine: the place exists) -/
def tabulatedEFR (b : TabComp) : Option TAB1 := b.comps[0]?.join
def tabulatedENP (b : TabComp) : Option TAB1 := b.comps[1]?.join
def tabulatedEND (b : TabComp) : Option TAB1 := b.comps[2]?.join
def tabulatedEGP (b : TabComp) : Option TAB1 := b.comps[3]?.join
def tabulatedEGD (b : TabComp) : Option TAB1 := b.comps[4]?.join
def tabulatedEB (b : TabComp) : Option TAB1 := b.comps[5]?.join
def tabulatedENU (b : TabComp) : Option TAB1 := b.comps[6]?.join
def tabulatedER (b : TabComp) : Option TAB1 := b.comps[7]?.join
def tabulatedET (b : TabComp) : Option TAB1 := b.comps[8]?.join
end Release458

namespace Photons460
/-- section/1/460.hpp 61-66 -/
def LO (b : Photons) : Int := b.lo
/-- section/1/460.hpp 73-78, section/1/460/DiscretePhotons.hpp 35, ContinuousPhotons.hpp 32 -/
def NG (b : Photons) : Int := b.ng
/-- section/1/460/DiscretePhotonMultiplicity.hpp 20, 30, 40, 45 -/
def E (r : TAB1) : Dbl := r.base.c1
def LPH (r : TAB1) : Int := toInt32 r.base.l1
def time (r : TAB1) : List Dbl := r.x
def multiplicities (r : TAB1) : List Dbl := r.y
end Photons460

/-! ### files 3, 23, 27 -/

namespace MF3
/-- section/3.hpp 38, 48, 58, 68, 81, 91, 101, 111, 116 -/
def QM (s : Sect TAB1) : Dbl := s.data.base.c1
def QI (s : Sect TAB1) : Dbl := s.data.base.c2
def LR (s : Sect TAB1) : Int := toInt32 s.data.base.l2
def NR (s : Sect TAB1) : Int := s.data.NR
def NP (s : Sect TAB1) : Int := s.data.NP
def INT (s : Sect TAB1) : List Int := s.data.INT
def NBT (s : Sect TAB1) : List Int := s.data.NBT
def energies (s : Sect TAB1) : List Dbl := s.data.x
def crossSections (s : Sect TAB1) : List Dbl := s.data.y
end MF3

namespace MF23
/-- section/23.hpp 38, 48, 58, 68, 78, 88, 98, 103 -/
def EPE (s : Sect TAB1) : Dbl := s.data.base.c1
def EFL (s : Sect TAB1) : Dbl := s.data.base.c2
def NR (s : Sect TAB1) : Int := s.data.NR
def NP (s : Sect TAB1) : Int := s.data.NP
def INT (s : Sect TAB1) : List Int := s.data.INT
def NBT (s : Sect TAB1) : List Int := s.data.NBT
def energies (s : Sect TAB1) : List Dbl := s.data.x
def crossSections (s : Sect TAB1) : List Dbl := s.data.y
end MF23

namespace MF27
/-- section/27.hpp 38, 48, 58, 68, 78, 88, 93; `Z()` converts a `double` to `unsigned int` (undefined for numbers that are negative or too large) -/
def Z (s : Sect TAB1) : Int := Disco.trunc s.data.base.c2
def NR (s : Sect TAB1) : Int := s.data.NR
def NP (s : Sect TAB1) : Int := s.data.NP
def INT (s : Sect TAB1) : List Int := s.data.INT
def NBT (s : Sect TAB1) : List Int := s.data.NBT
def X (s : Sect TAB1) : List Dbl := s.data.x
def H (s : Sect TAB1) : List Dbl := s.data.y
end MF27

/-! ### file 4 -/

namespace LegendreCoefficients4
/-- section/4/LegendreCoefficients.hpp 26, 38, 50 -/
def E (r : LIST) : Dbl := r.c2
def NL (r : LIST) : Int := toInt32 r.npl
def A (r : LIST) : List Dbl := r.data
end LegendreCoefficients4

namespace TabulatedDistribution4
/-- section/4/TabulatedDistribution.hpp 26, 37, 47 -/
def E (r : TAB1) : Dbl := r.base.c2
def MU (r : TAB1) : List Dbl := r.x
def F (r : TAB1) : List Dbl := r.y
end TabulatedDistribution4

namespace AngularDistributions
variable {α : Type}
/-- section/4/AngularDistributions.hpp 21-24, 29-32: C1 and C2 of the TAB2 record, converted to `long` -/
def C1 (r : ISeq α) : Int := Disco.trunc r.tab2.c1
def C2 (r : ISeq α) : Int := Disco.trunc r.tab2.c2
/-- section/4/AngularDistributions.hpp 37-40, 51-54, 65-68, 79-82 -/
def NR (r : ISeq α) : Int := r.tab2.NR
def NE (r : ISeq α) : Int := r.tab2.NZ
def INT (r : ISeq α) : List Int := r.tab2.INT
def NBT (r : ISeq α) : List Int := r.tab2.NBT
/-- section/4/AngularDistributions.hpp 93-102 -/
def incidentEnergies (energy : α → Dbl) (r : ISeq α) : List Dbl := r.seq.map energy
end AngularDistributions

namespace MixedDistributions
/-- section/4/MixedDistributions.hpp 61-64, 75-78 -/
def NR (b : Mixed) : Int := AngularDistributions.NR b.legendre + AngularDistributions.NR b.tabulated
def NE (b : Mixed) : Int := AngularDistributions.NE b.legendre + AngularDistributions.NE b.tabulated
/-- section/4/MixedDistributions.hpp 92-107: `back()` of the boundaries, which are not empty -/
def NBT (b : Mixed) : List Int :=
  let offset := (AngularDistributions.NBT b.legendre).getLastD 0
  AngularDistributions.NBT b.legendre ++ (AngularDistributions.NBT b.tabulated).map (· + offset)
/-- section/4/MixedDistributions.hpp 114-121 -/
def INT (b : Mixed) : List Int := AngularDistributions.INT b.legendre ++ AngularDistributions.INT b.tabulated
/-- section/4/MixedDistributions.hpp 128-137 -/
def incidentEnergies (b : Mixed) : List Dbl :=
  AngularDistributions.incidentEnergies LegendreCoefficients4.E b.legendre ++ AngularDistributions.incidentEnergies TabulatedDistribution4.E b.tabulated
end MixedDistributions

namespace MF4
/-- section/4.hpp 94 -/
def LCT (s : Sect MF4Data) : Int := s.data.lct
/-- section/4.hpp 104 -/
def LTT (s : Sect MF4Data) : Int := s.data.dist.ltt
/-- section/4.hpp 114 -/
def LI (s : Sect MF4Data) : Bool := decide (LTT s = 0)
/-- section/4.hpp 129-141: the lambda returns an `int` -/
def NR (s : Sect MF4Data) : Int := match s.data.dist with
  | .isotropic => 0
  | .legendre b => toInt32 (AngularDistributions.NR b)
  | .tabulated b => toInt32 (AngularDistributions.NR b)
  | .mixed b => toInt32 (MixedDistributions.NR b)
/-- section/4.hpp 148-160 -/
def NE (s : Sect MF4Data) : Int := match s.data.dist with
  | .isotropic => 0
  | .legendre b => toInt32 (AngularDistributions.NE b)
  | .tabulated b => toInt32 (AngularDistributions.NE b)
  | .mixed b => toInt32 (MixedDistributions.NE b)
/-- section/4.hpp 167-179 -/
def INT (s : Sect MF4Data) : List Int := match s.data.dist with
  | .isotropic => []
  | .legendre b => AngularDistributions.INT b
  | .tabulated b => AngularDistributions.INT b
  | .mixed b => MixedDistributions.INT b
/-- section/4.hpp 189-204 -/
def NBT (s : Sect MF4Data) : List Int := match s.data.dist with
  | .isotropic => []
  | .legendre b => AngularDistributions.NBT b
  | .tabulated b => AngularDistributions.NBT b
  | .mixed b => MixedDistributions.NBT b
/-- section/4.hpp 211-226 -/
def incidentEnergies (s : Sect MF4Data) : List Dbl := match s.data.dist with
  | .isotropic => []
  | .legendre b => AngularDistributions.incidentEnergies LegendreCoefficients4.E b
  | .tabulated b => AngularDistributions.incidentEnergies TabulatedDistribution4.E b
  | .mixed b => MixedDistributions.incidentEnergies b
end MF4

/-! ### file 5 -/

namespace MadlandNix
/-- section/5/MadlandNixSpectrum.hpp 30, 42, 53, 63 -/
def EFL (r : TAB1) : Dbl := r.base.c1
def EFH (r : TAB1) : Dbl := r.base.c2
def E (r : TAB1) : List Dbl := r.x
def TM (r : TAB1) : List Dbl := r.y
end MadlandNix

namespace Table5
/-- section/5/DistributionFunction.hpp 20, 25; EffectiveTemperature.hpp 22, 32 (used by EvaporationSpectrum.hpp and MaxwellianFissionSpectrum.hpp); Parameter.hpp 20, 30;
    section/26/EnergyTransfer.hpp 27, 37 -/
def X (r : TAB1) : List Dbl := r.x
def Y (r : TAB1) : List Dbl := r.y
end Table5

namespace OutgoingEnergy
/-- section/5/TabulatedSpectrum/OutgoingEnergyDistribution.hpp 23, 33, 43 -/
def E (r : TAB1) : Dbl := r.base.c2
def EP (r : TAB1) : List Dbl := r.x
def G (r : TAB1) : List Dbl := r.y
end OutgoingEnergy

namespace TabulatedSpectrum
/-- section/5/TabulatedSpectrum.hpp 48, 59, 88, 100 -/
def NR (r : ISeq TAB1) : Int := r.tab2.NR
def NE (r : ISeq TAB1) : Int := r.tab2.NZ
def INT (r : ISeq TAB1) : List Int := r.tab2.INT
def NBT (r : ISeq TAB1) : List Int := r.tab2.NBT
/-- section/5/TabulatedSpectrum.hpp 77-86 -/
def incidentEnergies (r : ISeq TAB1) : List Dbl := r.seq.map OutgoingEnergy.E
end TabulatedSpectrum

namespace Probability5
/-- section/5/Probability.hpp 22, 34, 44, 54 -/
def U (r : TAB1) : Dbl := r.base.c1
def LF (r : TAB1) : Int := toInt32 r.base.l2
def E (r : TAB1) : List Dbl := r.x
def P (r : TAB1) : List Dbl := r.y
end Probability5

namespace MF5
/-- section/5.hpp 76 -/
def NK (s : Sect (List Partial5)) : Int := asInt s.data.length
/-- section/5/PartialDistribution.hpp 25 -/
def U (b : Partial5) : Dbl := Probability5.U b.probability
end MF5

/-! ### file 6 -/

namespace Multiplicity6
/-- section/6/Multiplicity.hpp 19-22 (`static_cast< int >( std::round( C1 ) )`), 32, 42, 52, 57, 67 -/
def ZAP (r : TAB1) : Int := toInt32 (Disco.round r.base.c1)
def AWP (r : TAB1) : Dbl := r.base.c2
def LIP (r : TAB1) : Int := toInt32 r.base.l1
def LAW (r : TAB1) : Int := toInt32 r.base.l2
def E (r : TAB1) : List Dbl := r.x
def Y (r : TAB1) : List Dbl := r.y
end Multiplicity6

namespace Product6
/-- section/6/ReactionProduct.hpp 31, 41, 51, 61 -/
def ZAP (b : ENDFtk.Product6) : Int := Multiplicity6.ZAP b.multiplicity
def AWP (b : ENDFtk.Product6) : Dbl := Multiplicity6.AWP b.multiplicity
def LIP (b : ENDFtk.Product6) : Int := Multiplicity6.LIP b.multiplicity
def LAW (b : ENDFtk.Product6) : Int := Multiplicity6.LAW b.multiplicity
end Product6

namespace Charged6
/-- section/6/ChargedParticleElasticScattering.hpp 46, 56 (`bool`), 67, 78, 115, 126 -/
def SPI (r : ISeq LIST) : Dbl := r.tab2.c1
def LIDP (r : ISeq LIST) : Bool := r.tab2.l1 != 0
def NR (r : ISeq LIST) : Int := r.tab2.NR
def NE (r : ISeq LIST) : Int := r.tab2.NZ
def INT (r : ISeq LIST) : List Int := r.tab2.INT
def NBT (r : ISeq LIST) : List Int := r.tab2.NBT
/-- section/6/ChargedParticleElasticScattering.hpp 96-107; `incidentEnergy()` of all alternatives is C2 of the LIST record -/
def E (r : ISeq LIST) : List Dbl := r.seq.map (·.c2)
end Charged6

namespace Continuum6
/-- section/6/ContinuumEnergyAngle.hpp 49, 54, 65, 76, 95, 106; section/26/ContinuumEnergyAngle.hpp 44, 49, 60, 71, 90, 101 -/
def LANG (r : ISeq LIST) : Int := toInt32 r.tab2.l1
def LEP (r : ISeq LIST) : Int := toInt32 r.tab2.l2
def NR (r : ISeq LIST) : Int := r.tab2.NR
def NE (r : ISeq LIST) : Int := r.tab2.NZ
def INT (r : ISeq LIST) : List Int := r.tab2.INT
def NBT (r : ISeq LIST) : List Int := r.tab2.NBT
/-- section/6/ContinuumEnergyAngle.hpp 116-127, section/26/ContinuumEnergyAngle.hpp 111-120 -/
def E (r : ISeq LIST) : List Dbl := r.seq.map (·.c2)
end Continuum6

namespace Thermal6
/-- section/6/ContinuumEnergyAngle/ThermalScatteringData.hpp 35, 40, 45, 50, 52 -/
def E (l : LIST) : Dbl := l.c2
def data (l : LIST) : List Dbl := l.data
def NW (l : LIST) : Int := toInt32 l.npl
def N2 (l : LIST) : Int := l.n2
/-- section/6/ContinuumEnergyAngle/ThermalScatteringData.hpp 57, 62: a division by zero for N2 = 0 (N2 is a `long`) -/
def NEP (l : LIST) : Except Err Int := if l.n2 = 0 then .error .ub else .ok (toInt32 (Int.tdiv (NW l) l.n2))
/-- section/6/ContinuumEnergyAngle/ThermalScatteringData.hpp 67: `front()` of an empty array is undefined -/
def LTT (l : LIST) : Except Err Int := match l.data with
  | [] => .error .ub
  | x :: _ => .ok (if Disco.eqD x (E l) then 6 else 5)
end Thermal6

namespace TwoBody6
/-- section/6/DiscreteTwoBodyScattering.hpp 44, 55, 89, 100; section/26/DiscreteTwoBodyScattering.hpp 40, 51, 83, 94 -/
def NR (r : ISeq LIST) : Int := r.tab2.NR
def NE (r : ISeq LIST) : Int := r.tab2.NZ
def INT (r : ISeq LIST) : List Int := r.tab2.INT
def NBT (r : ISeq LIST) : List Int := r.tab2.NBT
/-- section/6/DiscreteTwoBodyScattering.hpp 70-81, section/26/DiscreteTwoBodyScattering.hpp 66-75 -/
def E (r : ISeq LIST) : List Dbl := r.seq.map (·.c2)
end TwoBody6

namespace NBody6
/-- section/6/NBodyPhaseSpace.hpp 23, 33 -/
def APSX (c : Cont) : Dbl := c.c1
def NPSX (c : Cont) : Int := toInt32 c.n2
end NBody6

namespace EnergyDistribution6
/-- section/6/LaboratoryAngleEnergy/EnergyDistribution.hpp 19, 24, 34, 44, 54 -/
def NRP (r : TAB1) : Int := r.NR
def NEP (r : TAB1) : Int := r.NP
def MU (r : TAB1) : Dbl := r.base.c2
def EP (r : TAB1) : List Dbl := r.x
def F (r : TAB1) : List Dbl := r.y
end EnergyDistribution6

namespace AngularDistribution6
/-- section/6/LaboratoryAngleEnergy/AngularDistribution.hpp 20-25, 35, 45-48, 61, 71 -/
def NRM (r : ISeq TAB1) : Int := r.tab2.NR
def NMU (r : ISeq TAB1) : Int := r.tab2.NZ
def E (r : ISeq TAB1) : Dbl := r.tab2.c2
def INT (r : ISeq TAB1) : List Int := r.tab2.INT
def NBT (r : ISeq TAB1) : List Int := r.tab2.NBT
/-- section/6/LaboratoryAngleEnergy/AngularDistribution.hpp 81-90 -/
def MU (r : ISeq TAB1) : List Dbl := r.seq.map EnergyDistribution6.MU
end AngularDistribution6

namespace Laboratory6
/-- section/6/LaboratoryAngleEnergy.hpp 38, 49, 59, 70 -/
def NR (r : ISeq (ISeq TAB1)) : Int := r.tab2.NR
def NE (r : ISeq (ISeq TAB1)) : Int := r.tab2.NZ
def INT (r : ISeq (ISeq TAB1)) : List Int := r.tab2.INT
def NBT (r : ISeq (ISeq TAB1)) : List Int := r.tab2.NBT
/-- section/6/LaboratoryAngleEnergy.hpp 89-98 -/
def E (r : ISeq (ISeq TAB1)) : List Dbl := r.seq.map AngularDistribution6.E
end Laboratory6

namespace ChargedLegendre6
/-- section/6/ChargedParticleElasticScattering/LegendreCoefficients.hpp 23, 43, 48, 58 -/
def E (r : LIST) : Dbl := r.c2
def NW (r : LIST) : Int := r.npl
def NL (r : LIST) : Int := r.n2
def A (r : LIST) : List Dbl := r.data
end ChargedLegendre6

namespace MF6
/-- section/6.hpp 99, 109, 119 -/
def JP (s : Sect MF6Data) : Int := s.data.jp
def LCT (s : Sect MF6Data) : Int := s.data.lct
def NK (s : Sect MF6Data) : Int := asInt s.data.products.length
/-- section/6.hpp 131-139: `std::find_if` -/
def hasReactionProduct (s : Sect MF6Data) (zap : Int) : Bool := (s.data.products.find? (fun p => Product6.ZAP p == zap)).isSome
/-- section/6.hpp 144-160 -/
def reactionProduct (s : Sect MF6Data) (zap : Int) : Except Err ENDFtk.Product6 :=
  found (s.data.products.find? (fun p => Product6.ZAP p == zap))
end MF6

/-! ### file 26 -/

namespace Product26
/-- section/26/Multiplicity.hpp 22-25, 35, 45 (section/26/ReactionProduct.hpp 31, 41, 51) -/
def ZAP (b : ENDFtk.Product26) : Int := toInt32 (Disco.round b.multiplicity.base.c1)
def AWI (b : ENDFtk.Product26) : Dbl := b.multiplicity.base.c2
def LAW (b : ENDFtk.Product26) : Int := toInt32 b.multiplicity.base.l2
end Product26

namespace MF26
/-- section/26.hpp 75 -/
def NK (s : Sect (List ENDFtk.Product26)) : Int := asInt s.data.length
/-- section/26.hpp 87-95 -/
def hasReactionProduct (s : Sect (List ENDFtk.Product26)) (zap : Int) : Bool := (s.data.find? (fun p => Product26.ZAP p == zap)).isSome
/-- section/26.hpp 100-116 -/
def reactionProduct (s : Sect (List ENDFtk.Product26)) (zap : Int) : Except Err ENDFtk.Product26 :=
  found (s.data.find? (fun p => Product26.ZAP p == zap))
end MF26

end Get
end ENDFtk

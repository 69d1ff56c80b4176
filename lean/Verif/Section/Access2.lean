import Verif.Section.Access
import Verif.Section.Build3
import Verif.Section.Build4
/-
  The getters of the sections and of the components that are records, part 2: files 7, 8, 9, 10, 12, 13, 14, 15, 28, 31, 33, 34, 35 and 40.
  (Getters of components with several columns are in Verif/Section/Getters.lean.)
-/
set_option linter.unusedVariables false
set_option linter.unusedSectionVars false
set_option linter.unusedSimpArgs false
namespace ENDFtk
variable [Disco]
namespace Get

/-! ### file 7 -/

namespace Coherent
/-- section/7/2/CoherentElastic.hpp 44, 67, 78, 95, 105, 134; `NT()`, `T()`, `LI()` and `S()` are in Verif/Section/Build3.lean -/
def LT (b : TabLists) : Int := toInt32 b.1.base.l1
def NR (b : TabLists) : Int := b.1.NR
def NP (b : TabLists) : Int := b.1.NP
def INT (b : TabLists) : List Int := b.1.INT
def NBT (b : TabLists) : List Int := b.1.NBT
def E (b : TabLists) : List Dbl := b.1.x
end Coherent

namespace Incoherent
/-- section/7/2/IncoherentElastic.hpp 30, 40, 50, 72 -/
def SB (r : TAB1) : Dbl := r.base.c1
def T (r : TAB1) : List Dbl := r.x
def W (r : TAB1) : List Dbl := r.y
def NT (r : TAB1) : Int := r.NP
end Incoherent

namespace MF7MT2
/-- section/7/2.hpp 67-72 -/
def LTHR (s : Sect Elastic) : Int := s.data.lthr
end MF7MT2

namespace Function7
/-- section/7/4/TabulatedFunctions/ScatteringFunction.hpp 35, 46, 69, 79, 89, 99, 109, 138 -/
def B (b : TabLists) : Dbl := b.1.base.c2
def LT (b : TabLists) : Int := toInt32 b.1.base.l1
def NR (b : TabLists) : Int := b.1.NR
def NP (b : TabLists) : Int := b.1.NP
def NA (b : TabLists) : Int := b.1.NP
def INT (b : TabLists) : List Int := b.1.INT
def NBT (b : TabLists) : List Int := b.1.NBT
def A (b : TabLists) : List Dbl := b.1.x
end Function7

namespace Functions7
/-- section/7/4/TabulatedFunctions.hpp 37, 47, 85, 95 -/
def NR (r : ISeq TabLists) : Int := r.tab2.NR
def NB (r : ISeq TabLists) : Int := r.tab2.NZ
def INT (r : ISeq TabLists) : List Int := r.tab2.INT
def NBT (r : ISeq TabLists) : List Int := r.tab2.NBT
/-- section/7/4/TabulatedFunctions.hpp 57-62 -/
def B (r : ISeq TabLists) : List Dbl := r.seq.map Function7.B
end Functions7

namespace Temperature7
/-- section/7/4/EffectiveTemperature.hpp 23, 33, 43 -/
def NT (r : TAB1) : Int := r.NP
def TMOD (r : TAB1) : List Dbl := r.x
def TEFF (r : TAB1) : List Dbl := r.y
end Temperature7

namespace MF7MT4
/-- section/7/4.hpp 87, 97 -/
def LAT (s : Sect ScatteringData) : Int := s.data.lat
def LASYM (s : Sect ScatteringData) : Int := s.data.lasym
end MF7MT4

namespace MF7MT451
/-- section/7/451.hpp 48 -/
def NA (s : Sect (List LIST)) : Int := toUInt32 s.data.length
end MF7MT451

/-! ### file 8 -/

namespace Yields
/-- section/8/454.hpp 40, 55, section/8/459.hpp 41, 59 -/
def LE (s : Sect (List LIST)) : Bool := decide (s.data.length = 1)
def NE (s : Sect (List LIST)) : Int := s.data.length
/-- section/8/454.hpp 65-70, section/8/459.hpp 69-74; `E()` of FissionYieldData is C1 (section/8/FissionYieldData.hpp 73) -/
def E (s : Sect (List LIST)) : List Dbl := s.data.map (·.c1)
end Yields

namespace Continuous8
/-- section/8/457/ContinuousSpectrum.hpp 23, 33, 43 -/
def RTYP (r : TAB1) : Dbl := r.base.c1
def E (r : TAB1) : List Dbl := r.x
def RP (r : TAB1) : List Dbl := r.y
end Continuous8

namespace Decay8
/-- section/8/457/DecaySpectrum.hpp 38, 49, 59, 69 -/
def STYP (b : DecaySpectrum) : Dbl := b.1.c2
def LCON (b : DecaySpectrum) : Int := toInt32 b.1.l1
def LCOV (b : DecaySpectrum) : Int := toInt32 b.1.l2
def NER (b : DecaySpectrum) : Int := toInt32 b.1.n2
/-- section/8/457/DecaySpectrum.hpp 79-83, 93-97, 107-111: `list()[ i ]` is not verified -/
def FD (b : DecaySpectrum) : Except Err (Dbl × Dbl) := (atE b.1.data 0).bind fun x => (atE b.1.data 1).bind fun y => .ok (x, y)
def FC (b : DecaySpectrum) : Except Err (Dbl × Dbl) := (atE b.1.data 4).bind fun x => (atE b.1.data 5).bind fun y => .ok (x, y)
def ERAV (b : DecaySpectrum) : Except Err (Dbl × Dbl) := (atE b.1.data 2).bind fun x => (atE b.1.data 3).bind fun y => .ok (x, y)
end Decay8

namespace MF8MT457
/-- section/8/457.hpp 61, 71, 91 -/
def LIS (s : Sect DecayData) : Int := s.data.lis
def LISO (s : Sect DecayData) : Int := s.data.liso
def NSP (s : Sect DecayData) : Int := toUInt32 s.data.spectra.length
/-- section/8/457.hpp 81, 86 -/
def NST (s : Sect DecayData) : Bool := decide (s.data.nst = 1)
def isStable (s : Sect DecayData) : Bool := NST s
/-- section/8/457.hpp 101 (section/8/457/AverageDecayEnergies.hpp 31-34: C1 and C2), 111, 121 (section/8/457/DecayModes.hpp 28, 38: C1 and C2) -/
def T (s : Sect DecayData) : Dbl × Dbl := (s.data.energies.c1, s.data.energies.c2)
def SPI (s : Sect DecayData) : Dbl := s.data.modes.c1
def PAR (s : Sect DecayData) : Dbl := s.data.modes.c2
end MF8MT457

/-! ### files 9 and 10 -/

namespace Product9
/-- section/9/ReactionProduct.hpp 21, 31, 41, 51, 61, 71; section/10/ReactionProduct.hpp 21, 31, 41, 51, 61, 71 (`Y()` is `XS()` there) -/
def QM (r : TAB1) : Dbl := r.base.c1
def QI (r : TAB1) : Dbl := r.base.c2
def IZAP (r : TAB1) : Int := toInt32 r.base.l1
def LFS (r : TAB1) : Int := toInt32 r.base.l2
def E (r : TAB1) : List Dbl := r.x
def Y (r : TAB1) : List Dbl := r.y
end Product9

namespace MF9
/-- section/9.hpp 46, 56, section/10.hpp 46, 56 -/
def LIS (s : Sect Products) : Int := s.data.lis
def NS (s : Sect Products) : Int := asInt s.data.products.length
/-- section/9.hpp 68-76, section/10.hpp 68-76: `std::find_if` -/
def hasExcitedState (s : Sect Products) (state : Int) : Bool := (s.data.products.find? (fun p => Product9.LFS p == state)).isSome
/-- section/9.hpp 81-96, section/10.hpp 81-96 -/
def reactionProduct (s : Sect Products) (state : Int) : Except Err TAB1 := found (s.data.products.find? (fun p => Product9.LFS p == state))
end MF9

/-! ### files 12 and 13 -/

namespace Partial12
/-- section/12/PartialMultiplicity.hpp 21, 31, 41, 51, 61, 71; section/13/PartialCrossSection.hpp 21, 31, 41, 51, 61, 71 (`Y()` is `XS()` there) -/
def ES (r : TAB1) : Dbl := r.base.c2
def EG (r : TAB1) : Dbl := r.base.c1
def LP (r : TAB1) : Int := toInt32 r.base.l1
def LF (r : TAB1) : Int := toInt32 r.base.l2
def E (r : TAB1) : List Dbl := r.x
def Y (r : TAB1) : List Dbl := r.y
end Partial12

namespace Total12
/-- section/12/TotalMultiplicity.hpp 21, 31; section/13/TotalCrossSection.hpp 21, 31 -/
def E (r : TAB1) : List Dbl := r.x
def Y (r : TAB1) : List Dbl := r.y
end Total12

namespace MF12
/-- section/12.hpp 71: the index of the alternative plus one -/
def LO (s : Sect PhotonProduction) : Int := match s.data with
  | .multiplicities _ => 1
  | .transitions _ => 2
end MF12

namespace Multiplicities
/-- section/12/Multiplicities.hpp 51, section/13.hpp 57 -/
def NK (b : TotalPartials) : Int := asInt b.2.length
end Multiplicities

/-! ### file 14 -/

namespace Photon14
/-- section/14/IsotropicDiscretePhoton.hpp 25, 35; section/14/LegendreDistributions.hpp 25, 37, TabulatedDistributions.hpp 25, 37: `C1()` and `C2()` of
    section/4/AngularDistributions.hpp 21-32 return a `long`, which is converted to `double` again -/
def ES : Photon → Dbl
  | .isotropic _ es => es
  | .legendre b => Disco.ofInt (AngularDistributions.C2 b)
  | .tabulated b => Disco.ofInt (AngularDistributions.C2 b)
def EG : Photon → Dbl
  | .isotropic eg _ => eg
  | .legendre b => Disco.ofInt (AngularDistributions.C1 b)
  | .tabulated b => Disco.ofInt (AngularDistributions.C1 b)
end Photon14

namespace MF14
/-- section/14.hpp 82-87, 99-102, 113, 123-129 -/
def NI (s : Sect MF14Data) : Int := s.data.NI
def NK (s : Sect MF14Data) : Int := s.data.NK
def LI (s : Sect MF14Data) : Bool := decide (s.data.photons.length = 0)
def LTT (s : Sect MF14Data) : Int := s.data.LTT
end MF14

/-! ### files 15 and 28 -/

namespace MF15
/-- section/15.hpp 56 -/
def NK (s : Sect (List Partial15)) : Int := asInt s.data.length
end MF15

namespace MF28
/-- section/28.hpp 49 -/
def NSS (s : Sect (List LIST)) : Int := asInt s.data.length
end MF28

/-! ### files 31, 33, 34, 35 and 40 -/

namespace Reaction33
/-- section/ReactionBlock.hpp 56, 66, 76, 86, 96, 106 -/
def XMF1 (b : ReactionBlock) : Int := b.xmf1
def XLFS1 (b : ReactionBlock) : Int := b.xlfs1
def MAT1 (b : ReactionBlock) : Int := b.mat1
def MT1 (b : ReactionBlock) : Int := b.mt1
def NK (b : ReactionBlock) : Int := asInt b.derived.length
def NI (b : ReactionBlock) : Int := asInt b.explicit.length
end Reaction33

namespace MF31
/-- section/31.hpp 52 -/
def NL (s : Sect (List ReactionBlock)) : Int := asInt s.data.length
end MF31

namespace MF33
/-- section/33.hpp 50, 60 -/
def MTL (s : Sect (Int × List ReactionBlock)) : Int := s.data.1
def NL (s : Sect (Int × List ReactionBlock)) : Int := asInt s.data.2.length
end MF33

namespace Legendre34
/-- section/34/LegendreBlock.hpp 31, 41, 51, 61 -/
def L (b : LegendreBlock) : Int := b.order
def L1 (b : LegendreBlock) : Int := b.order1
def LCT (b : LegendreBlock) : Int := b.lct
def NI (b : LegendreBlock) : Int := asInt b.data.length
end Legendre34

namespace Reaction34
/-- section/34/ReactionBlock.hpp 42, 52, 62, 72 -/
def MT1 (b : ReactionBlock34) : Int := b.mt1
def NL (b : ReactionBlock34) : Int := b.nl
def NL1 (b : ReactionBlock34) : Int := b.nl1
def NSS (b : ReactionBlock34) : Int := asInt b.blocks.length
end Reaction34

namespace MF34
/-- section/34.hpp 58, 68 -/
def LTT (s : Sect (Int × List ReactionBlock34)) : Int := s.data.1
def NMT1 (s : Sect (Int × List ReactionBlock34)) : Int := asInt s.data.2.length
end MF34

namespace MF35
/-- section/35.hpp 55 -/
def NK (s : Sect (List LIST)) : Int := asInt s.data.length
end MF35

namespace Level40
/-- section/40/LevelBlock.hpp 31, 41, 51, 61, 71 -/
def QM (b : LevelBlock) : Dbl := b.qm
def QI (b : LevelBlock) : Dbl := b.qi
def IZAP (b : LevelBlock) : Int := b.izap
def LFS (b : LevelBlock) : Int := b.lfs
def NL (b : LevelBlock) : Int := asInt b.reactions.length
end Level40

namespace MF40
/-- section/40.hpp 57, 67 -/
def LIS (s : Sect (Int × List LevelBlock)) : Int := s.data.1
def NS (s : Sect (Int × List LevelBlock)) : Int := asInt s.data.2.length
end MF40

end Get
end ENDFtk

import Verif.Section.Getters
import Verif.Section.MF32
/-
  Constructors from arrays and getters of the components of section 32/151 that keep their data in a LIST record.
-/
set_option linter.unusedVariables false
set_option linter.unusedSectionVars false
namespace ENDFtk
variable [Disco]


/-! ### LCOMP = 0 -/

namespace LimitedBreitWignerLValue

/-- section/32/151/LimitedBreitWignerLValue/src/ctor.hpp 5-9, 35-65, generateList.hpp 1-76.  The size of `djdn` is verified twice, that of `djdf` is
    not: a shorter `djdf` is read out of bounds. -/
def make (awri : Dbl) (l : Int) (energies spins gt gn gg gf de2 dn2 dndg dg2 dndf dgdf df2 djdn djdg djdf dj2 : List Dbl) : Except Err LIST :=
  let nrs := energies.length
  if ∃ c ∈ [spins, gt, gn, gg, gf, de2, dn2, dndg, dg2, dndf, dgdf, df2, djdn, djdg, djdn, dj2], c.length ≠ nrs then .error .exc
  else if djdf.length < nrs then .error .ub
  else verified (require limitedLValueOk) ⟨awri, Disco.zero, l, 0, nrs,
    rows nrs [energies, spins, gt, gn, gg, gf, de2, dn2, dndg, dg2, dndf, dgdf, df2, djdn, djdg, djdf, dj2, List.replicate nrs Disco.zero]⟩

/-- section/32/151/LimitedBreitWignerLValue.hpp 14-18 -/
def col (i : Nat) (l : LIST) : Except Err (List Dbl) := column i 18 l.data
/-- section/32/151/LimitedBreitWignerLValue.hpp 33-59 -/
def atomicWeightRatio (l : LIST) : Dbl := l.c1
def orbitalMomentum (l : LIST) : Int := toInt32 l.l1
def numberResonances (l : LIST) : Int := toInt32 l.n2
/-- section/32/151/LimitedBreitWignerLValue.hpp 64-229 -/
def resonanceEnergies (l : LIST) := col 0 l
def spinValues (l : LIST) := col 1 l
def totalWidths (l : LIST) := col 2 l
def neutronWidths (l : LIST) := col 3 l
def gammaWidths (l : LIST) := col 4 l
def fissionWidths (l : LIST) := col 5 l
def resonanceEnergyVariances (l : LIST) := col 6 l
def neutronWidthVariances (l : LIST) := col 7 l
def neutronAndGammaWidthCovariances (l : LIST) := col 8 l
def gammaWidthVariances (l : LIST) := col 9 l
def neutronAndFissionWidthCovariances (l : LIST) := col 10 l
def gammaAndFissionWidthCovariances (l : LIST) := col 11 l
def fissionWidthVariances (l : LIST) := col 12 l
def spinAndNeutronWidthCovariances (l : LIST) := col 13 l
def spinAndGammaWidthCovariances (l : LIST) := col 14 l
def spinAndFissionWidthCovariances (l : LIST) := col 15 l
def spinVariances (l : LIST) := col 16 l

end LimitedBreitWignerLValue

/-- `chunk( k )` of a `resonances()` getter: the values of each resonance.  The getters of `Resonance` are elements of it. -/
def resonanceRows (k : Int) (data : List Dbl) : Except Err (List (List Dbl)) := chunkE k data

namespace LimitedBreitWignerLValue

/-- section/32/151/LimitedBreitWignerLValue.hpp 234-241 -/
def resonances (l : LIST) : Except Err (List (List Dbl)) := resonanceRows 18 l.data

/-- section/32/151/LimitedBreitWignerLValue/Resonance.hpp 22-187 -/
def Resonance.resonanceEnergy (c : List Dbl) := atE c 0
def Resonance.spin (c : List Dbl) := atE c 1
def Resonance.totalWidth (c : List Dbl) := atE c 2
def Resonance.neutronWidth (c : List Dbl) := atE c 3
def Resonance.gammaWidth (c : List Dbl) := atE c 4
def Resonance.fissionWidth (c : List Dbl) := atE c 5
def Resonance.resonanceEnergyVariance (c : List Dbl) := atE c 6
def Resonance.neutronWidthVariance (c : List Dbl) := atE c 7
def Resonance.neutronAndGammaWidthCovariance (c : List Dbl) := atE c 8
def Resonance.gammaWidthVariance (c : List Dbl) := atE c 9
def Resonance.neutronAndFissionWidthCovariance (c : List Dbl) := atE c 10
def Resonance.gammaAndFissionWidthCovariance (c : List Dbl) := atE c 11
def Resonance.fissionWidthVariance (c : List Dbl) := atE c 12
def Resonance.spinAndNeutronWidthCovariance (c : List Dbl) := atE c 13
def Resonance.spinAndGammaWidthCovariance (c : List Dbl) := atE c 14
def Resonance.spinAndFissionWidthCovariance (c : List Dbl) := atE c 15
def Resonance.spinVariance (c : List Dbl) := atE c 16

end LimitedBreitWignerLValue

/-! ### LCOMP = 1 -/

namespace ShortRangeBlock

/-- section/32/151/ShortRangeBreitWignerReichMooreBlockBase/src/ctor.hpp 6-10, 34-51, generateList.hpp 1-39 -/
def make (mpar : Int) (energies spins column1 column2 column3 column4 values : List Dbl) : Except Err LIST :=
  let nrb := energies.length
  if ∃ c ∈ [spins, column1, column2, column3, column4], c.length ≠ nrb then .error .exc
  else verified (require shortRangeOk) ⟨Disco.zero, Disco.zero, mpar, 0, nrb,
    rows nrb [energies, spins, column1, column2, column3, column4] ++ values⟩

/-- section/32/151/ShortRangeBreitWignerReichMooreBlockBase.hpp 64-80 -/
def numberParametersWithCovariances (l : LIST) : Int := toInt32 l.l1
def numberResonances (l : LIST) : Int := toInt32 l.n2
/-- section/32/151/ShortRangeBreitWignerReichMooreBlockBase.hpp 15-20 -/
def col (i : Nat) (l : LIST) : Except Err (List Dbl) := (takeE (6 * numberResonances l) l.data).bind (column i 6)
/-- section/32/151/ShortRangeBreitWignerReichMooreBlockBase.hpp 85-100 -/
def resonanceEnergies (l : LIST) := col 0 l
def spinValues (l : LIST) := col 1 l
/-- section/32/151/ShortRangeBreitWignerReichMooreBlockBase.hpp 50-54 -/
def resonances (l : LIST) : Except Err (List (List Dbl)) := (takeE (6 * numberResonances l) l.data).bind (resonanceRows 6)
/-- section/32/151/ShortRangeBreitWignerReichMooreBlockBase.hpp 105-124 (products as integers) -/
def covarianceMatrixOrder (l : LIST) : Int := numberParametersWithCovariances l * numberResonances l
def numberValues (l : LIST) : Int := Int.tdiv (covarianceMatrixOrder l * (covarianceMatrixOrder l + 1)) 2
/-- section/32/151/ShortRangeBreitWignerReichMooreBlockBase.hpp 129-132 -/
def covarianceMatrix (l : LIST) : Except Err (List Dbl) := dropE (6 * numberResonances l) l.data

end ShortRangeBlock

namespace ShortRangeBreitWignerBlock

/-- section/32/151/ShortRangeBreitWignerBlock/src/ctor.hpp 21-39 -/
def make (mpar : Int) (energies spins gt gn gg gf values : List Dbl) : Except Err LIST := ShortRangeBlock.make mpar energies spins gt gn gg gf values

/-- section/32/151/ShortRangeBreitWignerBlock.hpp 31-66, ShortRangeBreitWignerReichMooreBlockBase.hpp 30-45 -/
def totalWidths (l : LIST) := ShortRangeBlock.col 2 l
def neutronWidths (l : LIST) := ShortRangeBlock.col 3 l
def gammaWidths (l : LIST) := ShortRangeBlock.col 4 l
def fissionWidths (l : LIST) := ShortRangeBlock.col 5 l

end ShortRangeBreitWignerBlock

namespace ShortRangeReichMooreBlock

/-- section/32/151/ShortRangeReichMooreBlock/src/ctor.hpp 21-39 -/
def make (mpar : Int) (energies spins gn gg gfa gfb values : List Dbl) : Except Err LIST := ShortRangeBlock.make mpar energies spins gn gg gfa gfb values

/-- section/32/151/ShortRangeReichMooreBlock.hpp 31-66, ShortRangeBreitWignerReichMooreBlockBase.hpp 30-45 -/
def neutronWidths (l : LIST) := ShortRangeBlock.col 2 l
def gammaWidths (l : LIST) := ShortRangeBlock.col 3 l
def firstFissionWidths (l : LIST) := ShortRangeBlock.col 4 l
def secondFissionWidths (l : LIST) := ShortRangeBlock.col 5 l

end ShortRangeReichMooreBlock

/-- section/2/151/BreitWignerReichMooreLValueBase.hpp 48-51, BreitWignerLValue.hpp 107-114, ReichMooreLValue.hpp 85-92 -/
def ResolvedLValue.resonances (l : LIST) : Except Err (List (List Dbl)) := resonanceRows 6 l.data

/-- section/2/151/BreitWignerLValue/Resonance.hpp 18-76 -/
def BreitWignerLValue.Resonance.resonanceEnergy (c : List Dbl) := atE c 0
def BreitWignerLValue.Resonance.spin (c : List Dbl) := atE c 1
def BreitWignerLValue.Resonance.totalWidth (c : List Dbl) := atE c 2
def BreitWignerLValue.Resonance.neutronWidth (c : List Dbl) := atE c 3
def BreitWignerLValue.Resonance.gammaWidth (c : List Dbl) := atE c 4
def BreitWignerLValue.Resonance.fissionWidth (c : List Dbl) := atE c 5

/-- section/2/151/ReichMooreLValue/Resonance.hpp 21-76 -/
def ReichMooreLValue.Resonance.resonanceEnergy (c : List Dbl) := atE c 0
def ReichMooreLValue.Resonance.spin (c : List Dbl) := atE c 1
def ReichMooreLValue.Resonance.neutronWidth (c : List Dbl) := atE c 2
def ReichMooreLValue.Resonance.gammaWidth (c : List Dbl) := atE c 3
def ReichMooreLValue.Resonance.firstFissionWidth (c : List Dbl) := atE c 4
def ReichMooreLValue.Resonance.secondFissionWidth (c : List Dbl) := atE c 5

/-- section/2/151/BreitWignerLValue/Resonance.hpp 81-89; `sub` is the subtraction of doubles -/
def BreitWignerLValue.Resonance.competitiveWidth (sub : Dbl → Dbl → Dbl) (c : List Dbl) : Except Err Dbl :=
  (totalWidth c).bind fun gt => (neutronWidth c).bind fun gn => (gammaWidth c).bind fun gg => (fissionWidth c).bind fun gf =>
    .ok (sub (sub (sub gt gn) gg) gf)

/-- section/2/151/BreitWignerLValue.hpp 95-106 (`zip_with` ends with the shortest array) -/
def BreitWignerLValue.competitiveWidths (sub : Dbl → Dbl → Dbl) (l : LIST) : Except Err (List Dbl) :=
  (totalWidths l).bind fun gt => (neutronWidths l).bind fun gn => (gammaWidths l).bind fun gg => (fissionWidths l).bind fun gf =>
    .ok ((gt.zip (gn.zip (gg.zip gf))).map fun q => sub (sub (sub q.1 q.2.1) q.2.2.1) q.2.2.2)

/-- The integer square root: the largest `r` with `r * r ≤ n`. -/
def isqrt : Nat → Nat
  | 0 => 0
  | n + 1 => if (isqrt n + 1) * (isqrt n + 1) ≤ n + 1 then isqrt n + 1 else isqrt n

namespace TriangularMatrix

/-- section/32/151/ShortRangeRMatrixLimitedBlock/CovarianceMatrix/src/ctor.hpp 31-34: `( -1 + std::sqrt( 1 + 8 * n ) ) / 2` for an `unsigned int n`,
    truncated to an integer.  That truncating the rounded value gives the same integer is proved in Props/RootRounding (C60_order_rounded). -/
def order (n : Nat) : Nat := (isqrt ((1 + 8 * n) % 2 ^ 32) - 1) / 2

/-- section/32/151/ShortRangeRMatrixLimitedBlock/CovarianceMatrix/src/ctor.hpp 6-10, 27-35 (MPAR = 0);
    section/32/151/UnresolvedRelativeCovariances/CovarianceMatrix/src/ctor.hpp 6-10, 28-36 (MPAR given, an `unsigned int`) -/
def make (mpar : Int) (values : List Dbl) : Except Err LIST :=
  verified (require triangleOk) ⟨Disco.zero, Disco.zero, mpar, 0, order values.length, values⟩

/-- section/32/151/UnresolvedRelativeCovariances/CovarianceMatrix.hpp 24-30 -/
def numberAverageParameters (l : LIST) : Int := toInt32 l.l1
/-- section/32/151/ShortRangeRMatrixLimitedBlock/CovarianceMatrix.hpp 23-28, UnresolvedRelativeCovariances/CovarianceMatrix.hpp 35-40 -/
def covarianceMatrixOrder (l : LIST) : Int := toInt32 l.n2
/-- section/32/151/ShortRangeRMatrixLimitedBlock/CovarianceMatrix.hpp 33-42, UnresolvedRelativeCovariances/CovarianceMatrix.hpp 45-54 (product as integer) -/
def numberValues (l : LIST) : Int := Int.tdiv (covarianceMatrixOrder l * (covarianceMatrixOrder l + 1)) 2
/-- section/32/151/ShortRangeRMatrixLimitedBlock/CovarianceMatrix.hpp 47-50, UnresolvedRelativeCovariances/CovarianceMatrix.hpp 59-62 -/
def covarianceMatrix (l : LIST) : List Dbl := l.data

end TriangularMatrix

namespace ShortRangeParameters

/-- section/32/151/ShortRangeRMatrixLimitedBlock/ResonanceParameters/src/ctor.hpp 5-8, 18-26, generateList.hpp 1-45 (the counts as natural numbers, not
    `unsigned int`) -/
def make (energies : List Dbl) (parameters : List (List Dbl)) : Except Err LIST :=
  let nrs := energies.length
  if parameters.length ≠ nrs then .error .exc
  else if nrs = 0 then .error .exc
  else
    let nch := (parameters.headD []).length
    let nx := nrs * (1 + nch + ResonanceParameters.padding nch) / 6
    if ∃ p ∈ parameters, p.length ≠ nch then .error .exc
    else verified (require rmlParametersOk) ⟨Disco.zero, Disco.zero, nch, nrs, nx,
      (List.zip energies parameters).flatMap (fun r => r.1 :: r.2 ++ List.replicate (ResonanceParameters.padding nch) Disco.zero)⟩

/-- section/32/151/ShortRangeRMatrixLimitedBlock/ResonanceParameters.hpp 27-52 (`long`) -/
def numberChannels (l : LIST) : Int := l.l1
def numberResonances (l : LIST) : Int := l.l2
def numberLines (l : LIST) : Int := Int.tdiv l.npl 6
/-- section/32/151/ShortRangeRMatrixLimitedBlock/ResonanceParameters.hpp 57-68 -/
def resonanceEnergies (l : LIST) : Except Err (List Dbl) := (ResonanceParameters.width l).bind (fun w => strideE w l.data)
/-- section/32/151/ShortRangeRMatrixLimitedBlock/ResonanceParameters.hpp 73-87 -/
def resonanceParameters (l : LIST) : Except Err (List (List Dbl)) :=
  (ResonanceParameters.width l).bind (fun w => (chunkE w l.data).bind (mapE (fun c => (dropE 1 c).bind (takeE (numberChannels l)))))

end ShortRangeParameters

/-! ### LCOMP = 2 -/

namespace CompactBreitWignerUncertainties

/-- section/32/151/CompactBreitWignerUncertainties/src/ctor.hpp 5-9, 37-56, generateList.hpp 1-52 -/
def make (awri qx : Dbl) (lrx : Bool) (energies spins gt gn gg gf der dgn dgg dgf : List Dbl) : Except Err LIST :=
  let nrs := energies.length
  if ∃ c ∈ [spins, gt, gn, gg, gf, der, dgn, dgg, dgf], c.length ≠ nrs then .error .exc
  else verified (require compactOk) ⟨awri, qx, 0, ofBool lrx, nrs,
    rows nrs [energies, spins, gt, gn, gg, gf, der, List.replicate nrs Disco.zero, List.replicate nrs Disco.zero, dgn, dgg, dgf]⟩

/-- section/32/151/CompactBreitWignerUncertainties.hpp 15-19 -/
def col (i : Nat) (l : LIST) : Except Err (List Dbl) := column i 12 l.data
/-- section/32/151/CompactBreitWignerUncertainties.hpp 34-70 -/
def atomicWeightRatio (l : LIST) : Dbl := l.c1
def competitiveQValue (l : LIST) : Dbl := l.c2
def competitiveWidthFlag (l : LIST) : Bool := l.l2 != 0
def numberResonances (l : LIST) : Int := toInt32 l.n2
/-- section/32/151/CompactBreitWignerUncertainties.hpp 75-170 -/
def resonanceEnergies (l : LIST) := col 0 l
def spinValues (l : LIST) := col 1 l
def totalWidths (l : LIST) := col 2 l
def neutronWidths (l : LIST) := col 3 l
def gammaWidths (l : LIST) := col 4 l
def fissionWidths (l : LIST) := col 5 l
def resonanceEnergyUncertainties (l : LIST) := col 6 l
def neutronWidthUncertainties (l : LIST) := col 9 l
def gammaWidthUncertainties (l : LIST) := col 10 l
def fissionWidthUncertainties (l : LIST) := col 11 l
/-- section/32/151/CompactBreitWignerUncertainties.hpp 175-182 -/
def resonances (l : LIST) : Except Err (List (List Dbl)) := resonanceRows 12 l.data

/-- section/32/151/CompactBreitWignerUncertainties/Resonance.hpp 22-117 -/
def Resonance.resonanceEnergy (c : List Dbl) := atE c 0
def Resonance.spin (c : List Dbl) := atE c 1
def Resonance.totalWidth (c : List Dbl) := atE c 2
def Resonance.neutronWidth (c : List Dbl) := atE c 3
def Resonance.gammaWidth (c : List Dbl) := atE c 4
def Resonance.fissionWidth (c : List Dbl) := atE c 5
def Resonance.resonanceEnergyUncertainty (c : List Dbl) := atE c 6
def Resonance.neutronWidthUncertainty (c : List Dbl) := atE c 9
def Resonance.gammaWidthUncertainty (c : List Dbl) := atE c 10
def Resonance.fissionWidthUncertainty (c : List Dbl) := atE c 11

end CompactBreitWignerUncertainties

namespace CompactReichMooreUncertainties

/-- section/32/151/CompactReichMooreUncertainties/src/ctor.hpp 5-9, 37-58, generateList.hpp 1-56 -/
def make (awri apl : Dbl) (energies spins gn gg gfa gfb der dgn dgg dgfa dgfb : List Dbl) : Except Err LIST :=
  let nrs := energies.length
  if ∃ c ∈ [spins, gn, gg, gfa, gfb, der, dgn, dgg, dgfa, dgfb], c.length ≠ nrs then .error .exc
  else verified (require compactOk) ⟨awri, apl, 0, 0, nrs,
    rows nrs [energies, spins, gn, gg, gfa, gfb, der, List.replicate nrs Disco.zero, dgn, dgg, dgfa, dgfb]⟩

/-- section/32/151/CompactReichMooreUncertainties.hpp 17-21 -/
def col (i : Nat) (l : LIST) : Except Err (List Dbl) := column i 12 l.data
/-- section/32/151/CompactReichMooreUncertainties.hpp 36-62 -/
def atomicWeightRatio (l : LIST) : Dbl := l.c1
def lDependentScatteringRadius (l : LIST) : Dbl := l.c2
def numberResonances (l : LIST) : Int := toInt32 l.n2
/-- section/32/151/CompactReichMooreUncertainties.hpp 67-172 -/
def resonanceEnergies (l : LIST) := col 0 l
def spinValues (l : LIST) := col 1 l
def neutronWidths (l : LIST) := col 2 l
def gammaWidths (l : LIST) := col 3 l
def firstFissionWidths (l : LIST) := col 4 l
def secondFissionWidths (l : LIST) := col 5 l
def resonanceEnergyUncertainties (l : LIST) := col 6 l
def neutronWidthUncertainties (l : LIST) := col 8 l
def gammaWidthUncertainties (l : LIST) := col 9 l
def firstFissionWidthUncertainties (l : LIST) := col 10 l
def secondFissionWidthUncertainties (l : LIST) := col 11 l
/-- section/32/151/CompactReichMooreUncertainties.hpp 177-184 -/
def resonances (l : LIST) : Except Err (List (List Dbl)) := resonanceRows 12 l.data

/-- section/32/151/CompactReichMooreUncertainties/Resonance.hpp 22-127 -/
def Resonance.resonanceEnergy (c : List Dbl) := atE c 0
def Resonance.spin (c : List Dbl) := atE c 1
def Resonance.neutronWidth (c : List Dbl) := atE c 2
def Resonance.gammaWidth (c : List Dbl) := atE c 3
def Resonance.firstFissionWidth (c : List Dbl) := atE c 4
def Resonance.secondFissionWidth (c : List Dbl) := atE c 5
def Resonance.resonanceEnergyUncertainty (c : List Dbl) := atE c 6
def Resonance.neutronWidthUncertainty (c : List Dbl) := atE c 8
def Resonance.gammaWidthUncertainty (c : List Dbl) := atE c 9
def Resonance.firstFissionWidthUncertainty (c : List Dbl) := atE c 10
def Resonance.secondFissionWidthUncertainty (c : List Dbl) := atE c 11

end CompactReichMooreUncertainties

namespace CompactParticlePairs

/-- section/32/151/CompactRMatrixLimitedUncertainties/ParticlePairs/src/ctor.hpp 5-8, 37-56, generateList.hpp 1-52; the getters (ParticlePairs.hpp 47-171)
    are those of section/2/151/RMatrixLimited/ParticlePairs.hpp -/
def make (njsx : Int) (ma mb za zb ia ib pa pb q : List Dbl) (pnt shf mt : List Int) : Except Err LIST :=
  let npp := ma.length
  if ∃ n ∈ [mb.length, za.length, zb.length, ia.length, ib.length, q.length, pnt.length, shf.length, mt.length, pa.length, pb.length], n ≠ npp then .error .exc
  else verified (require particlePairsOk) ⟨Disco.zero, Disco.zero, npp, njsx, 2 * npp,
    rows npp [ma, mb, za, zb, ia, ib, q, ofInts pnt, ofInts shf, ofInts mt, pa, pb]⟩

/-- section/32/151/CompactRMatrixLimitedUncertainties/ParticlePairs.hpp 36-42 -/
def numberSpinGroups (l : LIST) : Int := toInt32 l.l2

end CompactParticlePairs

namespace CompactParameters

/-- section/32/151/CompactRMatrixLimitedUncertainties/ResonanceParameters/src/ctor.hpp 5-8, 28-40, generateList.hpp 1-56 (the counts as natural numbers, not
    `unsigned int`).  The sizes of `parameters[i]` are verified twice, those of `dparameters[i]` are not. -/
def make (energies : List Dbl) (parameters : List (List Dbl)) (denergies : List Dbl) (dparameters : List (List Dbl)) : Except Err LIST :=
  let nrs := energies.length
  if parameters.length ≠ nrs ∨ denergies.length ≠ nrs ∨ dparameters.length ≠ nrs then .error .exc
  else if nrs = 0 then .error .exc
  else
    let nch := (parameters.headD []).length
    let nx := nrs * (1 + nch + ResonanceParameters.padding nch) / 6
    let zeros := List.replicate (ResonanceParameters.padding nch) Disco.zero
    if ∃ p ∈ parameters, p.length ≠ nch then .error .exc
    else verified (require compactRmlParametersOk) ⟨Disco.zero, Disco.zero, 0, nrs, nx,
      (List.zip (List.zip energies parameters) (List.zip denergies dparameters)).flatMap
        (fun r => (r.1.1 :: r.1.2 ++ zeros) ++ (r.2.1 :: r.2.2 ++ zeros))⟩

/-- section/32/151/CompactRMatrixLimitedUncertainties/ResonanceParameters.hpp 30-45 (`long`) -/
def numberResonances (l : LIST) : Int := l.l2
def numberLines (l : LIST) : Int := Int.tdiv l.npl 12
/-- `this->NX() / this->NRSA()`: for NRSA = 0 a division by zero -/
def lines (l : LIST) : Except Err Int := if l.l2 = 0 then .error .ub else .ok (Int.tdiv (numberLines l) l.l2)
/-- section/32/151/CompactRMatrixLimitedUncertainties/ResonanceParameters.hpp 50-61 -/
def resonanceEnergies (l : LIST) : Except Err (List Dbl) := (lines l).bind (fun w => strideE (w * 12) l.data)
/-- section/32/151/CompactRMatrixLimitedUncertainties/ResonanceParameters.hpp 66-78 -/
def resonanceEnergyUncertainties (l : LIST) : Except Err (List Dbl) := (lines l).bind (fun w => column (w * 6) (w * 12) l.data)
/-- section/32/151/CompactRMatrixLimitedUncertainties/ResonanceParameters.hpp 83-94 -/
def resonanceParameters (l : LIST) : Except Err (List (List Dbl)) :=
  (lines l).bind (fun w => (chunkE (w * 6) l.data).bind (fun cs => (strideE 2 cs).bind (mapE (dropE 1))))
/-- section/32/151/CompactRMatrixLimitedUncertainties/ResonanceParameters.hpp 99-111 -/
def resonanceParameterUncertainties (l : LIST) : Except Err (List (List Dbl)) :=
  (lines l).bind (fun w => (dropE (w * 6) l.data).bind (fun x => (chunkE (w * 6) x).bind (fun cs => (strideE 2 cs).bind (mapE (dropE 1)))))

end CompactParameters

namespace RadiusUncertainties

/-- section/32/151/ReichMooreScatteringRadiusUncertainties/src/ctor.hpp 5-6, 15-20, generateList.hpp 1-8 -/
def make (dap : Dbl) (uncertainties : List Dbl) : Except Err LIST := .ok ⟨Disco.zero, Disco.zero, 0, 0, 0, dap :: uncertainties⟩
/-- section/32/151/ReichMooreScatteringRadiusUncertainties.hpp 24-29 -/
def defaultUncertainty (l : LIST) : Except Err Dbl := atE l.data 0
/-- section/32/151/ReichMooreScatteringRadiusUncertainties.hpp 34-40 -/
def uncertainties (l : LIST) : Except Err (List Dbl) := dropE 1 l.data

end RadiusUncertainties

/-! ### unresolved resonances -/

namespace UnresolvedCovLValue

/-- section/32/151/UnresolvedRelativeCovariances/LValue/src/ctor.hpp 5-9, 25-44, generateList.hpp 1-36 -/
def make (awri : Dbl) (l : Int) (spins spacing gno gg gf gx : List Dbl) : Except Err LIST :=
  let njs := spins.length
  if ∃ c ∈ [spacing, gno, gg, gf, gx], c.length ≠ njs then .error .exc
  else verified (require lvalueAOk) ⟨awri, Disco.zero, l, 0, njs, rows njs [spacing, spins, gno, gg, gf, gx]⟩

/-- section/32/151/UnresolvedRelativeCovariances/LValue.hpp 54-61, 66-71: element `i` of each chunk of six -/
def col (i : Nat) (l : LIST) : Except Err (List Dbl) := (chunkE 6 l.data).bind (mapE (fun c => atE c i))
/-- section/32/151/UnresolvedRelativeCovariances/LValue.hpp 23-49 -/
def atomicWeightRatio (l : LIST) : Dbl := l.c1
def orbitalMomentum (l : LIST) : Int := toInt32 l.l1
def numberSpinValues (l : LIST) : Int := toInt32 l.n2
/-- section/32/151/UnresolvedRelativeCovariances/LValue.hpp 66-151, JValue.hpp 21-76 (the indices) -/
def averageLevelSpacings (l : LIST) := col 0 l
def spinValues (l : LIST) := col 1 l
def averageNeutronWidths (l : LIST) := col 2 l
def averageGammaWidths (l : LIST) := col 3 l
def averageFissionWidths (l : LIST) := col 4 l
def averageCompetitiveWidths (l : LIST) := col 5 l

end UnresolvedCovLValue

end ENDFtk

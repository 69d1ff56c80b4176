import Verif.Section.All
/-
  Constructors from arrays and getters of the components that keep their data in a LIST record.
-/
set_option linter.unusedVariables false
set_option linter.unusedSectionVars false
set_option linter.unusedSimpArgs false
namespace ENDFtk
variable [Disco]

/-! ### views -/

/-- `ranges::views::drop_exactly( n )`: fewer than `n` elements (or a negative `n`) violate its precondition. -/
def dropE {α : Type} (n : Int) (l : List α) : Except Err (List α) := if n < 0 ∨ (l.length : Int) < n then .error .ub else .ok (l.drop n.toNat)

/-- `ranges::views::take_exactly( n )`: fewer than `n` elements (or a negative `n`) violate its precondition. -/
def takeE {α : Type} (n : Int) (l : List α) : Except Err (List α) := if n < 0 ∨ (l.length : Int) < n then .error .ub else .ok (l.take n.toNat)

/-- `ranges::views::stride( n )`: `n > 0` is a precondition. -/
def strideE {α : Type} (n : Int) (l : List α) : Except Err (List α) := if n ≤ 0 then .error .ub else .ok (strideL n.toNat l)

/-- The pieces of `n` elements; the last one may be shorter. -/
def chunkL {α : Type} (n : Nat) (l : List α) : List (List α) := (List.range ((l.length + n - 1) / n)).map (fun i => (l.drop (i * n)).take n)

/-- `ranges::views::chunk( n )`: `n > 0` is a precondition. -/
def chunkE {α : Type} (n : Int) (l : List α) : Except Err (List (List α)) := if n ≤ 0 then .error .ub else .ok (chunkL n.toNat l)

/-- `l[ i ]`: an index out of range is undefined behaviour. -/
def atE {α : Type} (l : List α) (i : Nat) : Except Err α := match l[i]? with
  | some x => .ok x
  | none => .error .ub

/-- `drop_exactly( off ) | stride( k )` -/
def column {α : Type} (off k : Int) (l : List α) : Except Err (List α) := (dropE off l).bind (strideE k)

/-- A function that can fail for each element. -/
def mapE {α β : Type} (f : α → Except Err β) : List α → Except Err (List β)
  | [] => .ok []
  | a :: l => match f a with
    | .error e => .error e
    | .ok b => match mapE f l with
      | .error e => .error e
      | .ok bs => .ok (b :: bs)

/-- `for ( i = 0; i < n; ++i ) { list.push_back( a[i] ); list.push_back( b[i] ); ... }` for arrays `a`, `b`, ... of (at least) `n` elements -/
def rows (n : Nat) (cols : List (List Dbl)) : List Dbl := (List.range n).flatMap (fun i => cols.map (fun c => c.getD i Disco.zero))

/-- conversion of an array of integers to an array of `double` -/
def ofInts (l : List Int) : List Dbl := l.map Disco.ofInt

/-- The private constructor from a LIST record, which verifies it. -/
def verified (check : LIST → Except Err Unit) (l : LIST) : Except Err LIST := match check l with
  | .ok _ => .ok l
  | .error e => .error e

/-- verification by a condition -/
def require (P : LIST → Prop) [DecidablePred P] (l : LIST) : Except Err Unit := if P l then .ok () else .error .exc

instance : DecidablePred lvalueOk := fun l => by unfold lvalueOk; exact inferInstance
instance : DecidablePred lvalueAOk := fun l => by unfold lvalueAOk; exact inferInstance
instance : DecidablePred particlePairsOk := fun l => by unfold particlePairsOk; exact inferInstance
instance : DecidablePred channelsOk := fun l => by unfold channelsOk; exact inferInstance
instance : DecidablePred rmlParametersOk := fun l => by unfold rmlParametersOk; exact inferInstance
instance : DecidablePred subshellOk := fun l => by unfold subshellOk; exact inferInstance
instance : DecidablePred elementOk := fun l => by unfold elementOk; exact inferInstance
instance : DecidablePred yieldsOk := fun l => by unfold yieldsOk; exact inferInstance
instance : DecidablePred decayEnergiesOk := fun l => by unfold decayEnergiesOk; exact inferInstance
instance : DecidablePred decayModesOk := fun l => by unfold decayModesOk; exact inferInstance
instance : DecidablePred discreteOk := fun l => by unfold discreteOk; exact inferInstance
instance : DecidablePred twoBodyOk := fun l => by unfold twoBodyOk; exact inferInstance
instance : DecidablePred chargedOk := fun l => by unfold chargedOk; exact inferInstance

/-! ### MF1 -/

namespace DecayConstants

/-- section/1/455/DecayConstants/src/ctor.hpp 8-17, generateList.hpp 1-27 -/
def make (energy : Dbl) (constants abundances : List Dbl) : Except Err LIST :=
  if constants.length = 0 then .error .exc
  else if constants.length ≠ abundances.length then .error .exc
  else .ok ⟨Disco.zero, energy, 0, 0, 0, rows constants.length [constants, abundances]⟩

/-- section/1/455/DecayConstants.hpp 24 -/
def numberPrecursors (l : LIST) : Int := asInt (l.data.length / 2)
/-- section/1/455/DecayConstants.hpp 34 -/
def incidentEnergy (l : LIST) : Dbl := l.c2
/-- section/1/455/DecayConstants.hpp 44-47 -/
def decayConstants (l : LIST) : Except Err (List Dbl) := strideE 2 l.data
/-- section/1/455/DecayConstants.hpp 60-64 -/
def abundances (l : LIST) : Except Err (List Dbl) := column 1 2 l.data

end DecayConstants

namespace PolynomialComponents

/-- An array of pairs as two columns. -/
def pairCols (a : List (Dbl × Dbl)) : List (List Dbl) := [a.map (·.1), a.map (·.2)]

/-- section/1/458/PolynomialComponents/src/ctor.hpp 13-15, 40-57, generateList.hpp 1-57.  `list.size() / 18 - 1` is computed in `std::size_t` and
    converted to `long`: -1 for empty arrays.  This constructor does not verify the result. -/
def make (efr enp end' egp egd eb enu er et : List (Dbl × Dbl)) : Except Err LIST :=
  let n := efr.length
  if enp.length ≠ n ∨ end'.length ≠ n ∨ egp.length ≠ n ∨ egd.length ≠ n ∨ eb.length ≠ n ∨ enu.length ≠ n ∨ er.length ≠ n ∨ et.length ≠ n then
    .error .exc
  else
    let data := rows n ([efr, enp, end', egp, egd, eb, enu, er, et].flatMap pairCols)
    .ok ⟨Disco.zero, Disco.zero, 0, (data.length / 18 : Nat) - 1, (data.length / 2 : Nat), data⟩

/-- section/1/458/PolynomialComponents.hpp 37 -/
def order (l : LIST) : Int := toInt32 l.l2
/-- section/1/458/PolynomialComponents/src/createRangeFromIndex.hpp 1-7 -/
def component (i : Nat) (l : LIST) : Except Err (List (List Dbl)) := (chunkE 2 l.data).bind (column i 9)

/-- section/1/458/PolynomialComponents.hpp 80-172 -/
def fissionFragments (l : LIST) := component 0 l
def promptNeutrons (l : LIST) := component 1 l
def delayedNeutrons (l : LIST) := component 2 l
def promptGammas (l : LIST) := component 3 l
def delayedGammas (l : LIST) := component 4 l
def delayedBetas (l : LIST) := component 5 l
def neutrinos (l : LIST) := component 6 l
def totalMinusNeutrinos (l : LIST) := component 7 l
def total (l : LIST) := component 8 l

end PolynomialComponents

/-! ### MF2 MT151 -/

namespace ResolvedLValue

/-- section/2/151/BreitWignerReichMooreLValueBase/src/ctor.hpp 5-9, 26-41, generateList.hpp 1-37 -/
def make (awri c2 : Dbl) (l : Int) (l2 : Bool) (energies spins column1 column2 column3 column4 : List Dbl) : Except Err LIST :=
  let nrs := energies.length
  if spins.length ≠ nrs ∨ column1.length ≠ nrs ∨ column2.length ≠ nrs ∨ column3.length ≠ nrs ∨ column4.length ≠ nrs then .error .exc
  else verified (require lvalueOk) ⟨awri, c2, l, ofBool l2, nrs, rows nrs [energies, spins, column1, column2, column3, column4]⟩

/-- section/2/151/BreitWignerReichMooreLValueBase.hpp 14-18 -/
def col (i : Nat) (l : LIST) : Except Err (List Dbl) := column i 6 l.data

/-- section/2/151/BreitWignerReichMooreLValueBase.hpp 61-91 -/
def atomicWeightRatio (l : LIST) : Dbl := l.c1
def orbitalMomentum (l : LIST) : Int := toInt32 l.l1
def numberResonances (l : LIST) : Int := toInt32 l.n2
/-- section/2/151/BreitWignerReichMooreLValueBase.hpp 96, 106 -/
def resonanceEnergies (l : LIST) := col 0 l
def spinValues (l : LIST) := col 1 l

end ResolvedLValue

namespace BreitWignerLValue

/-- section/2/151/BreitWignerLValue/src/ctor.hpp 15-34 -/
def make (awri qx : Dbl) (l : Int) (lrx : Bool) (energies spins gt gn gg gf : List Dbl) : Except Err LIST :=
  ResolvedLValue.make awri qx l lrx energies spins gt gn gg gf

/-- section/2/151/BreitWignerLValue.hpp 24, 37 -/
def competitiveQValue (l : LIST) : Dbl := l.c2
def competitiveWidthFlag (l : LIST) : Bool := l.l2 != 0
/-- section/2/151/BreitWignerLValue.hpp 55-90, BreitWignerReichMooreLValueBase.hpp 28-43 -/
def totalWidths (l : LIST) := ResolvedLValue.col 2 l
def neutronWidths (l : LIST) := ResolvedLValue.col 3 l
def gammaWidths (l : LIST) := ResolvedLValue.col 4 l
def fissionWidths (l : LIST) := ResolvedLValue.col 5 l

end BreitWignerLValue

namespace ReichMooreLValue

/-- section/2/151/ReichMooreLValue/src/ctor.hpp 14-33 -/
def make (awri apl : Dbl) (l : Int) (energies spins gn gg gfa gfb : List Dbl) : Except Err LIST :=
  ResolvedLValue.make awri apl l false energies spins gn gg gfa gfb

/-- section/2/151/ReichMooreLValue.hpp 24 -/
def lDependentScatteringRadius (l : LIST) : Dbl := l.c2
/-- section/2/151/ReichMooreLValue.hpp 45-80, BreitWignerReichMooreLValueBase.hpp 28-43 -/
def neutronWidths (l : LIST) := ResolvedLValue.col 2 l
def gammaWidths (l : LIST) := ResolvedLValue.col 3 l
def firstFissionWidths (l : LIST) := ResolvedLValue.col 4 l
def secondFissionWidths (l : LIST) := ResolvedLValue.col 5 l

end ReichMooreLValue

namespace UnresolvedALValue

/-- section/2/151/UnresolvedEnergyIndependent/LValue/src/ctor.hpp 5-9, 25-43, generateList.hpp 1-34 -/
def make (awri : Dbl) (l : Int) (spins spacing : List Dbl) (amun : List Int) (gn gg : List Dbl) : Except Err LIST :=
  let njs := spins.length
  if spacing.length ≠ njs ∨ amun.length ≠ njs ∨ gn.length ≠ njs ∨ gg.length ≠ njs then .error .exc
  else verified (require lvalueAOk) ⟨awri, Disco.zero, l, 0, njs,
    rows njs [spacing, spins, ofInts amun, gn, gg, List.replicate njs Disco.zero]⟩

/-- section/2/151/UnresolvedEnergyIndependent/LValue.hpp 54-71: element `i` of each chunk of six -/
def col (i : Nat) (l : LIST) : Except Err (List Dbl) := (chunkE 6 l.data).bind (mapE (fun c => atE c i))

/-- section/2/151/UnresolvedEnergyIndependent/LValue.hpp 23-49 -/
def atomicWeightRatio (l : LIST) : Dbl := l.c1
def orbitalMomentum (l : LIST) : Int := toInt32 l.l1
def numberSpinValues (l : LIST) : Int := toInt32 l.n2
/-- section/2/151/UnresolvedEnergyIndependent/LValue.hpp 66-106, 141-166, UnresolvedEnergyIndependent/JValue.hpp 27-47, 90-100 (the indices) -/
def averageLevelSpacings (l : LIST) := col 0 l
def spinValues (l : LIST) := col 1 l
def neutronWidthDegreesFreedom (l : LIST) : Except Err (List Int) := (col 2 l).map (·.map Disco.trunc)
def averageNeutronWidths (l : LIST) := col 3 l
def averageGammaWidths (l : LIST) := col 4 l

end UnresolvedALValue

namespace UnresolvedCJValue

/-- section/2/151/UnresolvedEnergyDependent/JValue/src/ctor.hpp 5-8, 27-48, generateList.hpp 1-42 -/
def make (spin : Dbl) (amun amug amuf amux int : Int) (energies d gn gg gf gx : List Dbl) : Except Err LIST :=
  let ne := energies.length
  if d.length ≠ ne ∨ gx.length ≠ ne ∨ gn.length ≠ ne ∨ gg.length ≠ ne ∨ gf.length ≠ ne then .error .exc
  else verified jvalueCheck ⟨spin, Disco.zero, int, 0, ne,
    [Disco.zero, Disco.zero, Disco.ofInt amux, Disco.ofInt amun, Disco.ofInt amug, Disco.ofInt amuf] ++ rows ne [energies, d, gx, gn, gg, gf]⟩

/-- section/2/151/UnresolvedEnergyDependent/JValue.hpp 15-21 -/
def col (i : Nat) (l : LIST) : Except Err (List Dbl) := column (i + 6) 6 l.data
/-- section/2/151/UnresolvedEnergyDependent/JValue.hpp 31, 141 -/
def spin (l : LIST) : Dbl := l.c1
def interpolation (l : LIST) : Int := toInt32 l.l1
/-- section/2/151/UnresolvedEnergyDependent/JValue.hpp 41-76 -/
def neutronWidthDegreesFreedom (l : LIST) : Except Err Int := (atE l.data 3).map Disco.trunc
def gammaWidthDegreesFreedom (l : LIST) : Except Err Int := (atE l.data 4).map Disco.trunc
def fissionWidthDegreesFreedom (l : LIST) : Except Err Int := (atE l.data 5).map Disco.trunc
def competitiveWidthDegreesFreedom (l : LIST) : Except Err Int := (atE l.data 2).map Disco.trunc
/-- section/2/151/UnresolvedEnergyDependent/JValue.hpp 81-136 -/
def energies (l : LIST) := col 0 l
def averageLevelSpacings (l : LIST) := col 1 l
def averageNeutronWidths (l : LIST) := col 3 l
def averageGammaWidths (l : LIST) := col 4 l
def averageFissionWidths (l : LIST) := col 5 l
def averageCompetitiveWidths (l : LIST) := col 2 l

end UnresolvedCJValue

namespace UnresolvedBJValue

/-- section/2/151/UnresolvedEnergyDependentFissionWidths/JValue/src/ctor.hpp 5-8, 23-34, generateList.hpp 1-13 -/
def make (l : Int) (spin d : Dbl) (amun amuf : Int) (gn gg : Dbl) (gf : List Dbl) : Except Err LIST :=
  verified jvalueBCheck ⟨Disco.zero, Disco.zero, l, amuf, 0, [d, spin, Disco.ofInt amun, gn, gg, Disco.zero] ++ gf⟩

/-- section/2/151/UnresolvedEnergyDependentFissionWidths/JValue.hpp 25, 65 -/
def orbitalMomentum (l : LIST) : Int := toInt32 l.l1
def fissionWidthDegreesFreedom (l : LIST) : Int := toInt32 l.l2
/-- section/2/151/UnresolvedEnergyDependentFissionWidths/JValue.hpp 35, 45, 88-113 -/
def spin (l : LIST) : Except Err Dbl := atE l.data 1
def neutronWidthDegreesFreedom (l : LIST) : Except Err Int := (atE l.data 2).map Disco.trunc
def averageLevelSpacing (l : LIST) : Except Err Dbl := atE l.data 0
def averageNeutronWidth (l : LIST) : Except Err Dbl := atE l.data 3
def averageGammaWidth (l : LIST) : Except Err Dbl := atE l.data 4
/-- section/2/151/UnresolvedEnergyDependentFissionWidths/JValue.hpp 128-131 -/
def averageFissionWidths (l : LIST) : Except Err (List Dbl) := dropE 6 l.data

end UnresolvedBJValue

namespace ParticlePairs

/-- section/2/151/RMatrixLimited/ParticlePairs/src/ctor.hpp 5-8, 35-53, generateList.hpp 1-52 -/
def make (ma mb za zb ia ib pa pb q : List Dbl) (pnt shf mt : List Int) : Except Err LIST :=
  let npp := ma.length
  if mb.length ≠ npp ∨ za.length ≠ npp ∨ zb.length ≠ npp ∨ ia.length ≠ npp ∨ ib.length ≠ npp ∨ q.length ≠ npp ∨ pnt.length ≠ npp ∨
      shf.length ≠ npp ∨ mt.length ≠ npp ∨ pa.length ≠ npp ∨ pb.length ≠ npp then .error .exc
  else verified (require particlePairsOk) ⟨Disco.zero, Disco.zero, npp, 0, 2 * npp,
    rows npp [ma, mb, za, zb, ia, ib, q, ofInts pnt, ofInts shf, ofInts mt, pa, pb]⟩

/-- section/2/151/RMatrixLimited/ParticlePairs.hpp 17-22 -/
def col (i : Nat) (l : LIST) : Except Err (List Dbl) := column i 12 l.data
/-- section/2/151/RMatrixLimited/ParticlePairs.hpp 34 (`unsigned int`) -/
def numberParticlePairs (l : LIST) : Int := toUInt32 (l.data.length / 12 : Nat)
/-- section/2/151/RMatrixLimited/ParticlePairs.hpp 44-124 -/
def massParticleA (l : LIST) := col 0 l
def massParticleB (l : LIST) := col 1 l
def chargeParticleA (l : LIST) := col 2 l
def chargeParticleB (l : LIST) := col 3 l
def spinParticleA (l : LIST) := col 4 l
def spinParticleB (l : LIST) := col 5 l
def parityParticleA (l : LIST) := col 10 l
def parityParticleB (l : LIST) := col 11 l
def qValues (l : LIST) := col 6 l
/-- section/2/151/RMatrixLimited/ParticlePairs.hpp 129-158 -/
def penetrabilityFlag (l : LIST) : Except Err (List Int) := (col 7 l).map (·.map Disco.trunc)
def shiftFactorFlag (l : LIST) : Except Err (List Int) := (col 8 l).map (·.map Disco.trunc)
def reactionNumbers (l : LIST) : Except Err (List Int) := (col 9 l).map (·.map Disco.trunc)

end ParticlePairs

namespace ResonanceChannels

/-- section/2/151/RMatrixLimited/ResonanceChannels/src/ctor.hpp 5-8, 28-49, generateList.hpp 1-35 -/
def make (spin parity : Dbl) (ppi l : List Int) (s b apt ape : List Dbl) (kbk kps : Int) : Except Err LIST :=
  let nch := l.length
  if ppi.length ≠ nch ∨ s.length ≠ nch ∨ b.length ≠ nch ∨ ape.length ≠ nch ∨ apt.length ≠ nch then .error .exc
  else verified (require channelsOk) ⟨spin, parity, kbk, kps, nch, rows nch [ofInts ppi, ofInts l, s, b, ape, apt]⟩

/-- section/2/151/RMatrixLimited/ResonanceChannels/src/ctor.hpp 65-84, generateList.hpp 37-47: one radius for both -/
def make1 (spin parity : Dbl) (ppi l : List Int) (s b ap : List Dbl) (kbk kps : Int) : Except Err LIST :=
  let apt := ap
  let nch := l.length
  if ppi.length ≠ nch ∨ s.length ≠ nch ∨ b.length ≠ nch ∨ ap.length ≠ nch ∨ apt.length ≠ nch then .error .exc
  else verified (require channelsOk) ⟨spin, parity, kbk, kps, nch, rows nch [ofInts ppi, ofInts l, s, b, ap, apt]⟩

/-- section/2/151/RMatrixLimited/ResonanceChannels.hpp 18-23 -/
def col (i : Nat) (l : LIST) : Except Err (List Dbl) := column i 6 l.data
/-- section/2/151/RMatrixLimited/ResonanceChannels.hpp 35-80 (KBK and KPS are `long`, NCH is `unsigned int`) -/
def spin (l : LIST) : Dbl := l.c1
def parity (l : LIST) : Dbl := l.c2
def numberBackgroundChannels (l : LIST) : Int := l.l1
def phaseShiftOption (l : LIST) : Int := l.l2
def numberChannels (l : LIST) : Int := toUInt32 (l.data.length / 6 : Nat)
/-- section/2/151/RMatrixLimited/ResonanceChannels.hpp 85-107 -/
def particlePairNumbers (l : LIST) : Except Err (List Int) := (strideE 6 l.data).map (·.map Disco.trunc)
def orbitalMomentumValues (l : LIST) : Except Err (List Int) := (col 1 l).map (·.map Disco.trunc)
/-- section/2/151/RMatrixLimited/ResonanceChannels.hpp 112-151 -/
def channelSpinValues (l : LIST) := col 2 l
def boundaryConditionValues (l : LIST) := col 3 l
def trueChannelRadii (l : LIST) := col 5 l
def effectiveChannelRadii (l : LIST) := col 4 l

end ResonanceChannels

namespace ResonanceParameters

/-- section/2/151/RMatrixLimited/ResonanceParameters/src/generateList.hpp 25 -/
def padding (nch : Nat) : Nat := (6 - ((1 + nch) % 6)) % 6

/-- section/2/151/RMatrixLimited/ResonanceParameters/src/ctor.hpp 5-8, 18-26, generateList.hpp 1-45 (the counts as natural numbers, not `unsigned int`) -/
def make (energies : List Dbl) (parameters : List (List Dbl)) : Except Err LIST :=
  let nrs := energies.length
  if parameters.length ≠ nrs then .error .exc
  else if nrs = 0 then .error .exc
  else
    let nch := (parameters.headD []).length
    let nx := nrs * (1 + nch + padding nch) / 6
    if ∃ p ∈ parameters, p.length ≠ nch then .error .exc
    else verified (require rmlParametersOk) ⟨Disco.zero, Disco.zero, 0, nrs, nx,
      (List.zip energies parameters).flatMap (fun r => r.1 :: r.2 ++ List.replicate (padding nch) Disco.zero)⟩

/-- section/2/151/RMatrixLimited/ResonanceParameters.hpp 25, 35 -/
def numberResonances (l : LIST) : Int := l.l2
def numberLines (l : LIST) : Int := Int.tdiv l.npl 6

/-- `this->NX() / this->NRS() * 6`: for NRS = 0 a division by zero -/
def width (l : LIST) : Except Err Int := if l.l2 = 0 then .error .ub else .ok (Int.tdiv (Int.tdiv l.npl 6) l.l2 * 6)

/-- section/2/151/RMatrixLimited/ResonanceParameters.hpp 45-48 -/
def resonanceEnergies (l : LIST) : Except Err (List Dbl) := (width l).bind (fun w => strideE w l.data)
/-- section/2/151/RMatrixLimited/ResonanceParameters.hpp 61-66 -/
def resonanceParameters (l : LIST) : Except Err (List (List Dbl)) :=
  (width l).bind (fun w => (chunkE w l.data).bind (mapE (dropE 1)))

end ResonanceParameters

/-! ### MF2 MT152 -/

namespace DilutionTables

/-- section/2/152/src/generateList.hpp 1-54: the block of an energy -/
def block (r : Dbl × List Dbl × List Dbl × List Dbl × List Dbl × List Dbl) : List Dbl :=
  r.1 :: (r.2.1 ++ (r.2.2.1 ++ (r.2.2.2.1 ++ (r.2.2.2.2.1 ++ r.2.2.2.2.2))))

/-- The arrays of a table, energy by energy. -/
def zipped (energies : List Dbl) (total elastic fission capture cwTotal : List (List Dbl)) :
    List (Dbl × List Dbl × List Dbl × List Dbl × List Dbl × List Dbl) :=
  energies.zip (total.zip (elastic.zip (fission.zip (capture.zip cwTotal))))

/-- section/2/152/src/ctor.hpp 6-12, 45-65, generateList.hpp 1-54: the LIST record -/
def make (temperature : Dbl) (dilutions energies : List Dbl) (total elastic fission capture cwTotal : List (List Dbl)) : Except Err LIST :=
  let nsigz := dilutions.length
  let nunr := energies.length
  if total.length ≠ nunr ∨ elastic.length ≠ nunr ∨ fission.length ≠ nunr ∨ capture.length ≠ nunr ∨ cwTotal.length ≠ nunr then .error .exc
  else if (∃ x ∈ total, x.length ≠ nsigz) ∨ (∃ x ∈ elastic, x.length ≠ nsigz) ∨ (∃ x ∈ fission, x.length ≠ nsigz) ∨
      (∃ x ∈ capture, x.length ≠ nsigz) ∨ (∃ x ∈ cwTotal, x.length ≠ nsigz) then .error .exc
  else verified (require dilutionSizeOk) ⟨temperature, Disco.zero, 5, nsigz, nunr,
    dilutions ++ (zipped energies total elastic fission capture cwTotal).flatMap block⟩

/-- section/2/152/src/ctor.hpp 83-99, generateList.hpp 56-91: a single dilution, 1e+10 -/
def make1 (temperature : Dbl) (energies total elastic fission capture cwTotal : List Dbl) : Except Err LIST :=
  let nunr := energies.length
  if total.length ≠ nunr ∨ elastic.length ≠ nunr ∨ fission.length ≠ nunr ∨ capture.length ≠ nunr ∨ cwTotal.length ≠ nunr then .error .exc
  else verified (require dilutionSizeOk) ⟨temperature, Disco.zero, 5, 1, nunr,
    Disco.ofInt 10000000000 :: rows nunr [energies, total, elastic, fission, capture, cwTotal]⟩

/-- section/2/152.hpp 70, 90, 100, 124 -/
def temperature (l : LIST) : Dbl := l.c1
def numberReactions (l : LIST) : Int := toInt32 l.l1
def numberDilutions (l : LIST) : Int := toInt32 l.l2
def numberEnergies (l : LIST) : Int := toInt32 l.n2
/-- section/2/152.hpp 110-114 -/
def dilutions (l : LIST) : Except Err (List Dbl) := takeE (toInt32 l.l2) l.data
/-- section/2/152.hpp 134-139 -/
def energies (l : LIST) : Except Err (List Dbl) := (dropE (toInt32 l.l2) l.data).bind (strideE (1 + toInt32 l.l2 * 5))
/-- section/2/152/src/reaction.hpp 1-16 (NREAC and NSIGZ as `unsigned int`, the product in integers) -/
def reaction (i : Nat) (l : LIST) : Except Err (List (List Dbl)) :=
  let nreac := toUInt32 l.l1
  let nsigz := toUInt32 l.l2
  (dropE nsigz l.data).bind fun d => (chunkE (1 + nsigz * nreac) d).bind fun cs =>
    mapE (fun c => (dropE 1 c).bind fun c' => (chunkE nsigz c').bind fun rs => atE rs i) cs
/-- section/2/152.hpp 152-173 -/
def total (l : LIST) := reaction 0 l
def elastic (l : LIST) := reaction 1 l
def fission (l : LIST) := reaction 2 l
def capture (l : LIST) := reaction 3 l
def currentWeightedTotal (l : LIST) := reaction 4 l

end DilutionTables

/-! ### MF6 -/

namespace ContinuumData

/-- section/6/ContinuumEnergyAngle/Base.hpp 17-58 -/
def incidentEnergy (l : LIST) : Dbl := l.c2
def numberDiscreteEnergies (l : LIST) : Int := l.l1
def numberAngularParameters (l : LIST) : Int := l.l2
def numberSecondaryEnergies (l : LIST) : Int := l.n2
/-- section/6/ContinuumEnergyAngle/Base.hpp 63-66 -/
def energies (l : LIST) : Except Err (List Dbl) := strideE (2 + l.l2) l.data
/-- section/6/ContinuumEnergyAngle/Base.hpp 76-80 -/
def totalEmissionProbabilities (l : LIST) : Except Err (List Dbl) := column 1 (2 + l.l2) l.data
/-- section/6/ContinuumEnergyAngle/Base.hpp 106-111 (`views::tail`) -/
def data (l : LIST) : Except Err (List (List Dbl)) := (chunkE (2 + l.l2) l.data).bind fun cs => .ok (cs.map List.tail)

/-- section/6/ContinuumEnergyAngle/LegendreCoefficients/src/ctor.hpp 18-29, generateList.hpp 1-33 -/
def makeLegendre (energy : Dbl) (nd : Int) (na : Nat) (energies : List Dbl) (coefficients : List (List Dbl)) : Except Err LIST :=
  if energies.length ≠ coefficients.length then .error .exc
  else if ∃ c ∈ coefficients, 1 + na ≠ c.length then .error .exc
  else verified (continuumCheck 1) ⟨Disco.zero, energy, nd, na, energies.length, (energies.zip coefficients).flatMap (fun r => r.1 :: r.2)⟩

/-- section/6/ContinuumEnergyAngle/KalbachMann/src/ctor.hpp 11-15, 26-35, generateList.hpp 1-6: E', f0 and r -/
def makeKalbach3 (energy : Dbl) (nd : Int) (data : List (Dbl × Dbl × Dbl)) : Except Err LIST :=
  verified (continuumCheck 2) ⟨Disco.zero, energy, nd, 1, data.length, data.flatMap (fun r => [r.1, r.2.1, r.2.2])⟩

/-- section/6/ContinuumEnergyAngle/KalbachMann/src/ctor.hpp 44-53: E', f0, r and a -/
def makeKalbach4 (energy : Dbl) (nd : Int) (data : List (Dbl × Dbl × Dbl × Dbl)) : Except Err LIST :=
  verified (continuumCheck 2) ⟨Disco.zero, energy, nd, 2, data.length, data.flatMap (fun r => [r.1, r.2.1, r.2.2.1, r.2.2.2])⟩

/-- section/6/ContinuumEnergyAngle/TabulatedDistribution/src/ctor.hpp 13-17, 32-50, generateList.hpp 1-47, checkLANG.hpp 1-12 -/
def makeTabulated (lang : Int) (energy : Dbl) (nd : Int) (na : Nat) (energies emissions : List Dbl) (cosines probabilities : List (List Dbl)) :
    Except Err LIST :=
  if energies.length ≠ emissions.length ∨ energies.length ≠ cosines.length ∨ energies.length ≠ probabilities.length then .error .exc
  else if ∃ r ∈ cosines.zip probabilities, isSorted Disco.ltD r.1 = false ∨ r.1.length ≠ r.2.length ∨ r.1.length ≠ na / 2 then .error .exc
  else (verified (continuumCheck 11) ⟨Disco.zero, energy, nd, na, energies.length,
    ((energies.zip emissions).zip (cosines.zip probabilities)).flatMap (fun r => r.1.1 :: r.1.2 :: rows r.2.1.length [r.2.1, r.2.2])⟩).bind
      fun l => if lang = 11 ∨ lang = 12 ∨ lang = 13 ∨ lang = 14 ∨ lang = 15 then .ok l else .error .exc

/-- section/6/ContinuumEnergyAngle/TabulatedDistribution.hpp 58-80 (`views::drop` has no precondition) -/
def cosines (l : LIST) : Except Err (List (List Dbl)) := (chunkE (2 + l.l2) l.data).bind fun cs => .ok (cs.map fun c => strideL 2 (c.drop 2))
def probabilities (l : LIST) : Except Err (List (List Dbl)) := (chunkE (2 + l.l2) l.data).bind fun cs => .ok (cs.map fun c => strideL 2 (c.drop 3))

/-- section/6/ContinuumEnergyAngle/ThermalScatteringData/src/ctor.hpp 36-38, generateList.hpp 1-7 -/
def makeThermal (energy : Dbl) (cosines : List Dbl) : LIST :=
  ⟨Disco.zero, energy, 0, 0, cosines.length + 2, energy :: Disco.ofInt 1 :: cosines⟩

/-- section/6/ContinuumEnergyAngle/ThermalScatteringData.hpp 72-101 -/
def thermalEnergies (l : LIST) : Except Err (List Dbl) := strideE l.n2 l.data
def thermalProbabilities (l : LIST) : Except Err (List Dbl) := column 1 l.n2 l.data
def thermalCosines (l : LIST) : Except Err (List (List Dbl)) := (chunkE l.n2 l.data).bind (mapE (dropE 2))

end ContinuumData

namespace TwoBodyData

/-- section/6/DiscreteTwoBodyScattering/LegendreCoefficients/src/ctor.hpp 12-17, 25-29 -/
def makeLegendre (energy : Dbl) (coefficients : List Dbl) : Except Err LIST :=
  verified (require twoBodyOk) ⟨Disco.zero, energy, 0, 0, coefficients.length, coefficients⟩

/-- section/6/DiscreteTwoBodyScattering/TabulatedDistribution/src/ctor.hpp 12-17, 27-39, generateList.hpp 1-21, verifyLANG.hpp, verifySize.hpp -/
def makeTabulated (energy : Dbl) (lang : Int) (cosines probabilities : List Dbl) : Except Err LIST :=
  if cosines.length ≠ probabilities.length then .error .exc
  else verified (require fun l => (toInt32 l.l1 = 12 ∨ toInt32 l.l1 = 14) ∧ toInt32 l.npl = 2 * toInt32 l.n2)
    ⟨Disco.zero, energy, lang, 0, cosines.length, rows cosines.length [cosines, probabilities]⟩

/-- section/6/DiscreteTwoBodyScattering/TabulatedDistribution.hpp 63-91, LegendreCoefficients.hpp 65 -/
def incidentEnergy (l : LIST) : Dbl := l.c2
def coefficients (l : LIST) : List Dbl := l.data
def cosines (l : LIST) : Except Err (List Dbl) := strideE 2 l.data
def probabilities (l : LIST) : Except Err (List Dbl) := column 1 2 l.data

end TwoBodyData

namespace ChargedData

/-- section/6/ChargedParticleElasticScattering/NuclearAmplitudeExpansion/src/ctor.hpp 12-17, 47-61, generateList.hpp 1-37 -/
def makeAmplitude (energy : Dbl) (nl : Nat) (b ar ai : List Dbl) : Except Err LIST :=
  if ar.length ≠ nl + 1 then .error .exc
  else if ai.length ≠ nl + 1 then .error .exc
  else if ¬(b.length = nl + 1 ∨ b.length = 2 * nl + 1) then .error .exc
  else verified (require chargedOk) ⟨Disco.zero, energy, 1, 0, nl, b ++ rows (nl + 1) [ar, ai]⟩

/-- section/6/ChargedParticleElasticScattering/NuclearPlusInterference/src/ctor.hpp 12-17, 46-58, generateList.hpp 1-21, verifyLTP.hpp 1-12,
    verifySize.hpp 1-12 -/
def makeInterference (energy : Dbl) (ltp : Int) (cosines probabilities : List Dbl) : Except Err LIST :=
  if cosines.length ≠ probabilities.length then .error .exc
  else verified (require fun l => (toInt32 l.l1 = 12 ∨ toInt32 l.l1 = 14 ∨ toInt32 l.l1 = 15) ∧ toInt32 l.npl = 2 * toInt32 l.n2)
    ⟨Disco.zero, energy, ltp, 0, cosines.length, rows cosines.length [cosines, probabilities]⟩

/-- section/6/ChargedParticleElasticScattering/NuclearAmplitudeExpansion.hpp 24, 55-59 (`views::take` takes what there is; a negative count violates its
    precondition), 70-90 -/
def incidentEnergy (l : LIST) : Dbl := l.c2
def scatteringCoefficients (l : LIST) : Except Err (List Dbl) :=
  if l.npl - 2 * l.n2 - 2 < 0 then .error .ub else .ok (l.data.take (l.npl - 2 * l.n2 - 2).toNat)
def realInterferenceCoefficients (l : LIST) : Except Err (List Dbl) := column (l.npl - 2 * l.n2 - 2) 2 l.data
def imaginaryInterferenceCoefficients (l : LIST) : Except Err (List Dbl) := column (l.npl - 2 * l.n2 - 1) 2 l.data
/-- section/6/ChargedParticleElasticScattering/NuclearPlusInterference.hpp 55-83 -/
def cosines (l : LIST) : Except Err (List Dbl) := strideE 2 l.data
def probabilities (l : LIST) : Except Err (List Dbl) := column 1 2 l.data

end ChargedData

/-! ### MF7 -/

namespace ScatteringLawConstants

/-- section/7/4/ScatteringLawConstants/src/ctor.hpp 8-13, 87-104, generateList.hpp 1-55 -/
def make (lln : Int) (ns : Nat) (epsilon emax : Dbl) (xs awr : List Dbl) (natoms types : List Int) : Except Err LIST :=
  if xs.length ≠ ns + 1 then .error .exc
  else if awr.length ≠ ns + 1 then .error .exc
  else if natoms.length ≠ ns + 1 then .error .exc
  else if types.length ≠ ns then .error .exc
  else verified constantsCheck ⟨Disco.zero, Disco.zero, lln, 0, ns,
    [xs.getD 0 Disco.zero, epsilon, awr.getD 0 Disco.zero, emax, Disco.zero, (ofInts natoms).getD 0 Disco.zero] ++
      rows ns [ofInts types, xs.drop 1, awr.drop 1, List.replicate ns Disco.zero, List.replicate ns Disco.zero, (ofInts natoms).drop 1]⟩

/-- section/7/4/ScatteringLawConstants.hpp 30, 50 -/
def sabStorageType (l : LIST) : Int := toInt32 l.l1
def numberNonPrincipalScatterers (l : LIST) : Int := l.n2
/-- section/7/4/ScatteringLawConstants.hpp 60, 66 -/
def epsilon (l : LIST) : Except Err Dbl := atE l.data 1
def upperEnergyLimit (l : LIST) : Except Err Dbl := atE l.data 3
/-- section/7/4/ScatteringLawConstants.hpp 80-101 -/
def indices (ns : Int) : Except Err (List Nat) :=
  if 1 + ns = 1 then .ok [0]
  else if 1 + ns = 2 then .ok [0, 7]
  else if 1 + ns = 3 then .ok [0, 7, 13]
  else if 1 + ns = 4 then .ok [0, 7, 13, 19]
  else .error .ub
/-- section/7/4/ScatteringLawConstants.hpp 78-112 -/
def totalFreeCrossSections (l : LIST) : Except Err (List Dbl) := (indices l.n2).bind (mapE (atE l.data))
/-- section/7/4/ScatteringLawConstants.hpp 118-161 -/
def atomicWeightRatios (l : LIST) : Except Err (List Dbl) := column 2 6 l.data
def numberAtoms (l : LIST) : Except Err (List Dbl) := column 5 6 l.data
def analyticalFunctionTypes (l : LIST) : Except Err (List Dbl) := column 6 6 l.data

end ScatteringLawConstants

namespace ElementInformation

/-- section/7/451/ElementInformation/src/ctor.hpp 6-10, 24-43, generateList.hpp 1-34 -/
def make (atoms : Int) (identifiers states : List Int) (abundances weights xs : List Dbl) : Except Err LIST :=
  let ni := identifiers.length
  if states.length ≠ ni ∨ abundances.length ≠ ni ∨ weights.length ≠ ni ∨ xs.length ≠ ni then .error .exc
  else verified (require elementOk) ⟨Disco.zero, Disco.zero, atoms, 0, ni,
    rows ni [ofInts identifiers, ofInts states, abundances, weights, xs, List.replicate ni Disco.zero]⟩

/-- section/7/451/ElementInformation.hpp 13-17 -/
def col (i : Nat) (l : LIST) : Except Err (List Dbl) := column i 6 l.data
/-- section/7/451/ElementInformation.hpp 31, 41 -/
def numberAtoms (l : LIST) : Int := toInt32 l.l1
def numberIsotopes (l : LIST) : Int := toInt32 l.n2
/-- section/7/451/ElementInformation.hpp 51-96 -/
def isotopeIdentifiers (l : LIST) := col 0 l
def isomericStates (l : LIST) := col 1 l
def abundances (l : LIST) := col 2 l
def atomicWeightRatios (l : LIST) := col 3 l
def freeScatteringCrossSections (l : LIST) := col 4 l

end ElementInformation

/-! ### MF8 -/

namespace FissionYieldData

/-- section/8/FissionYieldData/src/ctor.hpp 6-10, 25-39, generateList.hpp 1-27 -/
def make (identifiers states : List Int) (yields : List (Dbl × Dbl)) (energy : Dbl) (interpolation : Int) : Except Err LIST :=
  let nfp := identifiers.length
  if states.length ≠ nfp ∨ yields.length ≠ nfp then .error .exc
  else verified (require yieldsOk) ⟨energy, Disco.zero, interpolation, 0, nfp,
    rows nfp [ofInts identifiers, ofInts states, yields.map (·.1), yields.map (·.2)]⟩

/-- section/8/FissionYieldData.hpp 34-38 -/
def col (i : Nat) (l : LIST) : Except Err (List Dbl) := column i 4 l.data
/-- section/8/FissionYieldData.hpp 52, 73, 83 -/
def interpolationType (l : LIST) : Int := toInt32 l.l1
def incidentEnergy (l : LIST) : Dbl := l.c1
def numberFissionProducts (l : LIST) : Int := toInt32 l.n2
/-- section/8/FissionYieldData.hpp 93-123 -/
def fissionProductIdentifiers (l : LIST) := col 0 l
def isomericStates (l : LIST) := col 1 l
def fissionYields (l : LIST) : Except Err (List (List Dbl)) :=
  (dropE 2 l.data).bind fun d => (chunkE 2 d).bind (strideE 2)

end FissionYieldData

namespace AverageDecayEnergies

/-- section/8/457/AverageDecayEnergies/src/ctor.hpp 7-11, 24-33, generateList.hpp 1-6 -/
def make (halflife : Dbl × Dbl) (energies : List (Dbl × Dbl)) : Except Err LIST :=
  verified (require decayEnergiesOk) ⟨halflife.1, halflife.2, 0, 0, 0, energies.flatMap (fun p => [p.1, p.2])⟩

/-- section/8/457/AverageDecayEnergies.hpp 31-34, 44 -/
def halfLife (l : LIST) : Dbl × Dbl := (l.c1, l.c2)
def numberDecayEnergies (l : LIST) : Int := toInt32 ((l.npl : Int) / 2)
/-- section/8/457/AverageDecayEnergies.hpp 56-114 -/
def decayEnergies (l : LIST) : Except Err (List (List Dbl)) := chunkE 2 l.data
def lightParticle (l : LIST) : Except Err (List Dbl) := (decayEnergies l).bind (atE · 0)
def electromagnetic (l : LIST) : Except Err (List Dbl) := (decayEnergies l).bind (atE · 1)
def heavyParticle (l : LIST) : Except Err (List Dbl) := (decayEnergies l).bind (atE · 2)

end AverageDecayEnergies

namespace DecayModes

/-- section/8/457/DecayMode.hpp 14-17, 31-66, DecayMode/src/ctor.hpp 11-15: RTYP, RFS, Q and dQ, BR and dBR -/
structure Mode where
  decayChain : Dbl
  finalIsomericState : Dbl
  qValue : Dbl × Dbl
  branchingRatio : Dbl × Dbl

/-- section/8/457/DecayModes/src/ctor.hpp 9-13, 32-36, generateList.hpp 1-14 -/
def make (spin parity : Dbl) (modes : List Mode) : Except Err LIST :=
  verified (require decayModesOk) ⟨spin, parity, 0, 0, modes.length,
    modes.flatMap (fun m => [m.decayChain, m.finalIsomericState, m.qValue.1, m.qValue.2, m.branchingRatio.1, m.branchingRatio.2])⟩

/-- section/8/457/DecayModes/src/ctor.hpp 47-49 -/
def makeStable (spin parity : Dbl) : Except Err LIST :=
  verified (require decayModesOk) ⟨spin, parity, 0, 0, 0, List.replicate 6 Disco.zero⟩

/-- section/8/457/DecayModes.hpp 28, 38, 48 -/
def spin (l : LIST) : Dbl := l.c1
def parity (l : LIST) : Dbl := l.c2
def numberDecayModes (l : LIST) : Int := toInt32 l.n2
/-- section/8/457/DecayModes.hpp 58-66: one mode per chunk of six values -/
def decayModes (l : LIST) : Except Err (List Mode) :=
  (chunkE 6 l.data).bind (mapE fun c => match c with
    | [a, b, q, dq, br, dbr] => .ok ⟨a, b, (q, dq), (br, dbr)⟩
    | _ => .error .ub)

end DecayModes

namespace DiscreteSpectrum

/-- section/8/457/DiscreteSpectrum/src/ctor.hpp 10-14, 25-32, generateList.hpp 1-6 -/
def make4 (chain : Dbl) (energy intensity : Dbl × Dbl) (type : Dbl) : Except Err LIST :=
  verified (require discreteOk) ⟨energy.1, energy.2, 0, 0, 0, [chain, type, intensity.1, intensity.2]⟩

/-- section/8/457/DiscreteSpectrum/src/ctor.hpp 44-54, generateList.hpp 8-14 -/
def make6 (chain : Dbl) (energy intensity : Dbl × Dbl) (type : Dbl) (ris : Dbl × Dbl) : Except Err LIST :=
  verified (require discreteOk) ⟨energy.1, energy.2, 0, 0, 0, [chain, type, intensity.1, intensity.2, ris.1, ris.2]⟩

/-- section/8/457/DiscreteSpectrum/src/ctor.hpp 69-82, generateList.hpp 16-26 -/
def make12 (chain : Dbl) (energy intensity : Dbl × Dbl) (type : Dbl) (ris ricc rick ricl : Dbl × Dbl) : Except Err LIST :=
  verified (require discreteOk) ⟨energy.1, energy.2, 0, 0, 0,
    [chain, type, intensity.1, intensity.2, ris.1, ris.2, ricc.1, ricc.2, rick.1, rick.2, ricl.1, ricl.2]⟩

/-- section/8/457/DiscreteSpectrum/src/returnArray.hpp 1-9 -/
def returnArray (i : Nat) (l : LIST) : Except Err (Dbl × Dbl) :=
  if (i : Int) < toInt32 l.npl then (atE l.data i).bind fun a => (atE l.data (i + 1)).bind fun b => .ok (a, b)
  else .ok (Disco.zero, Disco.zero)

/-- section/8/457/DiscreteSpectrum.hpp 37-126 -/
def decayChain (l : LIST) : Except Err Dbl := atE l.data 0
def discreteEnergy (l : LIST) : Dbl × Dbl := (l.c1, l.c2)
def relativeIntensity (l : LIST) := returnArray 2 l
def type (l : LIST) : Except Err Dbl := atE l.data 1
def internalPairFormationCoefficient (l : LIST) := returnArray 4 l
def totalInternalConversionCoefficient (l : LIST) := returnArray 6 l
def internalConversionCoefficientKShell (l : LIST) := returnArray 8 l
def internalConversionCoefficientLShell (l : LIST) := returnArray 10 l

end DiscreteSpectrum

/-! ### MF12, MF28 -/

namespace TransitionProbabilities

/-- section/12/TransitionProbabilities/src/ctor.hpp 6-10, 30-41, generateList.hpp 1-22 -/
def make2 (energy : Dbl) (energies probabilities : List Dbl) : Except Err LIST :=
  if energies.length ≠ probabilities.length then .error .exc
  else verified transitionCheck ⟨energy, Disco.zero, 0, 0, energies.length, rows energies.length [energies, probabilities]⟩

/-- section/12/TransitionProbabilities/src/ctor.hpp 52-65, generateList.hpp 24-49 -/
def make3 (energy : Dbl) (energies probabilities conditionals : List Dbl) : Except Err LIST :=
  if energies.length ≠ probabilities.length ∨ energies.length ≠ conditionals.length then .error .exc
  else verified transitionCheck ⟨energy, Disco.zero, 0, 0, energies.length, rows energies.length [energies, probabilities, conditionals]⟩

/-- section/12/TransitionProbabilities.hpp 44, 54 -/
def highestEnergyLevel (l : LIST) : Dbl := l.c1
def numberTransitions (l : LIST) : Int := l.n2
/-- section/12/TransitionProbabilities.hpp 64 -/
def transitionType (l : LIST) : Except Err Int := if l.n2 = 0 then .error .ub else .ok (transitionLG l)
/-- section/12/TransitionProbabilities.hpp 76-83 -/
def transitions (l : LIST) : Except Err (List (List Dbl)) := (transitionType l).bind fun lg => chunkE (lg + 1) l.data
/-- section/12/TransitionProbabilities.hpp 88-128, TransitionProbabilities/Transition.hpp 25-45 -/
def energies (l : LIST) : Except Err (List Dbl) := (transitions l).bind (mapE (atE · 0))
def transitionProbabilities (l : LIST) : Except Err (List Dbl) := (transitions l).bind (mapE (atE · 1))
def conditionalProbabilities (l : LIST) : Except Err (List Dbl) :=
  (transitions l).bind (mapE fun c => if c.length = 3 then atE c 2 else .ok (Disco.ofInt 1))

end TransitionProbabilities

namespace SubshellData

/-- section/28/SubshellData/src/ctor.hpp 6-10, 25-41, generateList.hpp 1-34 -/
def make (subshell : Int) (energy : Dbl) (eln : Int) (secondary tertiary : List Int) (energies probabilities : List Dbl) : Except Err LIST :=
  let ntr := secondary.length
  if tertiary.length ≠ ntr ∨ energies.length ≠ ntr ∨ probabilities.length ≠ ntr then .error .exc
  else verified (require subshellOk) ⟨Disco.ofInt subshell, Disco.zero, 0, 0, ntr,
    [energy, Disco.ofInt eln, Disco.zero, Disco.zero, Disco.zero, Disco.zero] ++
      rows ntr [ofInts secondary, ofInts tertiary, energies, probabilities, List.replicate ntr Disco.zero, List.replicate ntr Disco.zero]⟩

/-- section/28/SubshellData.hpp 13-17 -/
def col (i : Nat) (l : LIST) : Except Err (List Dbl) := column (6 + i) 6 l.data
/-- section/28/SubshellData.hpp 31, 41 (`unsigned int`) -/
def subshellDesignator (l : LIST) : Int := Disco.trunc l.c1
def numberTransitions (l : LIST) : Int := toUInt32 l.n2
/-- section/28/SubshellData.hpp 51, 61 -/
def subshellBindingEnergy (l : LIST) : Except Err Dbl := atE l.data 0
def numberSubshellElectrons (l : LIST) : Except Err Int := (atE l.data 1).map Disco.trunc
/-- section/28/SubshellData.hpp 71-106 -/
def secondarySubshellDesignators (l : LIST) := col 0 l
def tertiarySubshellDesignators (l : LIST) := col 1 l
def transitionEnergies (l : LIST) := col 2 l
def transitionProbabilities (l : LIST) := col 3 l

end SubshellData

/-! ### covariances -/

namespace CovariancePairs

/-- section/CovariancePairs/src/ctor.hpp 14-19, 28-41, generateList.hpp 1-22 -/
def make2 (lb : Int) (energies fvalues : List Dbl) : Except Err LIST :=
  if energies.length ≠ fvalues.length then .error .exc
  else verified covariancePairsCheck ⟨Disco.zero, Disco.zero, 0, lb, energies.length, rows energies.length [energies, fvalues]⟩

/-- section/CovariancePairs/src/ctor.hpp 52-69, generateList.hpp 24-62 -/
def make4 (lb : Int) (ek fk el fl : List Dbl) : Except Err LIST :=
  if ek.length ≠ fk.length then .error .exc
  else if el.length ≠ fl.length then .error .exc
  else verified covariancePairsCheck ⟨Disco.zero, Disco.zero, el.length, lb, (ek.length + el.length : Nat),
    rows ek.length [ek, fk] ++ rows el.length [el, fl]⟩

/-- section/CovariancePairs.hpp 39, 49, 69 -/
def numberSecondPairs (l : LIST) : Int := toInt32 l.l1
def procedure (l : LIST) : Int := toInt32 l.l2
def numberPairs (l : LIST) : Int := Int.tdiv l.npl 2
/-- section/CovariancePairs.hpp 79-126 -/
def firstArrayEnergies (l : LIST) : Except Err (List Dbl) := (takeE (2 * (numberPairs l - numberSecondPairs l)) l.data).bind (strideE 2)
def firstArrayFValues (l : LIST) : Except Err (List Dbl) := (takeE (2 * (numberPairs l - numberSecondPairs l)) l.data).bind (column 1 2)
def secondArrayEnergies (l : LIST) : Except Err (List Dbl) := column (2 * (numberPairs l - numberSecondPairs l)) 2 l.data
def secondArrayFValues (l : LIST) : Except Err (List Dbl) := column (2 * (numberPairs l - numberSecondPairs l) + 1) 2 l.data

end CovariancePairs

namespace SquareMatrix

/-- section/SquareMatrix/src/ctor.hpp 14-19, 28-41, generateList.hpp 1-8 -/
def make (ls : Int) (energies values : List Dbl) : Except Err LIST :=
  verified squareMatrixCheck ⟨Disco.zero, Disco.zero, ls, 5, energies.length, energies ++ values⟩

/-- section/35/SquareMatrix/src/ctor.hpp 14-19, 29-42 -/
def make35 (e1 e2 : Dbl) (energies values : List Dbl) : Except Err LIST :=
  verified squareMatrix35Check ⟨e1, e2, 1, 7, energies.length, energies ++ values⟩

/-- section/SquareMatrix.hpp 40, 55, 75; section/35/SquareMatrix.hpp 45, 65 -/
def symmetryFlag (l : LIST) : Int := toInt32 l.l1
def procedure (l : LIST) : Int := toInt32 l.l2
def numberEnergies (l : LIST) : Int := l.n2
/-- section/35/SquareMatrix.hpp 25, 35: converted to `int` -/
def lowestEnergy (l : LIST) : Int := Disco.trunc l.c1
def highestEnergy (l : LIST) : Int := Disco.trunc l.c2
/-- section/SquareMatrix.hpp 85-98, section/35/SquareMatrix.hpp 75-88 -/
def energies (l : LIST) : Except Err (List Dbl) := takeE l.n2 l.data
def values (l : LIST) : Except Err (List Dbl) := dropE l.n2 l.data

end SquareMatrix

namespace RectangularMatrix

/-- section/RectangularMatrix/src/ctor.hpp 14-19, 29-43, generateList.hpp 1-22 -/
def make (rowEnergies columnEnergies values : List Dbl) : Except Err LIST :=
  if (asInt rowEnergies.length - 1) * (asInt columnEnergies.length - 1) ≠ asInt values.length then .error .exc
  else verified rectangularMatrixCheck ⟨Disco.zero, Disco.zero, 0, 6, rowEnergies.length, rowEnergies ++ (columnEnergies ++ values)⟩

/-- section/RectangularMatrix.hpp 60, 70 -/
def numberRowEnergies (l : LIST) : Int := l.n2
def numberColumnEnergies (l : LIST) : Int := Int.tdiv (l.npl - 1) l.n2
/-- section/RectangularMatrix.hpp 80-83 -/
def rowEnergies (l : LIST) : Except Err (List Dbl) := takeE l.n2 l.data
/-- section/RectangularMatrix.hpp 88-91: everything after the row energies -/
def columnEnergies (l : LIST) : Except Err (List Dbl) := dropE l.n2 l.data
/-- section/RectangularMatrix.hpp 96-100 -/
def values (l : LIST) : Except Err (List Dbl) := if l.n2 = 0 then .error .ub else dropE (l.n2 + numberColumnEnergies l) l.data

end RectangularMatrix

namespace DerivedRedundant

/-- section/DerivedRedundant/src/ctor.hpp 33-46, generateList.hpp 1-22 -/
def make (e1 e2 : Dbl) (coefficients : List Dbl) (reactions : List Int) : Except Err Derived :=
  if coefficients.length ≠ reactions.length then .error .exc
  else .ok (.redundant ⟨e1, e2, 0, 0, coefficients.length, rows coefficients.length [coefficients, ofInts reactions]⟩)

/-- section/DerivedRedundant.hpp 52-72 -/
def lowerEnergy (d : Derived) : Dbl := d.list.c1
def upperEnergy (d : Derived) : Dbl := d.list.c2
def numberReactions (d : Derived) : Int := toInt32 d.list.n2
/-- section/DerivedRedundant.hpp 82-101 -/
def coefficients (d : Derived) : Except Err (List Dbl) := strideE 2 d.list.data
def reactions (d : Derived) : Except Err (List Dbl) := column 1 2 d.list.data

end DerivedRedundant

namespace DerivedRatio

/-- section/DerivedRatioToStandard/src/ctor.hpp 38-54, generateList.hpp 1-23 (LTY is not verified here) -/
def make (lty : Int) (e1 e2 : Dbl) (mats mts xmfs xlfss : Int) (energies weights : List Dbl) : Except Err Derived :=
  if energies.length ≠ weights.length then .error .exc
  else .ok (.ratio lty ⟨e1, e2, mats, mts, energies.length, [Disco.ofInt xmfs, Disco.ofInt xlfss] ++ rows energies.length [energies, weights]⟩)

/-- section/DerivedRatioToStandard.hpp 43-98 -/
def procedure (d : Derived) : Int := d.lty
def lowerEnergy (d : Derived) : Dbl := d.list.c1
def upperEnergy (d : Derived) : Dbl := d.list.c2
def standardMaterialNumber (d : Derived) : Int := toInt32 d.list.l1
def standardSectionNumber (d : Derived) : Int := toInt32 d.list.l2
def numberEnergies (d : Derived) : Int := toInt32 d.list.n2
/-- section/DerivedRatioToStandard.hpp 103-118 -/
def standardFileNumber (d : Derived) : Except Err Int := (atE d.list.data 0).map Disco.trunc
def standardFinalExcitedState (d : Derived) : Except Err Int := (atE d.list.data 1).map Disco.trunc
/-- section/DerivedRatioToStandard.hpp 123-146 -/
def energies (d : Derived) : Except Err (List Dbl) := column 2 2 d.list.data
def weights (d : Derived) : Except Err (List Dbl) := column 3 2 d.list.data

end DerivedRatio

end ENDFtk

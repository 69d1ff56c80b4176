import Verif.Section.Build2
import Verif.Section.MF7
import Verif.Section.MF8
import Verif.Section.MF12
/-
  The public constructors from data, part 3: files 7, 8, 9, 10, 12, 13, 14, 15 and 28.

  (The sizes of arrays are compared as `unsigned int` in some of these constructors; here arrays are taken to have less than 2^32 elements.)
-/
set_option linter.unusedVariables false
set_option linter.unusedSectionVars false
set_option linter.unusedSimpArgs false
namespace ENDFtk
variable [Disco]
namespace Make

/-! ### MF7 MT2 -/

/-- The loops of section/7/2/CoherentElastic/src/generateTemperatures.hpp 19-26 and section/7/4/TabulatedFunctions/ScatteringFunction/src/generateTemperatures.hpp 22-28,
    for the temperatures and functions after the first one -/
def temperatureRecords (c2 : Dbl) : List Dbl → List Int → List (List Dbl) → List LIST
  | t :: ts, l :: ls, s :: ss => ⟨t, c2, l, 0, 0, s⟩ :: temperatureRecords c2 ts ls ss
  | _, _, _ => []

/-- section/7/2/CoherentElastic/src/ctor.hpp 16-22, 38-52, generateTemperatures.hpp 1-27, verifyTemperatures.hpp 1-18.  `temperatures[0]` and `s[0]` do not exist
    for empty arrays.  The size of `li` is not verified: `li[i-1]` does not exist if it is too short (the order in which the two arguments are evaluated is
    unspecified: undefined behaviour is possible even if the TAB1 record cannot be made). -/
def coherentElastic (bounds ints : List Int) (temperatures : List Dbl) (li : List Int) (energies : List Dbl) (s : List (List Dbl)) : Except Err TabLists :=
  match temperatures, s with
  | t0 :: ts, s0 :: ss =>
    if ts.length ≠ ss.length then .error .exc
    else if li.length < ts.length then .error .ub
    else (TAB1.make t0 Disco.zero ts.length 0 bounds ints energies s0).bind fun p =>
      if coherentOk (p, temperatureRecords Disco.zero ts li ss) then .ok (p, temperatureRecords Disco.zero ts li ss) else .error .exc
  | _, _ => .error .ub

/-- section/7/2/CoherentElastic/src/ctor.hpp 16-22, 71-80 -/
def coherentElastic1 (temperature : Dbl) (bounds ints : List Int) (energies s : List Dbl) : Except Err TabLists :=
  (TAB1.make temperature Disco.zero 0 0 bounds ints energies s).bind fun p => .ok (p, [])

/-- section/7/2/CoherentElastic.hpp 56: `NT()`; section/7/4/TabulatedFunctions/ScatteringFunction.hpp 58 -/
def numberTemperatures (b : TabLists) : Int := toInt32 ((b.2.length : Int) + 1)
/-- section/7/2/CoherentElastic.hpp 116-123: `T()`; section/7/4/TabulatedFunctions/ScatteringFunction.hpp 120-127 -/
def temperatures (b : TabLists) : List Dbl := b.1.base.c1 :: b.2.map (·.c1)
/-- section/7/2/CoherentElastic.hpp 145-150: `LI()`; section/7/4/TabulatedFunctions/ScatteringFunction.hpp 149-154 -/
def temperatureInterpolants (b : TabLists) : List Int := b.2.map (·.l1)
/-- section/7/2/CoherentElastic.hpp 162-169: `S()`; section/7/4/TabulatedFunctions/ScatteringFunction.hpp 166-173 -/
def scatteringValues (b : TabLists) : List (List Dbl) := b.1.y :: b.2.map (·.data)

/-- section/7/2/IncoherentElastic/src/ctor.hpp 20-29 -/
def incoherentElastic (sb : Dbl) (bounds ints : List Int) (temperatures debyeWaller : List Dbl) : Except Err TAB1 :=
  TAB1.make sb Disco.zero 0 0 bounds ints temperatures debyeWaller

/-- Coherent elastic data made by one of these constructors. -/
inductive CoherentBuilt : TabLists → Prop
  | all {bounds ints : List Int} {temperatures : List Dbl} {li : List Int} {energies : List Dbl} {s : List (List Dbl)} {b : TabLists}
      (h : coherentElastic bounds ints temperatures li energies s = .ok b) : CoherentBuilt b
  | single {temperature : Dbl} {bounds ints : List Int} {energies s : List Dbl} {b : TabLists}
      (h : coherentElastic1 temperature bounds ints energies s = .ok b) : CoherentBuilt b

/-- Incoherent elastic data made by the constructor. -/
def IncoherentBuilt (r : TAB1) : Prop := ∃ sb bounds ints temperatures debyeWaller, incoherentElastic sb bounds ints temperatures debyeWaller = .ok r

/-- Elastic data made by one of these constructors (section/7/2/MixedElastic/src/ctor.hpp 15-17). -/
inductive ElasticBuilt : Elastic → Prop
  | coherent {b : TabLists} (h : CoherentBuilt b) : ElasticBuilt (.coherent b)
  | incoherent {r : TAB1} (h : IncoherentBuilt r) : ElasticBuilt (.incoherent r)
  | mixed {b : TabLists} {r : TAB1} (h1 : CoherentBuilt b) (h2 : IncoherentBuilt r) : ElasticBuilt (.mixed b r)

/-- The integers of the records fit, the number of temperatures is a number of type `int`. -/
def TabListsInts (b : TabLists) : Prop := b.1.Ints ∧ SeqInts LIST.Ints b.2

/-- The integers of the records fit. -/
def ElasticInts : Elastic → Prop
  | .coherent b => TabListsInts b
  | .incoherent r => r.Ints
  | .mixed b r => TabListsInts b ∧ r.Ints

/-- section/7/2/src/ctor.hpp 16-17 -/
def mf7mt2 (za : Int) (awr : Dbl) (law : Elastic) : Except Err (Sect Elastic) := ENDFtk.mf7mt2.build 2 za awr (.ok law)

/-! ### MF7 MT4 -/

/-- section/7/4/ScatteringLawConstants/src/ctor.hpp 8-13, verifySize.hpp 1-20, checkLLN.hpp 1-11 -/
def constantsVerify (l : LIST) : Except Err Unit :=
  if 3 < toInt32 l.n2 then .error .exc
  else if Over (6 * (toInt32 l.n2 + 1)) then .error .ub
  else if toInt32 l.npl ≠ 6 * (toInt32 l.n2 + 1) then .error .exc
  else if toInt32 l.l1 ≠ 0 ∧ toInt32 l.l1 ≠ 1 then .error .exc
  else .ok ()

/-- section/7/4/ScatteringLawConstants/src/ctor.hpp 8-13, 35-38 -/
def constantsList (lln ns : Int) (list : List Dbl) : Except Err LIST := verified constantsVerify ⟨Disco.zero, Disco.zero, lln, 0, ns, list⟩

/-- section/7/4/ScatteringLawConstants/src/ctor.hpp 8-13, 59-65 -/
def constantsPrincipal (lln : Int) (epsilon emax xs awr : Dbl) (natoms : Int) : Except Err LIST :=
  verified constantsVerify ⟨Disco.zero, Disco.zero, lln, 0, 0, [xs, epsilon, awr, emax, Disco.zero, Disco.ofInt natoms]⟩

/-- Constants made by one of the constructors (section/7/4/ScatteringLawConstants/src/ctor.hpp 35-38, 59-65, 87-98). -/
inductive ConstantsBuilt : LIST → Prop
  | list {lln ns : Int} {list : List Dbl} {l : LIST} (h : constantsList lln ns list = .ok l) : ConstantsBuilt l
  | principal {lln : Int} {epsilon emax xs awr : Dbl} {natoms : Int} {l : LIST} (h : constantsPrincipal lln epsilon emax xs awr natoms = .ok l) : ConstantsBuilt l
  | arrays {lln : Int} {ns : Nat} {epsilon emax : Dbl} {xs awr : List Dbl} {natoms types : List Int} {l : LIST}
      (h : ScatteringLawConstants.make lln ns epsilon emax xs awr natoms types = .ok l) : ConstantsBuilt l

/-- section/7/4/TabulatedFunctions/ScatteringFunction/src/ctor.hpp 8-19, 36-53, generateTemperatures.hpp 1-29, verifyBetaValues.hpp 1-17 -/
def scatteringFunction (beta : Dbl) (bounds ints : List Int) (temperatures : List Dbl) (li : List Int) (alphas : List Dbl) (sab : List (List Dbl)) : Except Err TabLists :=
  match temperatures, sab with
  | t0 :: ts, s0 :: ss =>
    if ts.length ≠ li.length ∨ ts.length ≠ ss.length then .error .exc
    else (TAB1.make t0 beta ts.length 0 bounds ints alphas s0).bind fun p =>
      if betasOk (p, temperatureRecords beta ts li ss) then .ok (p, temperatureRecords beta ts li ss) else .error .exc
  | _, _ => .error .ub

/-- section/7/4/TabulatedFunctions/ScatteringFunction/src/ctor.hpp 8-19, 73-82 -/
def scatteringFunction1 (temperature beta : Dbl) (bounds ints : List Int) (alphas sab : List Dbl) : Except Err TabLists :=
  (TAB1.make temperature beta 0 0 bounds ints alphas sab).bind fun p => .ok (p, [])

/-- A scattering function made by one of these constructors. -/
inductive FunctionBuilt : TabLists → Prop
  | all {beta : Dbl} {bounds ints : List Int} {temperatures : List Dbl} {li : List Int} {alphas : List Dbl} {sab : List (List Dbl)} {b : TabLists}
      (h : scatteringFunction beta bounds ints temperatures li alphas sab = .ok b) : FunctionBuilt b
  | single {temperature beta : Dbl} {bounds ints : List Int} {alphas sab : List Dbl} {b : TabLists}
      (h : scatteringFunction1 temperature beta bounds ints alphas sab = .ok b) : FunctionBuilt b

/-- section/7/4/TabulatedFunctions/src/ctor.hpp 5-11, 22-29 -/
def tabulatedFunctions (bounds ints : List Int) (functions : List TabLists) : Except Err (ISeq TabLists) :=
  (TAB2.make Disco.zero Disco.zero 0 0 bounds ints).bind fun tab2 => ISeq.make tab2 functions

/-- A scattering law made by these constructors; `none` stands for AnalyticalFunctions (section/7/4/AnalyticalFunctions.hpp 15-29). -/
inductive LawBuilt7 : Option (ISeq TabLists) → Prop
  | analytical : LawBuilt7 none
  | tabulated {bounds ints : List Int} {functions : List TabLists} {b : ISeq TabLists} (hf : ∀ x ∈ functions, FunctionBuilt x)
      (h : tabulatedFunctions bounds ints functions = .ok b) : LawBuilt7 (some b)

/-- section/7/4/src/verifySecondaryTemperatures.hpp 1-44 -/
def secondaryOk (types : List Dbl) (secondary : List (Option TAB1)) : Prop :=
  types.length = secondary.length ∧ ∀ p ∈ types.zip secondary, Disco.eqD p.1 Disco.zero = p.2.isSome

instance (types : List Dbl) (secondary : List (Option TAB1)) : Decidable (secondaryOk types secondary) := by unfold secondaryOk; exact inferInstance

/-- section/7/4/src/ctor.hpp 24-38, verifySecondaryTemperatures.hpp 1-44, checkValue.hpp 1-11.  `analyticalFunctionTypes()` (ScatteringLawConstants.hpp 156-161)
    drops six values, which do not exist for NS = -1 with an empty list. -/
def mf7mt4 (za : Int) (awr : Dbl) (lat lasym : Int) (constants : LIST) (law : Option (ISeq TabLists)) (principal : TAB1) (secondary : List (Option TAB1) := []) :
    Except Err (Sect ScatteringData) :=
  ENDFtk.mf7mt4.build 4 za awr (
    if constants.data.length < 6 then .error .ub
    else if ¬secondaryOk (functionTypes constants) secondary then .error .exc
    else if lat ≠ 0 ∧ lat ≠ 1 then .error .exc
    else .ok ⟨lat, lasym, constants, law, principal, secondary⟩)

/-- The integers of the records fit, LASYM is a number of type `int`. -/
def ScatteringInts (b : ScatteringData) : Prop :=
  IsInt32 b.lasym ∧ IsInt32 b.constants.n2 ∧ b.constants.Ints ∧ (∀ f, b.law = some f → f.Ints TabListsInts) ∧ b.principal.Ints ∧ ∀ r, some r ∈ b.secondary → r.Ints

/-! ### MF7 MT451 -/

/-- section/7/451/src/ctor.hpp 8-12, verifySize.hpp 1-11, section/7/451.hpp 48 (`NA()` as `unsigned int`) -/
def mf7mt451 (za : Int) (awr : Dbl) (elements : List LIST) : Except Err (Sect (List LIST)) :=
  ENDFtk.mf7mt451.build 451 za awr (if (elements.length : Int) % 4294967296 = 0 then .error .exc else .ok elements)

/-- section/7/451/src/ctor.hpp 21-22 -/
def mf7mt451Single (za : Int) (awr : Dbl) (element : LIST) : Except Err (Sect (List LIST)) := mf7mt451 za awr [element]

/-! ### MF8 MT454 and MT459 -/

/-- section/8/454/src/generateFissionYields.hpp 1-59 (used by 459 as well, section/8/459.hpp 29) -/
def fissionYields (identifiers states : List Int) (energies : List Dbl) (interpolants : List Int) (yields : List (List (Dbl × Dbl))) : Except Err (List LIST) :=
  if energies.length ≠ interpolants.length + 1 then .error .exc
  else if identifiers.length ≠ states.length ∨ identifiers.length ≠ yields.length then .error .exc
  else if ∃ y ∈ yields, y.length ≠ energies.length then .error .exc
  else mapE (fun i => FissionYieldData.make identifiers states (yields.map (fun y => y.getD i (Disco.zero, Disco.zero))) (energies.getD i Disco.zero)
      (if i = 0 then (energies.length : Int) - 1 else interpolants.getD (i - 1) 0)) (List.range energies.length)

/-- section/8/454/src/ctor.hpp 16-18, section/8/459/src/ctor.hpp 16-18 -/
def mf8yields (mt za : Int) (awr : Dbl) (yields : List LIST) : Except Err (Sect (List LIST)) := (ENDFtk.mf8yields mt).build mt za awr (.ok yields)

/-- section/8/454/src/ctor.hpp 30-37, section/8/459/src/ctor.hpp 30-37; the energy and the interpolation type have the default value 0
    (section/8/FissionYieldData/src/ctor.hpp 25-29) -/
def mf8yieldsSingle (mt za : Int) (awr : Dbl) (identifiers states : List Int) (yields : List (Dbl × Dbl)) : Except Err (Sect (List LIST)) :=
  (FissionYieldData.make identifiers states yields Disco.zero 0).bind fun l => mf8yields mt za awr [l]

/-- section/8/454/src/ctor.hpp 57-68, section/8/459/src/ctor.hpp 57-68 -/
def mf8yieldsArrays (mt za : Int) (awr : Dbl) (identifiers states : List Int) (energies : List Dbl) (interpolants : List Int) (yields : List (List (Dbl × Dbl))) :
    Except Err (Sect (List LIST)) :=
  (fissionYields identifiers states energies interpolants yields).bind fun l => mf8yields mt za awr l

/-! ### MF8 MT457 -/

/-- section/8/457/AverageDecayEnergies/src/ctor.hpp 40-42 -/
def noDecayEnergies : LIST := ⟨Disco.zero, Disco.zero, 0, 0, 0, List.replicate 6 Disco.zero⟩

/-- section/8/457/ContinuousSpectrum/src/ctor.hpp 10-19 -/
def continuousSpectrum (chain : Dbl) (bounds ints : List Int) (energies spectrum : List Dbl) : Except Err TAB1 :=
  TAB1.make chain Disco.zero 0 0 bounds ints energies spectrum

/-- section/8/457/DecaySpectrum/src/ctor.hpp 3-10, verifyDiscreteSize.hpp 1-9 -/
def decaySpectrum (b : DecaySpectrum) : Except Err DecaySpectrum := if toInt32 b.1.l1 = 2 ∧ asInt b.2.1.length = 0 then .error .exc else .ok b

/-- section/8/457/DecaySpectrum/src/ctor.hpp 22-31 -/
def decaySpectrumDiscrete (type : Dbl) (dnorm energy : Dbl × Dbl) (discrete : List LIST) : Except Err DecaySpectrum :=
  decaySpectrum (⟨Disco.zero, type, 0, 0, discrete.length, [dnorm.1, dnorm.2, energy.1, energy.2, Disco.zero, Disco.zero]⟩, discrete, none)

/-- section/8/457/DecaySpectrum/src/ctor.hpp 41-51 -/
def decaySpectrumContinuous (type : Dbl) (cnorm energy : Dbl × Dbl) (continuous : TAB1) : Except Err DecaySpectrum :=
  decaySpectrum (⟨Disco.zero, type, 1, 0, 0, [Disco.zero, Disco.zero, energy.1, energy.2, cnorm.1, cnorm.2]⟩, [], some continuous)

/-- section/8/457/DecaySpectrum/src/ctor.hpp 63-74 -/
def decaySpectrumBoth (type : Dbl) (dnorm cnorm energy : Dbl × Dbl) (discrete : List LIST) (continuous : TAB1) : Except Err DecaySpectrum :=
  decaySpectrum (⟨Disco.zero, type, 2, 0, discrete.length, [dnorm.1, dnorm.2, energy.1, energy.2, cnorm.1, cnorm.2]⟩, discrete, some continuous)

/-- section/8/457/DecaySpectrum.hpp 38-132: STYP, LCON, NER; the pairs FD, ERAV, FC at 0, 2 and 4 -/
def spectrumType (b : DecaySpectrum) : Dbl := b.1.c2
def continuumFlag (b : DecaySpectrum) : Int := toInt32 b.1.l1
def numberDiscrete (b : DecaySpectrum) : Int := toInt32 b.1.n2
def normalisation (i : Nat) (b : DecaySpectrum) : Except Err (Dbl × Dbl) := (atE b.1.data i).bind fun x => (atE b.1.data (i + 1)).bind fun y => .ok (x, y)

/-- A discrete spectrum made by one of the constructors. -/
inductive DiscreteBuilt : LIST → Prop
  | four {chain : Dbl} {energy intensity : Dbl × Dbl} {type : Dbl} {l : LIST} (h : DiscreteSpectrum.make4 chain energy intensity type = .ok l) : DiscreteBuilt l
  | six {chain : Dbl} {energy intensity : Dbl × Dbl} {type : Dbl} {ris : Dbl × Dbl} {l : LIST} (h : DiscreteSpectrum.make6 chain energy intensity type ris = .ok l) :
      DiscreteBuilt l
  | twelve {chain : Dbl} {energy intensity : Dbl × Dbl} {type : Dbl} {ris ricc rick ricl : Dbl × Dbl} {l : LIST}
      (h : DiscreteSpectrum.make12 chain energy intensity type ris ricc rick ricl = .ok l) : DiscreteBuilt l

/-- A continuous spectrum made by the constructor. -/
def ContinuousBuilt (r : TAB1) : Prop := ∃ chain bounds ints energies spectrum, continuousSpectrum chain bounds ints energies spectrum = .ok r

/-- A decay spectrum made by one of the constructors. -/
inductive DecaySpectrumBuilt : DecaySpectrum → Prop
  | discrete {type : Dbl} {dnorm energy : Dbl × Dbl} {discrete : List LIST} {b : DecaySpectrum} (hd : ∀ x ∈ discrete, DiscreteBuilt x)
      (h : decaySpectrumDiscrete type dnorm energy discrete = .ok b) : DecaySpectrumBuilt b
  | continuous {type : Dbl} {cnorm energy : Dbl × Dbl} {continuous : TAB1} {b : DecaySpectrum} (hc : ContinuousBuilt continuous)
      (h : decaySpectrumContinuous type cnorm energy continuous = .ok b) : DecaySpectrumBuilt b
  | both {type : Dbl} {dnorm cnorm energy : Dbl × Dbl} {discrete : List LIST} {continuous : TAB1} {b : DecaySpectrum} (hd : ∀ x ∈ discrete, DiscreteBuilt x)
      (hc : ContinuousBuilt continuous) (h : decaySpectrumBoth type dnorm cnorm energy discrete continuous = .ok b) : DecaySpectrumBuilt b

/-- Average decay energies made by one of the constructors. -/
inductive EnergiesBuilt : LIST → Prop
  | none : EnergiesBuilt noDecayEnergies
  | some {halflife : Dbl × Dbl} {energies : List (Dbl × Dbl)} {l : LIST} (h : AverageDecayEnergies.make halflife energies = .ok l) : EnergiesBuilt l

/-- Decay modes made by one of the constructors. -/
inductive ModesBuilt : LIST → Prop
  | stable {spin parity : Dbl} {l : LIST} (h : DecayModes.makeStable spin parity = .ok l) : ModesBuilt l
  | some {spin parity : Dbl} {modes : List DecayModes.Mode} {l : LIST} (h : DecayModes.make spin parity modes = .ok l) : ModesBuilt l

/-- section/8/457/src/ctor.hpp 35-43: `lis` and `liso` are of type `int`, the members of type `unsigned int` (section/8/457.hpp 41-42) -/
def mf8mt457 (za : Int) (awr : Dbl) (lis liso : Int) (energies modes : LIST) (spectra : List DecaySpectrum) : Except Err (Sect DecayData) :=
  ENDFtk.mf8mt457.build 457 za awr (.ok ⟨toUInt32 lis, toUInt32 liso, energies, modes, spectra⟩)

/-- section/8/457/src/ctor.hpp 19-22 -/
def mf8mt457Stable (za : Int) (awr : Dbl) (lis liso : Int) (spin parity : Dbl) : Except Err (Sect DecayData) :=
  ENDFtk.mf8mt457.build 457 za awr ((DecayModes.makeStable spin parity).bind fun m => .ok ⟨toUInt32 lis, toUInt32 liso, noDecayEnergies, m, []⟩)

/-- The integers of the records fit. -/
def DecaySpectrumInts (b : DecaySpectrum) : Prop := b.1.Ints ∧ SeqInts LIST.Ints b.2.1 ∧ ∀ r, b.2.2 = some r → r.Ints
/-- The integers of the records fit. -/
def DecayDataInts (b : DecayData) : Prop := b.energies.Ints ∧ b.modes.Ints ∧ SeqInts DecaySpectrumInts b.spectra

/-! ### MF9 and MF10 -/

/-- section/9/ReactionProduct/src/ctor.hpp 13-22, section/10/ReactionProduct/src/ctor.hpp 13-22 -/
def reactionProduct9 (qm qi : Dbl) (izap lfs : Int) (bounds ints : List Int) (energies values : List Dbl) : Except Err TAB1 :=
  TAB1.make qm qi izap lfs bounds ints energies values

/-- section/9/ReactionProduct/src/ctor.hpp 41-47, section/10/ReactionProduct/src/ctor.hpp 41-47 -/
def reactionProduct9Short (qm qi : Dbl) (izap lfs : Int) (energies values : List Dbl) (interpolant : Int := 2) : Except Err TAB1 :=
  reactionProduct9 qm qi izap lfs [(energies.length : Int)] [interpolant] energies values

/-- section/9/src/ctor.hpp 18-20, section/10/src/ctor.hpp 18-20: `lis` is of type `long`, the member of type `int` (section/9.hpp 33, section/10.hpp 33) -/
def mfProducts (mf mt za : Int) (awr : Dbl) (lis : Int) (products : List TAB1) : Except Err (Sect Products) :=
  (ENDFtk.mfProducts mf).build mt za awr (.ok ⟨toInt32 lis, products⟩)

/-! ### MF12 and MF13 -/

/-- section/12/PartialMultiplicity/src/ctor.hpp 22-34, section/13/PartialCrossSection/src/ctor.hpp 14-26 -/
def partialTable (energy level : Dbl) (lp law : Int) (bounds ints : List Int) (energies values : List Dbl) : Except Err TAB1 :=
  TAB1.make energy level lp law bounds ints energies values

/-- A partial multiplicity or cross section made by the constructor. -/
def PartialTableBuilt (r : TAB1) : Prop := ∃ energy level lp law bounds ints energies values, partialTable energy level lp law bounds ints energies values = .ok r

/-- section/12/Multiplicities/src/ctor.hpp 6-11, verifyNK.hpp 1-11; section/13/src/ctor.hpp 6-14, verifyNK.hpp 1-11 -/
def totalPartials (total : Option TAB1) (partials : List TAB1) : Except Err TotalPartials := if asInt partials.length ≤ 0 then .error .exc else .ok (total, partials)

/-- A total and partials made by one of the constructors: section/12/Multiplicities/src/ctor.hpp 27-28, 36-39 and section/13/src/ctor.hpp 31-33, 45-50;
    the total is made by section/12/TotalMultiplicity/src/ctor.hpp 17-25, section/13/TotalCrossSection/src/ctor.hpp 9-17 (`table` has the same arguments) -/
inductive TotalPartialsBuilt : TotalPartials → Prop
  | one {r : TAB1} {b : TotalPartials} (hp : PartialTableBuilt r) (h : totalPartials none [r] = .ok b) : TotalPartialsBuilt b
  | total {t : TAB1} {partials : List TAB1} {b : TotalPartials} (ht : TableBuilt t) (hp : ∀ x ∈ partials, PartialTableBuilt x)
      (h : totalPartials (some t) partials = .ok b) : TotalPartialsBuilt b

/-- The integers of the records fit. -/
def TotalPartialsInts (b : TotalPartials) : Prop := (∀ r, b.1 = some r → r.Ints) ∧ SeqInts TAB1.Ints b.2

/-- Photon production data made by one of the constructors. -/
inductive ProductionBuilt : PhotonProduction → Prop
  | multiplicities {b : TotalPartials} (h : TotalPartialsBuilt b) : ProductionBuilt (.multiplicities b)
  | transitions2 {energy : Dbl} {energies probabilities : List Dbl} {l : LIST} (h : TransitionProbabilities.make2 energy energies probabilities = .ok l) :
      ProductionBuilt (.transitions l)
  | transitions3 {energy : Dbl} {energies probabilities conditionals : List Dbl} {l : LIST}
      (h : TransitionProbabilities.make3 energy energies probabilities conditionals = .ok l) : ProductionBuilt (.transitions l)

/-- The integers of the records fit. -/
def ProductionInts : PhotonProduction → Prop
  | .multiplicities b => TotalPartialsInts b
  | .transitions l => l.Ints

/-- section/12/src/ctor.hpp 17-18 -/
def mf12 (mt za : Int) (awr : Dbl) (production : PhotonProduction) : Except Err (Sect PhotonProduction) := ENDFtk.mf12.build mt za awr (.ok production)

/-- section/13/src/ctor.hpp 6-14, 31-33, 45-50 -/
def mf13 (mt za : Int) (awr : Dbl) (total : Option TAB1) (partials : List TAB1) : Except Err (Sect TotalPartials) :=
  ENDFtk.mf13.build mt za awr (totalPartials total partials)

/-! ### MF14 -/

/-- section/14/LegendreDistributions/src/ctor.hpp 19-24, section/14/TabulatedDistributions/src/ctor.hpp 19-24: the arguments are exchanged, as in file 4 -/
def photonDistributions {α : Type} (energy level : Dbl) (boundaries interpolants : List Int) (distributions : List α) : Except Err (ISeq α) :=
  angularDistributions interpolants boundaries distributions energy level

/-- A photon made by one of the constructors (section/14/IsotropicDiscretePhoton/src/ctor.hpp 16-18; the distributions for an incident energy are those of
    file 4, section/14.hpp 36-37). -/
inductive PhotonBuilt : Photon → Prop
  | isotropic (energy level : Dbl) : PhotonBuilt (.isotropic energy level)
  | legendre {energy level : Dbl} {bounds ints : List Int} {distributions : List LIST} {b : ISeq LIST}
      (hd : ∀ x ∈ distributions, ∃ e coefficients, x = legendreCoefficients e coefficients)
      (h : photonDistributions energy level bounds ints distributions = .ok b) : PhotonBuilt (.legendre b)
  | tabulated {energy level : Dbl} {bounds ints : List Int} {distributions : List TAB1} {b : ISeq TAB1}
      (hd : ∀ x ∈ distributions, ∃ e bo i cosines probabilities, tabulatedDistribution e bo i cosines probabilities = .ok x)
      (h : photonDistributions energy level bounds ints distributions = .ok b) : PhotonBuilt (.tabulated b)

/-- The integers of the records fit. -/
def PhotonInts : Photon → Prop
  | .isotropic _ _ => True
  | .legendre b => b.Ints LIST.Ints
  | .tabulated b => b.Ints TAB1.Ints

/-- section/14/src/ctor.hpp 17-19: `nk` is of type `unsigned int`, `NK()` of type `int` (section/14.hpp 99-102) -/
def mf14Isotropic (mt za : Int) (awr : Dbl) (nk : Int) : Except Err (Sect MF14Data) := ENDFtk.mf14.build mt za awr (.ok ⟨toInt32 nk, []⟩)

/-- section/14/src/ctor.hpp 29-32 -/
def mf14 (mt za : Int) (awr : Dbl) (photons : List Photon) : Except Err (Sect MF14Data) := ENDFtk.mf14.build mt za awr (.ok ⟨0, photons⟩)

/-- section/14/src/ctor.hpp 43-48, makePhotonDistributions.hpp 1-22 -/
def mf14Pairs (mt za : Int) (awr : Dbl) (isotropic : List (Dbl × Dbl)) (anisotropic : List Photon) : Except Err (Sect MF14Data) :=
  mf14 mt za awr (isotropic.map (fun p => .isotropic p.1 p.2) ++ anisotropic)

/-- section/14/src/ctor.hpp 59-65, makeArrays.hpp 1-24 -/
def mf14Arrays (mt za : Int) (awr : Dbl) (energies levels : List Dbl) (anisotropic : List Photon) : Except Err (Sect MF14Data) :=
  if energies.length ≠ levels.length then .error .exc else mf14Pairs mt za awr (energies.zip levels) anisotropic

/-! ### MF15 -/

/-- section/15/PartialDistribution/src/ctor.hpp 7-14, verifyLF.hpp 1-16 (the LF of a tabulated spectrum is 1, section/5/Probability.hpp 34: `LF` as `int`) -/
def partialDistribution15 (probability : TAB1) (spectrum : ISeq TAB1) : Except Err Partial15 :=
  if toInt32 probability.base.l2 ≠ 1 then .error .exc else .ok (probability, spectrum)

/-- A partial distribution made by these constructors. -/
def Partial15Built (b : Partial15) : Prop := ∃ (p : TAB1) (d : ISeq TAB1),
  (∃ lf bounds ints energies probabilities u, probability lf bounds ints energies probabilities u = .ok p) ∧ SpectrumBuilt (.tabulated d) ∧
  partialDistribution15 p d = .ok b

/-- The integers of the records fit. -/
def Partial15Ints (b : Partial15) : Prop := b.1.Ints ∧ b.2.Ints TAB1.Ints

/-- section/15/src/ctor.hpp 17-22, section/5/src/verifyNK.hpp 1-10 -/
def mf15 (mt za : Int) (awr : Dbl) (partials : List Partial15) : Except Err (Sect (List Partial15)) :=
  ENDFtk.mf15.build mt za awr (if asInt partials.length = 0 then .error .exc else .ok partials)

/-! ### MF28 -/

/-- section/28/src/ctor.hpp 17-19 -/
def mf28 (mt za : Int) (awr : Dbl) (subshells : List LIST) : Except Err (Sect (List LIST)) := ENDFtk.mf28.build mt za awr (.ok subshells)

end Make
end ENDFtk

import Verif.Section.Build
import Verif.Section.MF6
import Verif.Section.MF12
/-
  The public constructors from data, part 2: files 5, 6 and 26.
-/
set_option linter.unusedVariables false
set_option linter.unusedSectionVars false
set_option linter.unusedSimpArgs false
namespace ENDFtk
variable [Disco]
namespace Make

/-! ### MF5 -/

/-- section/5/DistributionFunction/src/ctor.hpp 17-25, section/5/EffectiveTemperature/src/ctor.hpp 17-25, section/5/Parameter/src/ctor.hpp 17-25,
    section/5/EvaporationSpectrum/src/ctor.hpp 17-24, section/5/MaxwellianFissionSpectrum/src/ctor.hpp 17-24, section/26/EnergyTransfer/src/ctor.hpp 9-17 -/
def table (bounds ints : List Int) (x y : List Dbl) : Except Err TAB1 := TAB1.make Disco.zero Disco.zero 0 0 bounds ints x y

/-- section/5/MadlandNixSpectrum/src/ctor.hpp 19-28 -/
def madlandNixSpectrum (efl efh : Dbl) (bounds ints : List Int) (energies temperatures : List Dbl) : Except Err TAB1 :=
  TAB1.make efl efh 0 0 bounds ints energies temperatures

/-- section/5/TabulatedSpectrum/OutgoingEnergyDistribution/src/ctor.hpp 10-19 -/
def outgoingEnergyDistribution (incident : Dbl) (bounds ints : List Int) (energies probabilities : List Dbl) : Except Err TAB1 :=
  TAB1.make Disco.zero incident 0 0 bounds ints energies probabilities

/-- section/5/TabulatedSpectrum/src/ctor.hpp 28-36 -/
def tabulatedSpectrum (bounds ints : List Int) (distributions : List TAB1) : Except Err (ISeq TAB1) :=
  (TAB2.make Disco.zero Disco.zero 0 0 bounds ints).bind fun tab2 => ISeq.make tab2 distributions

/-- section/5/Probability/src/ctor.hpp 11-21 -/
def probability (lf : Int) (bounds ints : List Int) (energies probabilities : List Dbl) (u : Dbl := Disco.zero) : Except Err TAB1 :=
  TAB1.make u Disco.zero 0 lf bounds ints energies probabilities

/-- A table made by one of these constructors. -/
def TableBuilt (r : TAB1) : Prop := ∃ bounds ints x y, table bounds ints x y = .ok r

/-- A spectrum made by one of these constructors (section/5/GeneralEvaporationSpectrum/src/ctor.hpp 15-19, section/5/WattSpectrum/src/ctor.hpp 25-27). -/
inductive SpectrumBuilt : Spectrum → Prop
  | tabulated {bounds ints : List Int} {distributions : List TAB1} {b : ISeq TAB1}
      (hd : ∀ x ∈ distributions, ∃ incident b i energies probabilities, outgoingEnergyDistribution incident b i energies probabilities = .ok x)
      (h : tabulatedSpectrum bounds ints distributions = .ok b) : SpectrumBuilt (.tabulated b)
  | general {temperature distribution : TAB1} (h1 : TableBuilt temperature) (h2 : TableBuilt distribution) : SpectrumBuilt (.general temperature distribution)
  | maxwell {r : TAB1} (h : TableBuilt r) : SpectrumBuilt (.maxwell r)
  | evaporation {r : TAB1} (h : TableBuilt r) : SpectrumBuilt (.evaporation r)
  | watt {a b : TAB1} (h1 : TableBuilt a) (h2 : TableBuilt b) : SpectrumBuilt (.watt a b)
  | madland {efl efh : Dbl} {bounds ints : List Int} {energies temperatures : List Dbl} {r : TAB1}
      (h : madlandNixSpectrum efl efh bounds ints energies temperatures = .ok r) : SpectrumBuilt (.madland r)

/-- The integers of the records fit. -/
def SpectrumInts : Spectrum → Prop
  | .tabulated b => b.Ints TAB1.Ints
  | .general a b => a.Ints ∧ b.Ints
  | .maxwell a => a.Ints
  | .evaporation a => a.Ints
  | .watt a b => a.Ints ∧ b.Ints
  | .madland a => a.Ints

/-- section/5/PartialDistribution/src/ctor.hpp 7-16, verifyLF.hpp 1-13, section/5/Probability.hpp 34 (`LF` as `int`) -/
def partialDistribution (probability : TAB1) (spectrum : Spectrum) : Except Err Partial5 :=
  if toInt32 probability.base.l2 ≠ spectrum.lf then .error .exc else .ok ⟨probability, spectrum⟩

/-- A partial distribution made by these constructors. -/
def PartialBuilt (b : Partial5) : Prop := ∃ (p : TAB1) (d : Spectrum),
  (∃ lf bounds ints energies probabilities u, probability lf bounds ints energies probabilities u = .ok p) ∧ SpectrumBuilt d ∧ partialDistribution p d = .ok b

/-- The integers of the records fit. -/
def PartialInts (b : Partial5) : Prop := b.probability.Ints ∧ SpectrumInts b.dist

/-- section/5/src/ctor.hpp 17-22, verifyNK.hpp 1-10 -/
def mf5 (mt za : Int) (awr : Dbl) (partials : List Partial5) : Except Err (Sect (List Partial5)) :=
  ENDFtk.mf5.build mt za awr (if asInt partials.length = 0 then .error .exc else .ok partials)

/-! ### MF6 -/

/-- section/6/Multiplicity/src/ctor.hpp 14-23 -/
def multiplicity6 (zap : Int) (awp : Dbl) (lip law : Int) (bounds ints : List Int) (energies multiplicities : List Dbl) : Except Err TAB1 :=
  TAB1.make (Disco.ofInt zap) awp lip law bounds ints energies multiplicities

/-- section/6/ContinuumEnergyAngle/ThermalScatteringData/src/ctor.hpp 26-28 -/
def thermalScatteringData (energy : Dbl) (n2 : Int) (data : List Dbl) : LIST := ⟨Disco.zero, energy, 0, 0, n2, data⟩

/-- A distribution of section/6/ContinuumEnergyAngle with its LANG, made by one of the constructors of LegendreCoefficients, KalbachMann,
    ThermalScatteringData and TabulatedDistribution. -/
inductive ContinuumDataBuilt : Int → LIST → Prop
  | legendre {energy : Dbl} {nd : Int} {na : Nat} {energies : List Dbl} {coefficients : List (List Dbl)} {l : LIST}
      (h : ContinuumData.makeLegendre energy nd na energies coefficients = .ok l) : ContinuumDataBuilt 1 l
  | kalbach3 {energy : Dbl} {nd : Int} {data : List (Dbl × Dbl × Dbl)} {l : LIST} (h : ContinuumData.makeKalbach3 energy nd data = .ok l) : ContinuumDataBuilt 2 l
  | kalbach4 {energy : Dbl} {nd : Int} {data : List (Dbl × Dbl × Dbl × Dbl)} {l : LIST} (h : ContinuumData.makeKalbach4 energy nd data = .ok l) : ContinuumDataBuilt 2 l
  | thermal (energy : Dbl) (n2 : Int) (data : List Dbl) : ContinuumDataBuilt 3 (thermalScatteringData energy n2 data)
  | thermalCosines (energy : Dbl) (cosines : List Dbl) : ContinuumDataBuilt 3 (ContinuumData.makeThermal energy cosines)
  | tabulated {lang : Int} {energy : Dbl} {nd : Int} {na : Nat} {energies emissions : List Dbl} {cosines probabilities : List (List Dbl)} {l : LIST}
      (h : ContinuumData.makeTabulated lang energy nd na energies emissions cosines probabilities = .ok l) : ContinuumDataBuilt lang l

/-- section/6/ContinuumEnergyAngle/src/ctor.hpp 13-18, 29-41, verifyLANG.hpp 1-20; a distribution is given with its LANG (it is a `std::variant`, LANG is the
    constant of the alternative or the member of TabulatedDistribution.hpp 13).  `front()` of an empty array has undefined behaviour. -/
def continuumEnergyAngle (lep : Int) (bounds ints : List Int) (distributions : List (Int × LIST)) : Except Err (ISeq LIST) :=
  match distributions with
  | [] => .error .ub
  | d :: _ => (TAB2.make Disco.zero Disco.zero d.1 lep bounds ints).bind fun tab2 => (ISeq.make tab2 (distributions.map (·.2))).bind fun r =>
    if ∀ x ∈ distributions, x.1 = toInt32 tab2.l1 then .ok r else .error .exc

/-- section/6/DiscreteTwoBodyScattering/src/ctor.hpp 13-15, 25-32 -/
def discreteTwoBodyScattering (bounds ints : List Int) (distributions : List LIST) : Except Err (ISeq LIST) :=
  (TAB2.make Disco.zero Disco.zero 0 0 bounds ints).bind fun tab2 => ISeq.make tab2 distributions

/-- A distribution of section/6/DiscreteTwoBodyScattering made by one of the constructors. -/
inductive TwoBodyDataBuilt : LIST → Prop
  | legendre {energy : Dbl} {coefficients : List Dbl} {l : LIST} (h : TwoBodyData.makeLegendre energy coefficients = .ok l) : TwoBodyDataBuilt l
  | tabulated {energy : Dbl} {lang : Int} {cosines probabilities : List Dbl} {l : LIST}
      (h : TwoBodyData.makeTabulated energy lang cosines probabilities = .ok l) : TwoBodyDataBuilt l

/-- section/6/ChargedParticleElasticScattering/LegendreCoefficients/src/ctor.hpp 12-17, 25-29, verifyLTP.hpp 1-11, verifySize.hpp 1-12: the size minus one
    is computed with unsigned integers and stored in a `long`, which gives -1 for an empty array -/
def chargedLegendre (energy : Dbl) (coefficients : List Dbl) : Except Err LIST :=
  verified (require chargedOk) ⟨Disco.zero, energy, 2, 0, (coefficients.length : Int) - 1, coefficients⟩

/-- section/6/ChargedParticleElasticScattering/src/ctor.hpp 13-15, 27-35 -/
def chargedParticleElasticScattering (spin : Dbl) (lidp : Int) (bounds ints : List Int) (distributions : List LIST) : Except Err (ISeq LIST) :=
  (TAB2.make spin Disco.zero lidp 0 bounds ints).bind fun tab2 => ISeq.make tab2 distributions

/-- A distribution of section/6/ChargedParticleElasticScattering made by one of the constructors (the one with complex numbers, NuclearAmplitudeExpansion/src/ctor.hpp
    73-79, takes the same numbers in another form). -/
inductive ChargedDataBuilt : LIST → Prop
  | amplitude {energy : Dbl} {nl : Nat} {b ar ai : List Dbl} {l : LIST} (h : ChargedData.makeAmplitude energy nl b ar ai = .ok l) : ChargedDataBuilt l
  | legendre {energy : Dbl} {coefficients : List Dbl} {l : LIST} (h : chargedLegendre energy coefficients = .ok l) : ChargedDataBuilt l
  | interference {energy : Dbl} {ltp : Int} {cosines probabilities : List Dbl} {l : LIST}
      (h : ChargedData.makeInterference energy ltp cosines probabilities = .ok l) : ChargedDataBuilt l

/-- section/6/NBodyPhaseSpace/src/ctor.hpp 15-17 -/
def nBodyPhaseSpace (apsx : Dbl) (npsx : Int) : Cont := ⟨apsx, Disco.zero, 0, 0, 0, npsx⟩

/-- section/6/LaboratoryAngleEnergy/EnergyDistribution/src/ctor.hpp 6-7, 21-29 -/
def energyDistribution (cosine : Dbl) (bounds ints : List Int) (energies probabilities : List Dbl) : Except Err TAB1 :=
  TAB1.make Disco.zero cosine 0 0 bounds ints energies probabilities

/-- section/6/LaboratoryAngleEnergy/AngularDistribution/src/ctor.hpp 9-18 -/
def angularDistribution (energy : Dbl) (bounds ints : List Int) (distributions : List TAB1) : Except Err (ISeq TAB1) :=
  (TAB2.make Disco.zero energy 0 0 bounds ints).bind fun tab2 => ISeq.make tab2 distributions

/-- section/6/LaboratoryAngleEnergy/src/ctor.hpp 16-23 -/
def laboratoryAngleEnergy (bounds ints : List Int) (distributions : List (ISeq TAB1)) : Except Err (ISeq (ISeq TAB1)) :=
  (TAB2.make Disco.zero Disco.zero 0 0 bounds ints).bind fun tab2 => ISeq.make tab2 distributions

/-- section/6/DefinedElsewhere/src/ctor.hpp 14-17, checkLAW.hpp 1-12 -/
def definedElsewhere (law : Int) : Except Err Law6 :=
  if law ≠ -4 ∧ law ≠ -5 ∧ law ≠ -14 ∧ law ≠ -15 then .error .exc else .ok (.elsewhere law)

/-- An angular distribution of LAW = 7 made by these constructors. -/
def LaboratoryDataBuilt (r : ISeq TAB1) : Prop := ∃ energy bounds ints distributions,
  (∀ x ∈ distributions, ∃ cosine b i energies probabilities, energyDistribution cosine b i energies probabilities = .ok x) ∧
  angularDistribution energy bounds ints distributions = .ok r

/-- A distribution law made by one of these constructors. -/
inductive LawBuilt : Law6 → Prop
  | elsewhere {law : Int} {b : Law6} (h : definedElsewhere law = .ok b) : LawBuilt b
  | unknown : LawBuilt .unknown
  | continuum {lep : Int} {bounds ints : List Int} {distributions : List (Int × LIST)} {b : ISeq LIST}
      (hd : ∀ x ∈ distributions, ContinuumDataBuilt x.1 x.2) (h : continuumEnergyAngle lep bounds ints distributions = .ok b) : LawBuilt (.continuum b)
  | twoBody {bounds ints : List Int} {distributions : List LIST} {b : ISeq LIST}
      (hd : ∀ x ∈ distributions, TwoBodyDataBuilt x) (h : discreteTwoBodyScattering bounds ints distributions = .ok b) : LawBuilt (.twoBody b)
  | isotropic : LawBuilt .isotropic
  | recoils : LawBuilt .recoils
  | charged {spin : Dbl} {lidp : Int} {bounds ints : List Int} {distributions : List LIST} {b : ISeq LIST}
      (hd : ∀ x ∈ distributions, ChargedDataBuilt x) (h : chargedParticleElasticScattering spin lidp bounds ints distributions = .ok b) : LawBuilt (.charged b)
  | nBody (apsx : Dbl) (npsx : Int) : LawBuilt (.nBody (nBodyPhaseSpace apsx npsx))
  | laboratory {bounds ints : List Int} {distributions : List (ISeq TAB1)} {b : ISeq (ISeq TAB1)}
      (hd : ∀ x ∈ distributions, LaboratoryDataBuilt x) (h : laboratoryAngleEnergy bounds ints distributions = .ok b) : LawBuilt (.laboratory b)

/-- The integers of the records fit; the flags LANG and LTP of LAW = 2 and LAW = 5 are numbers of type `int`. -/
def LawInts : Law6 → Prop
  | .continuum b => b.Ints LIST.Ints
  | .twoBody b => b.Ints fun l => l.Ints ∧ IsInt32 l.l1
  | .charged b => b.Ints fun l => l.Ints ∧ IsInt32 l.l1
  | .nBody b => b.Fits
  | .laboratory b => b.Ints (ISeq.Ints TAB1.Ints)
  | _ => True

/-- section/6/ReactionProduct/src/ctor.hpp 7-14, verifyLAW.hpp 1-10, section/6/Multiplicity.hpp 52 (`LAW` as `int`) -/
def reactionProduct6 (multiplicity : TAB1) (distribution : Law6) : Except Err Product6 :=
  if toInt32 multiplicity.base.l2 ≠ distribution.law then .error .exc else .ok ⟨multiplicity, distribution⟩

/-- A reaction product made by these constructors. -/
def Product6Built (b : Product6) : Prop := ∃ (m : TAB1) (d : Law6),
  (∃ zap awp lip law bounds ints energies multiplicities, multiplicity6 zap awp lip law bounds ints energies multiplicities = .ok m) ∧ LawBuilt d ∧
  reactionProduct6 m d = .ok b

/-- The integers of the records fit. -/
def Product6Ints (b : Product6) : Prop := b.multiplicity.Ints ∧ LawInts b.dist

/-- section/6/src/ctor.hpp 19-22: `jp` and `lct` are of type `long`, the members of type `int` (section/6.hpp 82-83) -/
def mf6 (mt za : Int) (awr : Dbl) (jp lct : Int) (products : List Product6) : Except Err (Sect MF6Data) :=
  ENDFtk.mf6.build mt za awr (.ok ⟨toInt32 jp, toInt32 lct, products⟩)

/-! ### MF26 -/

/-- section/26/Multiplicity/src/ctor.hpp 12-21 -/
def multiplicity26 (zap : Int) (awi : Dbl) (law : Int) (bounds ints : List Int) (energies multiplicities : List Dbl) : Except Err TAB1 :=
  TAB1.make (Disco.ofInt zap) awi 0 law bounds ints energies multiplicities

/-- section/26/ContinuumEnergyAngle/src/ctor.hpp 13-18, 29-39, verifyLANG.hpp 1-18 (LANG of the Legendre coefficients is the constant 1; `front()` of an empty
    array is only used for its static member function) -/
def continuumEnergyAngle26 (lep : Int) (bounds ints : List Int) (distributions : List LIST) : Except Err (ISeq LIST) :=
  (TAB2.make Disco.zero Disco.zero 1 lep bounds ints).bind fun tab2 => (ISeq.make tab2 distributions).bind fun r =>
    if ∀ x ∈ r.seq, (1 : Int) = toInt32 tab2.l1 then .ok r else .error .exc

/-- section/26/DiscreteTwoBodyScattering/src/ctor.hpp 13-15, 25-32 -/
def discreteTwoBodyScattering26 (bounds ints : List Int) (distributions : List LIST) : Except Err (ISeq LIST) :=
  (TAB2.make Disco.zero Disco.zero 0 0 bounds ints).bind fun tab2 => ISeq.make tab2 distributions

/-- A distribution law made by one of these constructors. -/
inductive Law26Built : Law26 → Prop
  | continuum {lep : Int} {bounds ints : List Int} {distributions : List LIST} {b : ISeq LIST}
      (hd : ∀ x ∈ distributions, ∃ energy nd na energies coefficients, ContinuumData.makeLegendre energy nd na energies coefficients = .ok x)
      (h : continuumEnergyAngle26 lep bounds ints distributions = .ok b) : Law26Built (.continuum b)
  | twoBody {bounds ints : List Int} {distributions : List LIST} {b : ISeq LIST}
      (hd : ∀ x ∈ distributions, ∃ energy lang cosines probabilities, TwoBodyData.makeTabulated energy lang cosines probabilities = .ok x)
      (h : discreteTwoBodyScattering26 bounds ints distributions = .ok b) : Law26Built (.twoBody b)
  | transfer {r : TAB1} (h : TableBuilt r) : Law26Built (.transfer r)

/-- The integers of the records fit. -/
def Law26Ints : Law26 → Prop
  | .continuum b => b.Ints LIST.Ints
  | .twoBody b => b.Ints LIST.Ints
  | .transfer r => r.Ints

/-- section/6/ReactionProduct/src/ctor.hpp 7-14, verifyLAW.hpp 1-10 (used by section/26/ReactionProduct.hpp 18, 24) -/
def reactionProduct26 (multiplicity : TAB1) (distribution : Law26) : Except Err Product26 :=
  if toInt32 multiplicity.base.l2 ≠ distribution.law then .error .exc else .ok ⟨multiplicity, distribution⟩

/-- A reaction product made by these constructors. -/
def Product26Built (b : Product26) : Prop := ∃ (m : TAB1) (d : Law26),
  (∃ zap awi law bounds ints energies multiplicities, multiplicity26 zap awi law bounds ints energies multiplicities = .ok m) ∧ Law26Built d ∧
  reactionProduct26 m d = .ok b

/-- The integers of the records fit. -/
def Product26Ints (b : Product26) : Prop := b.multiplicity.Ints ∧ Law26Ints b.dist

/-- section/26/src/ctor.hpp 17-20 -/
def mf26 (mt za : Int) (awr : Dbl) (products : List Product26) : Except Err (Sect (List Product26)) := ENDFtk.mf26.build mt za awr (.ok products)

end Make
end ENDFtk

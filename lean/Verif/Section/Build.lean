import Verif.Section.Getters
/-
  The public constructors from data, part 1: what they have in common, files 1, 3, 4, 23 and 27.

  (The default constructors, which exist only for the python bindings, and the copy and move constructors are not modelled.  A parameter of type `int` is
  an integer here; the theorems assume that it is a number of type `int`.)
-/
set_option linter.unusedVariables false
set_option linter.unusedSectionVars false
set_option linter.unusedSimpArgs false
namespace ENDFtk
variable [Disco]

/-! ### integers that can be written -/

/-- The integers of the record fit their columns, the number of values is a number of type `int`. -/
def LIST.Ints (r : LIST) : Prop := fits 11 r.l1 ∧ fits 11 r.l2 ∧ fits 11 r.n2 ∧ (r.data.length : Int) < 2147483648

/-- The integers of the record fit their columns; the boundaries are indices (not negative, of type `int`). -/
def TAB2.Ints (r : TAB2) : Prop :=
  fits 11 r.l1 ∧ fits 11 r.l2 ∧ (r.bounds.length : Int) < 2147483648 ∧ (∀ b ∈ r.bounds, 0 ≤ b ∧ b < 2147483648) ∧ ∀ i ∈ r.ints, fits 11 i

/-- The integers of the record fit their columns, the number of points is a number of type `int`. -/
def TAB1.Ints (r : TAB1) : Prop := r.base.Ints ∧ (r.x.length : Int) < 2147483648

/-- The integers of the TAB2 record and of the components fit, the number of components is a number of type `int`. -/
def ISeq.Ints {α : Type} (I : α → Prop) (r : ISeq α) : Prop := r.tab2.Ints ∧ (r.seq.length : Int) < 2147483648 ∧ ∀ x ∈ r.seq, I x

/-- Components in an array whose size is a number of type `int`. -/
def SeqInts {α : Type} (I : α → Prop) (l : List α) : Prop := (l.length : Int) < 2147483648 ∧ ∀ x ∈ l, I x

/-! ### sections -/

/-- The constructors of the sections: `Base( zaid, awr, mt )` or `BaseWithoutMT( zaid, awr )` (section/Base/src/ctor.hpp 9-20,
    section/BaseWithoutMT/src/ctor.hpp 9-26) comes first, then the data. -/
def SecDef.build {β : Type} (D : SecDef β) (mt za : Int) (awr : Dbl) (data : Except Err β) : Except Err (Sect β) :=
  match checkBase za awr (if D.fixedMT.isSome then none else some mt) with
  | .error e => .error e
  | .ok _ => match data with
    | .error e => .error e
    | .ok b => .ok ⟨za, awr, D.fixedMT.getD mt, b⟩

/-! ### MF3, MF23, MF27 -/

namespace Make

/-- section/3/src/ctor.hpp 23-30 -/
def mf3 (mt za : Int) (awr qm qi : Dbl) (lr : Int) (bounds ints : List Int) (energies xs : List Dbl) : Except Err (Sect TAB1) :=
  ENDFtk.mf3.build mt za awr (TAB1.make qm qi 0 lr bounds ints energies xs)

/-- section/3/src/ctor.hpp 44-49 (`interpolant` and `lr` have the default values 2 and 0) -/
def mf3Short (mt za : Int) (awr qm qi : Dbl) (energies xs : List Dbl) (interpolant : Int := 2) (lr : Int := 0) : Except Err (Sect TAB1) :=
  mf3 mt za awr qm qi lr [(energies.length : Int)] [interpolant] energies xs

/-- section/23/src/ctor.hpp 14-21 -/
def mf23 (mt za : Int) (awr epe efl : Dbl) (bounds ints : List Int) (energies xs : List Dbl) : Except Err (Sect TAB1) :=
  ENDFtk.mf23.build mt za awr (TAB1.make epe efl 0 0 bounds ints energies xs)

/-- section/27/src/ctor.hpp 12-19: Z is computed from the ZA number (`int` division) -/
def mf27 (mt za : Int) (awr : Dbl) (bounds ints : List Int) (energies factors : List Dbl) : Except Err (Sect TAB1) :=
  ENDFtk.mf27.build mt za awr (TAB1.make Disco.zero (Disco.ofInt (za.tdiv 1000)) 0 0 bounds ints energies factors)

/-! ### MF1 MT451 -/

/-- `ranges::cpp20::views::split( description, '\n' )`: the pieces between newlines; there is no piece after a newline that ends the string. -/
def pieces : Text → List Text
  | [] => []
  | c :: s => if c = '\n' then [] :: pieces s else match pieces s with
    | [] => [[c]]
    | l :: ls => (c :: l) :: ls

/-- section/1/451/src/ctor.hpp 50-65, makeParameters.hpp 1-10, makeDescription.hpp 1-10 (`nwd` and `nxc` are of type `int`) -/
def mf1mt451 (za : Int) (awr : Dbl) (lrp lfi nlib nmod : Int) (elis sta : Dbl) (lis liso nfor : Int) (awi emax : Dbl) (lrel nsub nver : Int)
    (temp : Dbl) (ldrv : Int) (description : Text) (index : List Dir) (rtol : Dbl := Disco.zero) : Except Err (Sect Info451) :=
  ENDFtk.mf1mt451.build 451 za awr (.ok ⟨lrp, lfi, nlib, nmod, ⟨elis, sta, lis, liso, 0, nfor⟩, ⟨awi, emax, lrel, 0, nsub, nver⟩,
    ⟨temp, rtol, ldrv, 0, asInt (pieces description).length, asInt index.length⟩, pieces description, index⟩)

/-- The integers are of type `int` or fit their columns, the numbers of texts and of directory records are of type `int`. -/
def Info451Ints (b : Info451) : Prop :=
  IsInt32 b.lrp ∧ IsInt32 b.lfi ∧ IsInt32 b.nlib ∧ IsInt32 b.nmod ∧ b.p0.Fits ∧ b.p1.Fits ∧ fits 11 b.p2.l1 ∧
  (b.desc.length : Int) < 2147483648 ∧ (b.index.length : Int) < 2147483648 ∧ ∀ d ∈ b.index, d.Ok

/-- section/1/451/src/description.hpp 4-14 -/
def description (b : Info451) : Text := (b.desc.intersperse ['\n']).flatten ++ ['\n']

/-! ### MF1 MT452, MT455, MT456 -/

/-- section/1/PolynomialMultiplicity/src/ctor.hpp 14-15 -/
def polynomialMultiplicity (coefficients : List Dbl) : LIST := ⟨Disco.zero, Disco.zero, 0, 0, 0, coefficients⟩
/-- section/1/TabulatedMultiplicity/src/ctor.hpp 17-25 -/
def tabulatedMultiplicity (bounds ints : List Int) (energies multiplicities : List Dbl) : Except Err TAB1 :=
  TAB1.make Disco.zero Disco.zero 0 0 bounds ints energies multiplicities

/-- A multiplicity made by one of these constructors. -/
inductive NubarBuilt : Nubar → Prop
  | poly (coefficients : List Dbl) : NubarBuilt (.poly (polynomialMultiplicity coefficients))
  | tab {bounds ints : List Int} {energies multiplicities : List Dbl} {r : TAB1}
      (h : tabulatedMultiplicity bounds ints energies multiplicities = .ok r) : NubarBuilt (.tab r)

/-- The integers of the record fit. -/
def NubarInts : Nubar → Prop
  | .poly r => r.Ints
  | .tab r => r.Ints

/-- section/1/452/src/ctor.hpp 16-17 -/
def mf1mt452 (za : Int) (awr : Dbl) (multiplicity : Nubar) : Except Err (Sect Nubar) := (mf1nubar 452).build 452 za awr (.ok multiplicity)
/-- section/1/456/src/ctor.hpp 16-17 -/
def mf1mt456 (za : Int) (awr : Dbl) (multiplicity : Nubar) : Except Err (Sect Nubar) := (mf1nubar 456).build 456 za awr (.ok multiplicity)

/-- section/1/455/EnergyIndependentConstants/src/ctor.hpp 14-16 -/
def energyIndependentConstants (constants : List Dbl) : LIST := ⟨Disco.zero, Disco.zero, 0, 0, 0, constants⟩
/-- section/1/455/EnergyDependentConstants/src/ctor.hpp 16-26, verify.hpp 1-15 -/
def energyDependentConstants (bounds ints : List Int) (constants : List LIST) : Except Err (ISeq LIST) :=
  (TAB2.make Disco.zero Disco.zero 0 0 bounds ints).bind fun tab2 => (ISeq.make tab2 constants).bind fun r =>
    if ∀ x ∈ r.seq, some (nnf x) = (r.seq.head?).map nnf then .ok r else .error .exc

/-- Decay constants made by one of these constructors. -/
inductive DecayBuilt : Decay → Prop
  | indep (constants : List Dbl) : DecayBuilt (.indep (energyIndependentConstants constants))
  | dep {bounds ints : List Int} {constants : List LIST} {r : ISeq LIST}
      (hc : ∀ x ∈ constants, ∃ energy lambda alpha, DecayConstants.make energy lambda alpha = .ok x)
      (h : energyDependentConstants bounds ints constants = .ok r) : DecayBuilt (.dep r)

/-- The integers of the records fit. -/
def DecayInts : Decay → Prop
  | .indep r => r.Ints
  | .dep r => r.Ints LIST.Ints

/-- section/1/455/src/ctor.hpp 17-20 -/
def mf1mt455 (za : Int) (awr : Dbl) (constants : Decay) (multiplicity : Nubar) : Except Err (Sect Delayed) :=
  ENDFtk.mf1mt455.build 455 za awr (.ok ⟨constants, multiplicity⟩)

/-! ### MF1 MT458 -/

/-- section/1/458/ThermalPointComponents/src/ctor.hpp 36-49, 4-8 -/
def thermalPointComponents (efr enp end' egp egd eb enu er et : Dbl × Dbl) : Except Err LIST :=
  verified (require (fun r => toInt32 r.npl = 18)) ⟨Disco.zero, Disco.zero, 0, 0, 9,
    [efr.1, efr.2, enp.1, enp.2, end'.1, end'.2, egp.1, egp.2, egd.1, egd.2, eb.1, eb.2, enu.1, enu.2, er.1, er.2, et.1, et.2]⟩

/-- section/1/458/ThermalPointComponents.hpp 58-165: the pair at place `i` of `chunk( 2 )` -/
def thermalComponent (i : Nat) (l : LIST) : Except Err (List Dbl) := (chunkE 2 l.data).bind (atE · i)

/-- section/1/458/EnergyReleaseComponent/src/ctor.hpp 6-10, 25-35, verify.hpp 1-17 -/
def energyReleaseComponent (ldrv : Bool) (ifc : Int) (bounds ints : List Int) (energies qvalues : List Dbl) : Except Err TAB1 :=
  (TAB1.make Disco.zero Disco.zero (if ldrv then 2 else 1) ifc bounds ints energies qvalues).bind fun r =>
    if (toInt32 r.base.l1 = 1 ∨ toInt32 r.base.l1 = 2) ∧ ¬(toInt32 r.base.l2 < 1 ∨ toInt32 r.base.l2 > 9) then .ok r else .error .exc

/-- The loop of section/1/458/TabulatedComponents/src/generateTables.hpp 16-38 -/
def placeTables : List TAB1 → List (Option TAB1) → Except Err (List (Option TAB1))
  | [], recs => .ok recs
  | r :: rs, recs =>
    if 0 < ifc r ∧ ifc r < 10 then
      match recs[(ifc r - 1).toNat]?.join with
      | none => placeTables rs (recs.set (ifc r - 1).toNat (some r))
      | some _ => .error .exc
    else .error .exc

/-- section/1/458/TabulatedComponents/src/ctor.hpp 29-33, 6-11, generateTables.hpp 1-41 -/
def tabulatedComponents (thermal : LIST) (tables : List TAB1) : Except Err TabComp :=
  if tables = [] then .error .exc else
    (placeTables tables (List.replicate 9 none)).bind fun cs => .ok ⟨asInt tables.length, thermal, cs⟩

/-- Energy release data made by one of these constructors. -/
inductive ReleaseBuilt : Release → Prop
  | thermal {efr enp end' egp egd eb enu er et : Dbl × Dbl} {l : LIST} (h : thermalPointComponents efr enp end' egp egd eb enu er et = .ok l) : ReleaseBuilt (.thermal l)
  | poly {efr enp end' egp egd eb enu er et : List (Dbl × Dbl)} {l : LIST} (h : PolynomialComponents.make efr enp end' egp egd eb enu er et = .ok l) : ReleaseBuilt (.poly l)
  | tab {efr enp end' egp egd eb enu er et : Dbl × Dbl} {l : LIST} {tables : List TAB1} {b : TabComp}
      (hl : thermalPointComponents efr enp end' egp egd eb enu er et = .ok l)
      (ht : ∀ x ∈ tables, ∃ ldrv ifc bounds ints energies qvalues, energyReleaseComponent ldrv ifc bounds ints energies qvalues = .ok x)
      (h : tabulatedComponents l tables = .ok b) : ReleaseBuilt (.tab b)

/-- The integers of the records fit. -/
def ReleaseInts : Release → Prop
  | .thermal r => r.Ints
  | .poly r => r.Ints
  | .tab b => b.values.Ints ∧ ∀ r, some r ∈ b.comps → r.Ints

/-- section/1/458/src/ctor.hpp 16-17 -/
def mf1mt458 (za : Int) (awr : Dbl) (data : Release) : Except Err (Sect Release) := ENDFtk.mf1mt458.build 458 za awr (.ok data)

/-! ### MF1 MT460 -/

/-- section/1/460/DiscretePhotonMultiplicity/src/ctor.hpp 11-20 -/
def discretePhotonMultiplicity (energy : Dbl) (lph : Int) (bounds ints : List Int) (time multiplicities : List Dbl) : Except Err TAB1 :=
  TAB1.make energy Disco.zero lph 0 bounds ints time multiplicities

/-- section/1/460/DiscretePhotons/src/ctor.hpp 14-18, verifySize.hpp 1-11 -/
def discretePhotons (photons : List TAB1) : Except Err Photons := if asInt photons.length ≤ 0 then .error .exc else .ok (.discrete photons)
/-- section/1/460/ContinuousPhotons/src/ctor.hpp 14-19, verifySize.hpp 1-11 -/
def continuousPhotons (constants : List Dbl) : Except Err Photons :=
  if asInt constants.length ≤ 0 then .error .exc else .ok (.continuous ⟨Disco.zero, Disco.zero, 0, 0, 0, constants⟩)

/-- Delayed photon data made by one of these constructors. -/
inductive PhotonsBuilt : Photons → Prop
  | discrete {photons : List TAB1} {b : Photons}
      (hp : ∀ x ∈ photons, ∃ energy lph bounds ints time multiplicities, discretePhotonMultiplicity energy lph bounds ints time multiplicities = .ok x)
      (h : discretePhotons photons = .ok b) : PhotonsBuilt b
  | continuous {constants : List Dbl} {b : Photons} (h : continuousPhotons constants = .ok b) : PhotonsBuilt b

/-- The integers of the records fit. -/
def PhotonsInts : Photons → Prop
  | .discrete l => SeqInts TAB1.Ints l
  | .continuous r => r.Ints

/-- section/1/460/src/ctor.hpp 16-17 -/
def mf1mt460 (za : Int) (awr : Dbl) (data : Photons) : Except Err (Sect Photons) := ENDFtk.mf1mt460.build 460 za awr (.ok data)

/-! ### MF4 -/

/-- section/4/LegendreCoefficients/src/ctor.hpp 6-7, 17-20 -/
def legendreCoefficients (energy : Dbl) (coefficients : List Dbl) : LIST := ⟨Disco.zero, energy, 0, 0, 0, coefficients⟩
/-- section/4/TabulatedDistribution/src/ctor.hpp 10-19 -/
def tabulatedDistribution (energy : Dbl) (bounds ints : List Int) (cosines probabilities : List Dbl) : Except Err TAB1 :=
  TAB1.make Disco.zero energy 0 0 bounds ints cosines probabilities

/-- section/4/AngularDistributions/src/ctor.hpp 18-25: the parameters are called `boundaries` and `interpolants`, but the second one is used as the boundaries -/
def angularDistributions {α : Type} (boundaries interpolants : List Int) (distributions : List α) (c1 c2 : Dbl := Disco.zero) : Except Err (ISeq α) :=
  (TAB2.make c1 c2 0 0 interpolants boundaries).bind fun tab2 => ISeq.make tab2 distributions

/-- section/4/LegendreDistributions/src/ctor.hpp 8-12 and section/4/TabulatedDistributions/src/ctor.hpp 8-12: the arguments are exchanged once more -/
def distributions {α : Type} (boundaries interpolants : List Int) (distributions : List α) : Except Err (ISeq α) :=
  angularDistributions interpolants boundaries distributions

/-- section/4/MixedDistributions/src/ctor.hpp 7-14; `back()` and `front()` exist because a sequence is not empty -/
def mixedDistributions (legendre : ISeq LIST) (tabulated : ISeq TAB1) : Except Err Mixed :=
  if (Mixed.mk legendre tabulated).lined then .ok ⟨legendre, tabulated⟩ else .error .exc

/-- Legendre distributions made by these constructors. -/
def LegendreBuilt (r : ISeq LIST) : Prop := ∃ bounds ints seq,
  (∀ x ∈ seq, ∃ energy coefficients, x = legendreCoefficients energy coefficients) ∧ distributions bounds ints seq = .ok r
/-- Tabulated distributions made by these constructors. -/
def TabulatedBuilt (r : ISeq TAB1) : Prop := ∃ bounds ints seq,
  (∀ x ∈ seq, ∃ energy b i cosines probabilities, tabulatedDistribution energy b i cosines probabilities = .ok x) ∧ distributions bounds ints seq = .ok r

/-- Angular distributions made by one of these constructors. -/
inductive AngularBuilt : Angular → Prop
  | isotropic : AngularBuilt .isotropic
  | legendre {r : ISeq LIST} (h : LegendreBuilt r) : AngularBuilt (.legendre r)
  | tabulated {r : ISeq TAB1} (h : TabulatedBuilt r) : AngularBuilt (.tabulated r)
  | mixed {l : ISeq LIST} {r : ISeq TAB1} {b : Mixed} (hl : LegendreBuilt l) (hr : TabulatedBuilt r) (h : mixedDistributions l r = .ok b) : AngularBuilt (.mixed b)

/-- The integers of the records fit. -/
def AngularInts : Angular → Prop
  | .isotropic => True
  | .legendre r => r.Ints LIST.Ints
  | .tabulated r => r.Ints TAB1.Ints
  | .mixed b => b.legendre.Ints LIST.Ints ∧ b.tabulated.Ints TAB1.Ints

/-- section/4/src/ctor.hpp 18-21: `lct` is of type `long`, the member of type `int` (section/4.hpp 78) -/
def mf4 (mt za : Int) (awr : Dbl) (lct : Int) (dist : Angular) : Except Err (Sect MF4Data) := ENDFtk.mf4.build mt za awr (.ok ⟨toInt32 lct, dist⟩)

end Make
end ENDFtk

import Verif.Props.Build3
import Verif.Props.GettersExamples
import Verif.Props.RecordsExamples
import Verif.Txt
/-
  C61, concrete sections: each constructor accepts a non-trivial case that meets the hypotheses of its theorem (so the section can be written and read back), and
  what the constructors accept although it cannot be read back.
-/
set_option linter.unusedVariables false
set_option maxRecDepth 100000
namespace ENDFtk.Props
attribute [local instance] concDisco

instance (r : LIST) : Decidable r.Ints := by unfold LIST.Ints; exact inferInstance
instance (r : TAB2) : Decidable r.Ints := by unfold TAB2.Ints; exact inferInstance
instance (r : TAB1) : Decidable r.Ints := by unfold TAB1.Ints; exact inferInstance
instance {α : Type} (I : α → Prop) [DecidablePred I] (r : ISeq α) : Decidable (r.Ints I) := by unfold ISeq.Ints; exact inferInstance
instance {α : Type} (I : α → Prop) [DecidablePred I] (l : List α) : Decidable (SeqInts I l) := by unfold SeqInts; exact inferInstance
instance {α : Type} (p : Option α) (I : α → Prop) [DecidablePred I] : Decidable (∀ r, p = some r → I r) :=
  match p with
  | none => isTrue fun _ h => by cases h
  | some r => decidable_of_iff (I r) ⟨fun h _ e => by cases e; exact h, fun h => h r rfl⟩
instance {α : Type} (l : List (Option α)) (I : α → Prop) [DecidablePred I] : Decidable (∀ r, some r ∈ l → I r) :=
  decidable_of_iff (∀ x ∈ l, ∀ r, x = some r → I r) ⟨fun h r hr => h _ hr r rfl, fun h x hx r e => h r (e ▸ hx)⟩
instance (b : Nubar) : Decidable (Make.NubarInts b) := by cases b <;> (unfold Make.NubarInts; exact inferInstance)
instance (b : Decay) : Decidable (Make.DecayInts b) := by cases b <;> (unfold Make.DecayInts; exact inferInstance)
instance (b : Release) : Decidable (Make.ReleaseInts b) := by cases b <;> (unfold Make.ReleaseInts; exact inferInstance)
instance (b : Photons) : Decidable (Make.PhotonsInts b) := by cases b <;> (unfold Make.PhotonsInts; exact inferInstance)
instance (b : Angular) : Decidable (Make.AngularInts b) := by cases b <;> (unfold Make.AngularInts; exact inferInstance)
instance (b : Info451) : Decidable (Make.Info451Ints b) := by unfold Make.Info451Ints; exact inferInstance
instance (b : Spectrum) : Decidable (Make.SpectrumInts b) := by cases b <;> (unfold Make.SpectrumInts; exact inferInstance)
instance : DecidablePred Make.PartialInts := fun b => by unfold Make.PartialInts; exact inferInstance
instance (b : Law6) : Decidable (Make.LawInts b) := by cases b <;> (unfold Make.LawInts; exact inferInstance)
instance : DecidablePred Make.Product6Ints := fun b => by unfold Make.Product6Ints; exact inferInstance
instance (b : Law26) : Decidable (Make.Law26Ints b) := by cases b <;> (unfold Make.Law26Ints; exact inferInstance)
instance : DecidablePred Make.Product26Ints := fun b => by unfold Make.Product26Ints; exact inferInstance
instance : DecidablePred Make.TabListsInts := fun b => by unfold Make.TabListsInts; exact inferInstance
instance (b : Elastic) : Decidable (Make.ElasticInts b) := by cases b <;> (unfold Make.ElasticInts; exact inferInstance)
instance (b : ScatteringData) : Decidable (Make.ScatteringInts b) := by unfold Make.ScatteringInts; exact inferInstance
instance : DecidablePred Make.DecaySpectrumInts := fun b => by unfold Make.DecaySpectrumInts; exact inferInstance
instance (b : DecayData) : Decidable (Make.DecayDataInts b) := by unfold Make.DecayDataInts; exact inferInstance
instance (b : TotalPartials) : Decidable (Make.TotalPartialsInts b) := by unfold Make.TotalPartialsInts; exact inferInstance
instance (b : PhotonProduction) : Decidable (Make.ProductionInts b) := by cases b <;> (unfold Make.ProductionInts; exact inferInstance)
instance : DecidablePred Make.PhotonInts := fun b => by cases b <;> (unfold Make.PhotonInts; exact inferInstance)
instance : DecidablePred Make.Partial15Ints := fun b => by unfold Make.Partial15Ints; exact inferInstance

/-- The section is written with MAT 125, the reals survive being written in 11 columns, the text is read completely, and what is read is written as the same text. -/
def readBack (T : SectionType) (s : Sect T.Data) : Bool :=
  match T.defn.print s 125 T.defn.mf with
  | .ok out => match T.defn.parse ⟨out, 0⟩ with
    | .ok (s', st) => decide (st.rest = [] ∧ Reps (T.defn.realsSect s) ∧ T.defn.print s' 125 T.defn.mf = .ok out)
    | .error _ => false
  | .error _ => false

/-- The section is written with MAT 125, the reals survive being written in 11 columns, but parsing what is written throws. -/
def unreadable (T : SectionType) (s : Sect T.Data) : Bool :=
  match T.defn.print s 125 T.defn.mf with
  | .ok out => match T.defn.parse ⟨out, 0⟩ with
    | .ok _ => false
    | .error e => e.isStd && decide (Reps (T.defn.realsSect s))
  | .error _ => false

/-- x, y: two points -/
def xs2 : List DecReal := dr [1, 20]
def ys2 : List DecReal := dr [3, 4]
def table2 : Except Err TAB1 := Make.table [2] [2] xs2 ys2
def pr (n : Int) : DecReal × DecReal := (Conc.ofInt n, one)

/-! ### files 1, 3, 4, 23 and 27 -/

example : Makes (Make.mf3 102 92235 one one one 2 [1, 3] [5, 2] (dr [1, 2, 3]) (dr [4, 5, 6])) (fun s => decide s.data.Ints && readBack .mf3 s) = true := by decide +kernel
example : Makes (Make.mf3Short 102 92235 one one one (dr [1, 2, 3]) (dr [4, 5, 6])) (fun s => decide s.data.Ints && readBack .mf3 s) = true := by decide +kernel
/-- energies that are not sorted, arrays of different sizes, a last boundary that is not the number of points -/
example : Makes (Make.mf3Short 102 92235 one one one (dr [1, 3, 2]) (dr [4, 5, 6])) (fun s => true) = false ∧
    Makes (Make.mf3Short 102 92235 one one one (dr [1, 2, 3]) (dr [4, 5])) (fun s => true) = false ∧
    Makes (Make.mf3 102 92235 one one one 2 [1, 4] [5, 2] (dr [1, 2, 3]) (dr [4, 5, 6])) (fun s => true) = false := by decide +kernel
example : Makes (Make.mf23 501 92000 one one one [2] [2] xs2 ys2) (fun s => decide s.data.Ints && readBack .mf23 s) = true := by decide +kernel
example : Makes (Make.mf27 502 92235 one [2] [2] xs2 ys2) (fun s => decide s.data.Ints && decide (s.data.base.c2 = Conc.ofInt 92) && readBack .mf27 s) = true := by decide +kernel

def desc66 (c : Char) : Text := List.replicate 66 c
example : Makes (Make.mf1mt451 92235 one 1 1 0 5 one one 0 0 6 one one 8 10 8 one 0 (desc66 'a' ++ ['\n'] ++ desc66 'b' ++ ['\n']) [⟨1, 451, 10, 0⟩, ⟨3, 1, 5, 1⟩])
    (fun s => decide (Make.Info451Ints s.data) && decide (∀ x ∈ s.data.desc, x.length = 66) && decide (s.data.desc.length = 2) && readBack .mf1mt451 s) = true := by decide +kernel
/-- lines of 2 characters: read back with blanks up to column 66 -/
example : Makes (Make.mf1mt451 92235 one 1 1 0 5 one one 0 0 6 one one 8 10 8 one 0 (txt "ab\ncd\n") [⟨1, 451, 10, 0⟩])
    (fun s => readBack .mf1mt451 s && readBack .mf1mt451 (padDesc s) && decide (s.data.desc.length = 2 ∧ padDesc s ≠ s)) = true := by decide +kernel
/-- A general information section without directory is made and written, but it cannot be read back. -/
theorem C61_mf1mt451_empty_index : Makes (Make.mf1mt451 92235 one 1 1 0 5 one one 0 0 6 one one 8 10 8 one 0 (desc66 'a' ++ ['\n']) [])
    (fun s => unreadable .mf1mt451 s) = true := by decide +kernel
/-- A general information section with a description line of 67 characters is made and written, but it cannot be read back. -/
theorem C61_mf1mt451_long_line : Makes (Make.mf1mt451 92235 one 1 1 0 5 one one 0 0 6 one one 8 10 8 one 0 (desc66 'a' ++ ['b', '\n']) [⟨1, 451, 10, 0⟩])
    (fun s => unreadable .mf1mt451 s) = true := by decide +kernel

example : Makes table2 (fun r => Makes (Make.mf1mt452 92235 one (.tab r)) (fun s => decide (Make.NubarInts s.data) && readBack .mf1mt452 s)) = true := by decide +kernel
example : Makes (Make.mf1mt456 92235 one (.poly (Make.polynomialMultiplicity (dr [1, 2])))) (fun s => decide (Make.NubarInts s.data) && readBack .mf1mt456 s) = true := by decide +kernel
example : Makes (DecayConstants.make one (dr [1, 9]) (dr [3, 9])) (fun a => Makes (DecayConstants.make one (dr [5, 9]) (dr [7, 9])) (fun b => Makes (Make.energyDependentConstants [2] [1] [a, b]) (fun r =>
    Makes (Make.mf1mt455 92235 one (.dep r) (.poly (Make.polynomialMultiplicity (dr [1, 2])))) (fun s => decide (Make.DecayInts s.data.lambda) && readBack .mf1mt455 s)))) = true := by
  decide +kernel
/-- constants for different numbers of precursor families -/
example : Makes (DecayConstants.make one (dr [1]) (dr [3])) (fun a => Makes (DecayConstants.make one (dr [5, 9]) (dr [7, 9])) (fun b =>
    Makes (Make.energyDependentConstants [2] [1] [a, b]) (fun r => true))) = false := by decide +kernel
example : Makes (Make.thermalPointComponents (pr 1) (pr 2) (pr 3) (pr 4) (pr 5) (pr 6) (pr 7) (pr 8) (pr 9)) (fun l => Makes (Make.energyReleaseComponent false 5 [2] [2] xs2 ys2) (fun a =>
    Makes (Make.energyReleaseComponent true 2 [2] [2] xs2 ys2) (fun b => Makes (Make.tabulatedComponents l [a, b]) (fun t =>
    Makes (Make.mf1mt458 92235 one (.tab t)) (fun s => decide (Make.ReleaseInts s.data) && readBack .mf1mt458 s) && !Makes (Make.tabulatedComponents l [a, b, a]) (fun _ => true))))) = true := by
  decide +kernel
example : Makes (PolynomialComponents.make [pr 1, pr 2] [pr 1, pr 2] [pr 1, pr 2] [pr 1, pr 2] [pr 1, pr 2] [pr 1, pr 2] [pr 1, pr 2] [pr 1, pr 2] [pr 1, pr 2])
    (fun l => Makes (Make.mf1mt458 92235 one (.poly l)) (fun s => decide (Make.ReleaseInts s.data ∧ l.l2 ≠ 0) && readBack .mf1mt458 s)) = true := by decide +kernel
/-- polynomial components of empty arrays have order -1 and are read back -/
example : Makes (PolynomialComponents.make [] [] [] [] [] [] [] [] []) (fun l => Makes (Make.mf1mt458 92235 one (.poly l)) (fun s => decide (l.l2 = -1) && readBack .mf1mt458 s)) = true := by
  decide +kernel
/-- Polynomial components with one coefficient each are read back as thermal point components. -/
theorem C61_mf1mt458_order_zero : Makes (PolynomialComponents.make [pr 1] [pr 2] [pr 3] [pr 4] [pr 5] [pr 6] [pr 7] [pr 8] [pr 9])
    (fun l => Makes (Make.mf1mt458 92235 one (.poly l)) (fun s => match mf1mt458.print s 125 1 with
      | .ok out => match mf1mt458.parse ⟨out, 0⟩ with
        | .ok (⟨_, _, _, .thermal _⟩, _) => true
        | _ => false
      | _ => false)) = true := by decide +kernel
example : Makes (Make.discretePhotonMultiplicity one 0 [2] [2] xs2 ys2) (fun a => Makes (Make.discretePhotons [a, a]) (fun b => Makes (Make.mf1mt460 92235 one b) (fun s =>
    decide (Make.PhotonsInts s.data) && readBack .mf1mt460 s))) = true := by decide +kernel
example : Makes (Make.continuousPhotons (dr [1, 2])) (fun b => Makes (Make.mf1mt460 92235 one b) (fun s => decide (Make.PhotonsInts s.data) && readBack .mf1mt460 s)) = true := by decide +kernel

def leg (e : Int) : LIST := Make.legendreCoefficients (Conc.ofInt e) (dr [1, 2])
example : Makes (Make.tabulatedDistribution (Conc.ofInt 2) [2] [2] (dr [-1, 1]) ys2) (fun t => Makes (Make.distributions [2] [2] [leg 1, leg 2]) (fun l =>
    Makes (Make.distributions [1] [2] [t]) (fun r => Makes (Make.mixedDistributions l r) (fun b => Makes (Make.mf4 2 92235 one 2 (.mixed b)) (fun s =>
    decide (Make.AngularInts s.data.dist) && readBack .mf4 s))))) = true := by decide +kernel
/-- the last energy of the Legendre distributions is not the first one of the tabulated distributions -/
example : Makes (Make.tabulatedDistribution (Conc.ofInt 2) [2] [2] (dr [-1, 1]) ys2) (fun t => Makes (Make.distributions [2] [2] [leg 1, leg 3]) (fun l =>
    Makes (Make.distributions [1] [2] [t]) (fun r => Makes (Make.mixedDistributions l r) (fun b => true)))) = false := by decide +kernel
example : Makes (Make.mf4 2 92235 one 2 .isotropic) (fun s => readBack .mf4 s) = true := by decide +kernel

/-! ### files 5, 6 and 26 -/

example : Makes (Make.outgoingEnergyDistribution one [2] [2] xs2 ys2) (fun d => Makes (Make.tabulatedSpectrum [2] [2] [d, d]) (fun t => Makes (Make.probability 1 [2] [2] xs2 ys2) (fun p =>
    Makes (Make.partialDistribution p (.tabulated t)) (fun a => Makes table2 (fun w => Makes (Make.probability 11 [2] [2] xs2 ys2) (fun q => Makes (Make.partialDistribution q (.watt w w)) (fun b =>
    Makes (Make.mf5 18 92235 one [a, b]) (fun s => decide (SeqInts Make.PartialInts s.data) && readBack .mf5 s) && !Makes (Make.partialDistribution p (.watt w w)) (fun _ => true)))))))) = true := by
  decide +kernel
example : Makes (ContinuumData.makeLegendre one 0 1 (dr [1, 2]) [dr [1, 2], dr [3, 4]]) (fun l => Makes (Make.continuumEnergyAngle 2 [2] [2] [(1, l), (1, l)]) (fun c =>
    Makes (Make.multiplicity6 1 one 0 1 [2] [2] xs2 ys2) (fun m => Makes (Make.reactionProduct6 m (.continuum c)) (fun p => Makes (Make.multiplicity6 1 one 0 (-5) [2] [2] xs2 ys2) (fun n =>
    Makes (Make.reactionProduct6 n (.elsewhere (-5))) (fun q => Makes (Make.mf6 18 92235 one 0 2 [p, q]) (fun s =>
    decide (SeqInts Make.Product6Ints s.data.products) && readBack .mf6 s))))))) = true := by decide +kernel
example : Makes (Make.chargedLegendre one (dr [1, 2, 3])) (fun l => Makes (Make.chargedParticleElasticScattering one 0 [1] [2] [l]) (fun c => Makes (Make.multiplicity6 1 one 0 5 [2] [2] xs2 ys2) (fun m =>
    Makes (Make.reactionProduct6 m (.charged c)) (fun p => Makes (Make.energyDistribution one [2] [2] xs2 ys2) (fun e => Makes (Make.angularDistribution one [2] [2] [e, e]) (fun a =>
    Makes (Make.laboratoryAngleEnergy [1] [2] [a]) (fun b => Makes (Make.multiplicity6 1 one 0 7 [2] [2] xs2 ys2) (fun n => Makes (Make.reactionProduct6 n (.laboratory b)) (fun q =>
    Makes (Make.mf6 2 92235 one 0 2 [p, q]) (fun s => decide (SeqInts Make.Product6Ints s.data.products) && readBack .mf6 s)))))))))) = true := by decide +kernel
/-- distributions with different LANG -/
example : Makes (ContinuumData.makeLegendre one 0 1 (dr [1, 2]) [dr [1, 2], dr [3, 4]]) (fun l => Makes (Make.continuumEnergyAngle 2 [2] [2]
    [(1, l), (3, Make.thermalScatteringData one 2 (dr [1, 2]))]) (fun c => true)) = false := by decide +kernel
/-- A product that is defined elsewhere is made and written for any MT, but it is read back for MT 18 only. -/
theorem C61_mf6_elsewhere : Makes (Make.multiplicity6 1 one 0 (-5) [2] [2] xs2 ys2) (fun n => Makes (Make.reactionProduct6 n (.elsewhere (-5))) (fun q =>
    Makes (Make.mf6 16 92235 one 0 2 [q]) (fun s => unreadable .mf6 s) && Makes (Make.mf6 18 92235 one 0 2 [q]) (fun s => readBack .mf6 s))) = true := by decide +kernel
example : Makes (TwoBodyData.makeTabulated one 12 (dr [-1, 1]) ys2) (fun l => Makes (Make.discreteTwoBodyScattering26 [1] [2] [l]) (fun c => Makes (Make.multiplicity26 11 one 2 [2] [2] xs2 ys2) (fun m =>
    Makes (Make.reactionProduct26 m (.twoBody c)) (fun p => Makes table2 (fun r => Makes (Make.multiplicity26 11 one 8 [2] [2] xs2 ys2) (fun n => Makes (Make.reactionProduct26 n (.transfer r)) (fun q =>
    Makes (Make.mf26 525 92000 one [p, q]) (fun s => decide (SeqInts Make.Product26Ints s.data) && readBack .mf26 s)))))))) = true := by decide +kernel

/-! ### files 7, 8, 9, 10, 12, 13, 14, 15 and 28 -/

example : Makes (Make.coherentElastic [2] [1] (dr [296, 400, 500]) [2, 2] xs2 [ys2, ys2, ys2]) (fun b => Makes (Make.incoherentElastic one [2] [2] xs2 ys2) (fun r =>
    Makes (Make.mf7mt2 126 one (.mixed b r)) (fun s => decide (Make.ElasticInts s.data) && readBack .mf7mt2 s))) = true := by decide +kernel
example : Makes (Make.scatteringFunction one [2] [1] (dr [296, 400]) [2] xs2 [ys2, ys2]) (fun a => Makes (Make.scatteringFunction1 one one [2] [1] xs2 ys2) (fun b =>
    Makes (Make.tabulatedFunctions [2] [2] [a, b]) (fun f => Makes table2 (fun t => Makes (ScatteringLawConstants.make 0 1 one one (dr [1, 2]) (dr [3, 4]) [1, 2] [0]) (fun c =>
    Makes (Make.mf7mt4 127 one 0 1 c (some f) t [some t]) (fun s => decide (Make.ScatteringInts s.data) && readBack .mf7mt4 s)))))) = true := by decide +kernel
example : Makes table2 (fun t => Makes (Make.constantsPrincipal 0 one one (Conc.ofInt 0) one 1) (fun c =>
    Makes (Make.mf7mt4 127 one 0 1 c none t) (fun s => decide (Make.ScatteringInts s.data) && readBack .mf7mt4 s))) = true := by decide +kernel
/-- A section with an analytical law and a first constant that is not zero is made and written, but it cannot be read back. -/
theorem C61_mf7mt4_law : Makes table2 (fun t => Makes (Make.constantsPrincipal 0 one one one one 1) (fun c =>
    Makes (Make.mf7mt4 127 one 0 1 c none t) (fun s => unreadable .mf7mt4 s))) = true := by decide +kernel
example : Makes (ElementInformation.make 1 [1001, 1002] [0, 0] (dr [1, 2]) (dr [3, 4]) (dr [5, 6])) (fun l => Makes (Make.mf7mt451 127 one [l, l]) (fun s =>
    decide (SeqInts LIST.Ints s.data) && readBack .mf7mt451 s)) = true := by decide +kernel
example : Makes (Make.mf8yieldsArrays 454 92235 one [56140, 54135] [0, 1] (dr [1, 2]) [2] [[pr 1, pr 2], [pr 3, pr 4]]) (fun s => decide (SeqInts LIST.Ints s.data) && readBack .mf8mt454 s) = true ∧
    Makes (Make.mf8yieldsSingle 459 92235 one [56140, 54135] [0, 1] [pr 1, pr 2]) (fun s => decide (SeqInts LIST.Ints s.data) && readBack .mf8mt459 s) = true := by decide +kernel
example : Makes (DiscreteSpectrum.make6 one (pr 1) (pr 2) one (pr 3)) (fun d => Makes (Make.continuousSpectrum one [2] [2] xs2 ys2) (fun c =>
    Makes (Make.decaySpectrumBoth one (pr 1) (pr 2) (pr 3) [d, d] c) (fun a => Makes (Make.decaySpectrumContinuous one (pr 1) (pr 2) c) (fun b =>
    Makes (AverageDecayEnergies.make (pr 1) [pr 1, pr 2, pr 3]) (fun e => Makes (DecayModes.make one one [⟨one, one, pr 1, pr 2⟩]) (fun m =>
    Makes (Make.mf8mt457 27060 one 0 0 e m [a, b]) (fun s => decide (Make.DecayDataInts s.data) && readBack .mf8mt457 s) && !Makes (Make.decaySpectrumBoth one (pr 1) (pr 2) (pr 3) [] c) (fun _ => true)))))))
    = true := by decide +kernel
example : Makes (Make.mf8mt457Stable 27059 one 0 0 one one) (fun s => readBack .mf8mt457 s) = true := by decide +kernel
example : Makes (Make.reactionProduct9 one one 95242 1 [2] [2] xs2 ys2) (fun a => Makes (Make.reactionProduct9Short one one 95242 0 xs2 ys2) (fun b =>
    Makes (Make.mfProducts 9 102 95241 one 0 [a, b]) (fun s => decide (SeqInts TAB1.Ints s.data.products) && readBack .mf9 s) &&
    Makes (Make.mfProducts 10 102 95241 one 0 [a, b]) (fun s => readBack .mf10 s))) = true := by decide +kernel

def part1 : Except Err TAB1 := Make.partialTable one one 0 1 [2] [2] xs2 ys2
example : Makes table2 (fun t => Makes part1 (fun p => Makes (Make.totalPartials (some t) [p, p]) (fun b => Makes (Make.mf12 102 92235 one (.multiplicities b)) (fun s =>
    decide (Make.ProductionInts s.data) && readBack .mf12 s)))) = true := by decide +kernel
example : Makes (TransitionProbabilities.make3 one (dr [2, 1]) (dr [3, 4]) (dr [5, 6])) (fun l => Makes (Make.mf12 51 92235 one (.transitions l)) (fun s =>
    decide (Make.ProductionInts s.data) && readBack .mf12 s)) = true := by decide +kernel
example : Makes table2 (fun t => Makes part1 (fun p => Makes (Make.mf13 102 92235 one (some t) [p, p]) (fun s => decide (Make.TotalPartialsInts s.data) && readBack .mf13 s) &&
    Makes (Make.mf13 102 92235 one none [p]) (fun s => decide (Make.TotalPartialsInts s.data) && readBack .mf13 s))) = true := by decide +kernel
/-- A total with exactly one partial (files 12 and 13) is made and written, but it cannot be read back: the reader expects no total if there is one partial. -/
theorem C61_total_one_partial : Makes table2 (fun t => Makes part1 (fun p => Makes (Make.mf13 102 92235 one (some t) [p]) (fun s => unreadable .mf13 s) &&
    Makes (Make.totalPartials (some t) [p]) (fun b => Makes (Make.mf12 102 92235 one (.multiplicities b)) (fun s => unreadable .mf12 s)))) = true := by decide +kernel

example : Makes (Make.photonDistributions one one [2] [2] [leg 1, leg 2]) (fun l => Makes (Make.mf14 102 92235 one [.isotropic one one, .legendre l, .legendre l]) (fun s =>
    decide (SeqInts Make.PhotonInts s.data.photons) && readBack .mf14 s) && Makes (Make.mf14Arrays 102 92235 one (dr [1, 2]) (dr [3, 4]) [.legendre l]) (fun s => readBack .mf14 s)) = true := by
  decide +kernel
example : Makes (Make.mf14Isotropic 102 92235 one 3) (fun s => readBack .mf14 s) = true := by decide +kernel
/-- An isotropic photon after an anisotropic one, or a Legendre distribution and a tabulated one, are made and written, but cannot be read back. -/
theorem C61_mf14_order : Makes (Make.photonDistributions one one [2] [2] [leg 1, leg 2]) (fun l => Makes (Make.tabulatedDistribution one [2] [2] (dr [-1, 1]) ys2) (fun d =>
    Makes (Make.photonDistributions one one [1] [2] [d]) (fun t => Makes (Make.mf14 102 92235 one [.legendre l, .isotropic one one]) (fun s => !readBack .mf14 s) &&
    Makes (Make.mf14 102 92235 one [.legendre l, .tabulated t]) (fun s => !readBack .mf14 s)))) = true := by decide +kernel
example : Makes (Make.outgoingEnergyDistribution one [2] [2] xs2 ys2) (fun d => Makes (Make.tabulatedSpectrum [2] [2] [d, d]) (fun t => Makes (Make.probability 1 [2] [2] xs2 ys2) (fun p =>
    Makes (Make.partialDistribution15 p t) (fun a => Makes (Make.mf15 102 92235 one [a, a]) (fun s => decide (SeqInts Make.Partial15Ints s.data) && readBack .mf15 s))))) = true := by decide +kernel
example : Makes (SubshellData.make 1 one 2 [3, 4] [0, 5] (dr [1, 2]) (dr [3, 4])) (fun l => Makes (Make.mf28 533 92000 one [l, l]) (fun s =>
    decide (SeqInts LIST.Ints s.data) && readBack .mf28 s)) = true := by decide +kernel

end ENDFtk.Props

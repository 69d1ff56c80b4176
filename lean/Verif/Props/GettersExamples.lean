import Verif.Props.Getters9
import Verif.DiscoInstance
/-
  C48, concrete components: each constructor accepts a non-trivial case (so the hypotheses `make ... = .ok l` are met), and the getters return the given arrays.
-/
set_option linter.unusedVariables false
set_option maxRecDepth 100000
namespace ENDFtk.Props
attribute [local instance] concDisco

/-- the constructed component satisfies `P` -/
def Makes {α : Type} (e : Except Err α) (P : α → Bool) : Bool := match e with
  | .ok a => P a
  | .error _ => false

def eqE {α : Type} [DecidableEq α] (e : Except Err α) (x : α) : Bool := match e with
  | .ok a => decide (a = x)
  | .error _ => false

def isUb {α : Type} (e : Except Err α) : Bool := match e with
  | .error .ub => true
  | _ => false

def dr (ns : List Int) : List DecReal := ns.map Conc.ofInt
def one : DecReal := Conc.ofInt 1

example : Makes (DecayConstants.make one (dr [1, 2, 3]) (dr [4, 5, 6])) (fun l => eqE (DecayConstants.decayConstants l) (dr [1, 2, 3])) = true := by decide +kernel
example : Makes (BreitWignerLValue.make one one 2 false (dr [1, 2]) (dr [3, 4]) (dr [5, 6]) (dr [7, 8]) (dr [9, 10]) (dr [11, 12]))
    (fun l => eqE (ResolvedLValue.col 2 l) (dr [5, 6])) = true := by decide +kernel
example : Makes (ReichMooreLValue.make one one 2 (dr [1, 2]) (dr [3, 4]) (dr [5, 6]) (dr [7, 8]) (dr [9, 10]) (dr [11, 12]))
    (fun l => eqE (ResolvedLValue.col 5 l) (dr [11, 12])) = true := by decide +kernel
example : Makes (UnresolvedALValue.make one 1 (dr [1, 2]) (dr [3, 4]) [5, 6] (dr [7, 8]) (dr [9, 10])) (fun l => eqE (UnresolvedALValue.col 1 l) (dr [1, 2])) = true := by decide +kernel
example : Makes (UnresolvedBJValue.make 1 one one 1 2 one one (dr [1, 2, 3])) (fun l => decide (l.data.length = 9)) = true := by decide +kernel
example : Makes (UnresolvedCJValue.make one 1 2 3 4 2 (dr [1, 2]) (dr [3, 4]) (dr [5, 6]) (dr [7, 8]) (dr [9, 10]) (dr [11, 12]))
    (fun l => eqE (UnresolvedCJValue.col 0 l) (dr [1, 2])) = true := by decide +kernel
example : Makes (ParticlePairs.make (dr [1, 2]) (dr [3, 4]) (dr [5, 6]) (dr [7, 8]) (dr [9, 10]) (dr [11, 12]) (dr [13, 14]) (dr [15, 16]) (dr [17, 18]) [1, 0] [0, 1] [2, 102])
    (fun l => decide (l.data.length = 24)) = true := by decide +kernel
example : Makes (ResonanceChannels.make one one [1, 2] [0, 1] (dr [3, 4]) (dr [5, 6]) (dr [7, 8]) (dr [9, 10]) 0 0) (fun l => decide (l.data.length = 12)) = true := by
  decide +kernel
example : Makes (ResonanceParameters.make (dr [1, 2]) [dr [3, 4, 5], dr [6, 7, 8]]) (fun l => decide (l.data.length = 12)) = true := by decide +kernel
example : Makes (ResonanceParameters.make (dr [1, 2]) [dr [3, 4, 5, 6, 7, 8], dr [6, 7, 8, 9, 10, 11]]) (fun l => decide (l.data.length = 24)) = true := by decide +kernel
example : Makes (DilutionTables.make one (dr [10, 1]) (dr [1, 2]) [dr [3, 4], dr [5, 6]] [dr [3, 4], dr [5, 6]] [dr [3, 4], dr [5, 6]] [dr [3, 4], dr [5, 6]] [dr [3, 4], dr [5, 6]])
    (fun l => decide (l.data.length = 24)) = true := by decide +kernel
example : Makes (PolynomialComponents.make [(one, one), (one, one)] [(one, one), (one, one)] [(one, one), (one, one)] [(one, one), (one, one)] [(one, one), (one, one)]
    [(one, one), (one, one)] [(one, one), (one, one)] [(one, one), (one, one)] [(one, one), (one, one)]) (fun l => decide (l.data.length = 36)) = true := by decide +kernel
/-- energies of the continuum may only be unsorted below ND -/
example : Makes (ContinuumData.makeLegendre one 1 1 (dr [5, 1, 2]) [dr [1, 2], dr [3, 4], dr [5, 6]]) (fun l => eqE (ContinuumData.energies l) (dr [5, 1, 2])) = true ∧
    Makes (ContinuumData.makeLegendre one 0 1 (dr [5, 1, 2]) [dr [1, 2], dr [3, 4], dr [5, 6]]) (fun l => true) = false := by decide +kernel
example : Makes (ContinuumData.makeKalbach3 one 0 [(one, one, one), (Conc.ofInt 2, one, one)]) (fun l => eqE (ContinuumData.energies l) (dr [1, 2])) = true := by decide +kernel
example : Makes (ContinuumData.makeKalbach4 one 0 [(one, one, one, one), (Conc.ofInt 2, one, one, one)]) (fun l => eqE (ContinuumData.energies l) (dr [1, 2])) = true := by decide +kernel
example : Makes (ContinuumData.makeTabulated 12 one 0 4 (dr [1, 2]) (dr [3, 4]) [dr [-1, 1], dr [-1, 1]] [dr [5, 6], dr [7, 8]])
    (fun l => eqE (ContinuumData.cosines l) [dr [-1, 1], dr [-1, 1]] && eqE (ContinuumData.probabilities l) [dr [5, 6], dr [7, 8]]) = true := by decide +kernel
example : Makes (TwoBodyData.makeTabulated one 12 (dr [-1, 1]) (dr [2, 3])) (fun l => true) = true := by decide +kernel
example : Makes (ChargedData.makeAmplitude one 1 (dr [1, 2, 3]) (dr [4, 5]) (dr [6, 7])) (fun l => true) = true := by decide +kernel
example : Makes (ChargedData.makeInterference one 14 (dr [-1, 1]) (dr [2, 3])) (fun l => true) = true := by decide +kernel
example : Makes (ScatteringLawConstants.make 0 1 one one (dr [1, 2]) (dr [3, 4]) [1, 2] [0]) (fun l => decide (l.data.length = 12)) = true := by decide +kernel
example : Makes (ElementInformation.make 1 [1001, 1002] [0, 0] (dr [1, 2]) (dr [3, 4]) (dr [5, 6])) (fun l => decide (l.data.length = 12)) = true := by decide +kernel
example : Makes (FissionYieldData.make [56140, 54135] [0, 1] [(one, one), (one, one)] one 2)
    (fun l => decide (l.data.length = 8)) = true := by decide +kernel
example : Makes (AverageDecayEnergies.make (one, one) [(one, one), (one, one), (one, one)]) (fun l => decide (l.data.length = 6)) = true := by decide +kernel
example : Makes (TransitionProbabilities.make2 one (dr [1, 2]) (dr [3, 4])) (fun l => eqE (TransitionProbabilities.energies l) (dr [1, 2])) = true := by decide +kernel
example : Makes (TransitionProbabilities.make3 one (dr [1, 2]) (dr [3, 4]) (dr [5, 6])) (fun l => eqE (TransitionProbabilities.conditionalProbabilities l) (dr [5, 6])) = true := by
  decide +kernel
example : Makes (SubshellData.make 1 one 2 [3, 4] [0, 5] (dr [1, 2]) (dr [3, 4])) (fun l => eqE (SubshellData.transitionEnergies l) (dr [1, 2])) = true := by decide +kernel
example : Makes (CovariancePairs.make2 1 (dr [1, 2, 3]) (dr [4, 5, 6])) (fun l => eqE (CovariancePairs.firstArrayFValues l) (dr [4, 5, 6]) && isUb (CovariancePairs.secondArrayFValues l)) = true := by
  decide +kernel
example : Makes (CovariancePairs.make4 3 (dr [1, 2]) (dr [4, 5]) (dr [7]) (dr [8]))
    (fun l => eqE (CovariancePairs.firstArrayFValues l) (dr [4, 5]) && eqE (CovariancePairs.secondArrayFValues l) (dr [8])) = true := by decide +kernel
example : Makes (SquareMatrix.make 1 (dr [1, 2, 3]) (dr [4, 5, 6])) (fun l => eqE (SquareMatrix.values l) (dr [4, 5, 6])) = true ∧
    Makes (SquareMatrix.make 0 (dr [1, 2, 3]) (dr [4, 5, 6, 7])) (fun l => eqE (SquareMatrix.values l) (dr [4, 5, 6, 7])) = true := by decide +kernel
/-- the energy bounds 1.5 and 2.5 are returned as 1 and 2 -/
example : Makes (SquareMatrix.make35 ⟨15, -1⟩ ⟨25, -1⟩ (dr [1, 2, 3]) (dr [4, 5, 6])) (fun l => decide (SquareMatrix.lowestEnergy l = 1 ∧ SquareMatrix.highestEnergy l = 2)) = true := by
  decide +kernel
/-- the column energies 3, 4, 5 are returned together with the values -/
example : Makes (RectangularMatrix.make (dr [1, 2]) (dr [3, 4, 5]) (dr [6, 7]))
    (fun l => eqE (RectangularMatrix.columnEnergies l) (dr [3, 4, 5, 6, 7]) && eqE (RectangularMatrix.values l) (dr [6, 7])) = true := by decide +kernel
example : Makes (DerivedRedundant.make one one (dr [1, 1]) [16, 17]) (fun d => eqE (DerivedRedundant.reactions d) (dr [16, 17])) = true := by decide +kernel
/-- LTY 7 is accepted -/
example : Makes (DerivedRatio.make 7 one one 9228 18 3 0 (dr [1, 2]) (dr [3, 4])) (fun d => eqE (DerivedRatio.weights d) (dr [3, 4])) = true := by decide +kernel

example : Makes (DecayModes.make one one [⟨one, one, (one, one), (one, one)⟩, ⟨one, one, (one, one), (one, one)⟩]) (fun l => decide (l.data.length = 12)) = true := by decide +kernel

end ENDFtk.Props

import Verif.Props.Written3
import Verif.Props.GettersExamples
/-
  C68, concrete records: the constructors accept the arrays and the record is the one of the format (so the hypotheses of the theorems are met).
-/
set_option linter.unusedVariables false
set_option maxRecDepth 100000
namespace ENDFtk.Props.WrittenExamples
open ENDFtk ENDFtk.Props
attribute [local instance] concDisco

def z : DecReal := Conc.ofInt 0

/-- the constructor gives exactly this record -/
def Gives (e : Except Err LIST) (c1 c2 : DecReal) (l1 l2 n2 : Int) (data : List DecReal) : Bool :=
  Makes e (fun l => decide (l = ⟨c1, c2, l1, l2, n2, data⟩))

example : Gives (DecayConstants.make one (dr [1, 2, 3]) (dr [4, 5, 6])) z one 0 0 0 (dr [1, 4, 2, 5, 3, 6]) = true := by decide +kernel
example : Gives (PolynomialComponents.make [(one, z), (z, one)] [(one, z), (z, one)] [(one, z), (z, one)] [(one, z), (z, one)] [(one, z), (z, one)]
    [(one, z), (z, one)] [(one, z), (z, one)] [(one, z), (z, one)] [(one, z), (z, one)]) z z 0 1 18
    (dr [1, 0, 1, 0, 1, 0, 1, 0, 1, 0, 1, 0, 1, 0, 1, 0, 1, 0, 0, 1, 0, 1, 0, 1, 0, 1, 0, 1, 0, 1, 0, 1, 0, 1, 0, 1]) = true := by decide +kernel
example : Gives (BreitWignerLValue.make one one 2 true (dr [1, 2]) (dr [3, 4]) (dr [5, 6]) (dr [7, 8]) (dr [9, 10]) (dr [11, 12])) one one 2 1 2
    (dr [1, 3, 5, 7, 9, 11, 2, 4, 6, 8, 10, 12]) = true := by decide +kernel
example : Gives (ReichMooreLValue.make one one 2 (dr [1, 2]) (dr [3, 4]) (dr [5, 6]) (dr [7, 8]) (dr [9, 10]) (dr [11, 12])) one one 2 0 2
    (dr [1, 3, 5, 7, 9, 11, 2, 4, 6, 8, 10, 12]) = true := by decide +kernel
example : Gives (UnresolvedALValue.make one 1 (dr [1, 2]) (dr [3, 4]) [1, 2] (dr [5, 6]) (dr [7, 8])) one z 1 0 2
    (dr [3, 1, 1, 5, 7, 0, 4, 2, 2, 6, 8, 0]) = true := by decide +kernel
example : Gives (ParticlePairs.make (dr [1]) (dr [2]) (dr [3]) (dr [4]) (dr [5]) (dr [6]) (dr [7]) (dr [8]) (dr [9]) [10] [11] [12]) z z 1 0 2
    (dr [1, 2, 3, 4, 5, 6, 9, 10, 11, 12, 7, 8]) = true := by decide +kernel
example : Gives (ResonanceParameters.make (dr [1, 2]) [dr [3, 4], dr [5, 6]]) z z 0 2 2 (dr [1, 3, 4, 0, 0, 0, 2, 5, 6, 0, 0, 0]) = true := by decide +kernel
example : Gives (ResonanceParameters.make (dr [1]) [dr [3, 4, 5, 6, 7, 8]]) z z 0 1 2 (dr [1, 3, 4, 5, 6, 7, 8, 0, 0, 0, 0, 0]) = true := by decide +kernel
example : Gives (DilutionTables.make one (dr [1, 2]) (dr [3]) [dr [4, 5]] [dr [6, 7]] [dr [8, 9]] [dr [10, 11]] [dr [12, 13]]) one z 5 2 1
    (dr [1, 2, 3, 4, 5, 6, 7, 8, 9, 10, 11, 12, 13]) = true := by decide +kernel
example : Gives (ContinuumData.makeLegendre one 0 1 (dr [1, 2]) [dr [3, 4], dr [5, 6]]) z one 0 1 2 (dr [1, 3, 4, 2, 5, 6]) = true := by decide +kernel
example : Gives (ContinuumData.makeTabulated 12 one 0 4 (dr [1]) (dr [2]) [dr [0, 1]] [dr [5, 6]]) z one 0 4 1 (dr [1, 2, 0, 5, 1, 6]) = true := by
  decide +kernel
example : Gives (ChargedData.makeAmplitude one 1 (dr [1, 2]) (dr [3, 4]) (dr [5, 6])) z one 1 0 1 (dr [1, 2, 3, 5, 4, 6]) = true := by decide +kernel
example : Gives (ScatteringLawConstants.make 0 1 one one (dr [1, 2]) (dr [3, 4]) [5, 6] [1]) z z 0 0 1
    (dr [1, 1, 3, 1, 0, 5, 1, 2, 4, 0, 0, 6]) = true := by decide +kernel
example : Gives (CovariancePairs.make4 3 (dr [1, 2]) (dr [3, 4]) (dr [5]) (dr [6])) z z 1 3 3 (dr [1, 3, 2, 4, 5, 6]) = true := by decide +kernel
example : Gives (RectangularMatrix.make (dr [1, 2]) (dr [3, 4, 5]) (dr [6, 7])) z z 0 6 2 (dr [1, 2, 3, 4, 5, 6, 7]) = true := by decide +kernel
example : Gives (TriangularMatrix.make 1 (dr [1, 2, 3])) z z 1 0 2 (dr [1, 2, 3]) = true := by decide +kernel
example : Gives (ShortRangeParameters.make (dr [1, 2]) [dr [3, 4], dr [5, 6]]) z z 2 2 2 (dr [1, 3, 4, 0, 0, 0, 2, 5, 6, 0, 0, 0]) = true := by decide +kernel
example : Gives (CompactReichMooreUncertainties.make one one (dr [1]) (dr [2]) (dr [3]) (dr [4]) (dr [5]) (dr [6]) (dr [7]) (dr [8]) (dr [9]) (dr [10])
    (dr [11])) one one 0 0 1 (dr [1, 2, 3, 4, 5, 6, 7, 0, 8, 9, 10, 11]) = true := by decide +kernel
example : Gives (CompactParameters.make (dr [1]) [dr [2, 3]] (dr [4]) [dr [5, 6]]) z z 0 1 1 (dr [1, 2, 3, 0, 0, 0, 4, 5, 6, 0, 0, 0]) = true := by
  decide +kernel
example : (⟨z, one, 0, 0, 0, dr [1, 4, 2, 5]⟩ : LIST).Ok ∧ (⟨125, 1, 455⟩ : Nums).Fit := by decide +kernel

end ENDFtk.Props.WrittenExamples

import Verif.Props.CovGetters5
import Verif.Props.GettersExamples
import Verif.Props.LayoutExamples
/-
  C60, concrete components: each constructor accepts a non-trivial case, a non-trivial record meets the hypotheses of each layout theorem; sizes that are not verified.
-/
set_option linter.unusedVariables false
set_option maxRecDepth 100000
namespace ENDFtk.Props
attribute [local instance] concDisco

/-- two values -/
def d2 (n : Int) : List DecReal := dr [n, n + 1]

/-! ### the constructors -/

example : Makes (LimitedBreitWignerLValue.make one 1 (d2 1) (d2 3) (d2 5) (d2 7) (d2 9) (d2 11) (d2 13) (d2 15) (d2 17) (d2 19) (d2 21) (d2 23) (d2 25) (d2 27)
    (d2 29) (d2 31) (d2 33)) (fun l => decide (l.data.length = 36) && eqE (LimitedBreitWignerLValue.gammaWidthVariances l) (d2 19) && decide l.Fits) = true := by decide +kernel
example : Makes (ShortRangeBreitWignerBlock.make 2 (d2 1) (d2 3) (d2 5) (d2 7) (d2 9) (d2 11) (dr [1, 2, 3, 4, 5, 6, 7, 8, 9, 10]))
    (fun l => decide (l.data.length = 22) && eqE (ShortRangeBlock.covarianceMatrix l) (dr [1, 2, 3, 4, 5, 6, 7, 8, 9, 10]) && decide l.Fits) = true := by decide +kernel
example : Makes (ShortRangeReichMooreBlock.make 1 (d2 1) (d2 3) (d2 5) (d2 7) (d2 9) (d2 11) (dr [1, 2, 3]))
    (fun l => decide (l.data.length = 15) && eqE (ShortRangeReichMooreBlock.secondFissionWidths l) (d2 11) && decide l.Fits) = true := by decide +kernel
example : Makes (TriangularMatrix.make 3 (dr [1, 2, 3, 4, 5, 6])) (fun l => decide (TriangularMatrix.covarianceMatrixOrder l = 3) && decide l.Fits) = true := by decide +kernel
example : ∃ k ≥ 1, 2 * (dr [1, 2, 3, 4, 5, 6]).length = k * (k + 1) := ⟨3, by decide, by decide +kernel⟩
example : ¬∃ k ≥ 1, 2 * (dr [1, 2, 3, 4]).length = k * (k + 1) := by
  rintro ⟨k, _, h⟩
  have h : 8 = k * (k + 1) := h
  have : k < 3 := by
    refine Nat.lt_of_not_le fun h' => ?_
    have := Nat.mul_le_mul h' (show 4 ≤ k + 1 by omega)
    omega
  rcases k with _ | _ | _ | k
  all_goals omega
example : Makes (ShortRangeParameters.make (d2 1) [dr [3, 4, 5], dr [6, 7, 8]])
    (fun l => decide (l.data.length = 12) && eqE (ShortRangeParameters.resonanceParameters l) [dr [3, 4, 5], dr [6, 7, 8]] && decide l.Fits) = true := by decide +kernel
example : Makes (CompactBreitWignerUncertainties.make one one true (d2 1) (d2 3) (d2 5) (d2 7) (d2 9) (d2 11) (d2 13) (d2 15) (d2 17) (d2 19))
    (fun l => decide (l.data.length = 24) && eqE (CompactBreitWignerUncertainties.gammaWidthUncertainties l) (d2 17) && decide l.Fits) = true := by decide +kernel
example : Makes (CompactReichMooreUncertainties.make one one (d2 1) (d2 3) (d2 5) (d2 7) (d2 9) (d2 11) (d2 13) (d2 15) (d2 17) (d2 19) (d2 21))
    (fun l => decide (l.data.length = 24) && eqE (CompactReichMooreUncertainties.neutronWidthUncertainties l) (d2 15) && decide l.Fits) = true := by decide +kernel
example : Makes (CompactParticlePairs.make 3 (d2 1) (d2 3) (d2 5) (d2 7) (d2 9) (d2 11) (d2 13) (d2 15) (d2 17) [1, 0] [0, 1] [2, 102])
    (fun l => decide (l.data.length = 24) && decide (CompactParticlePairs.numberSpinGroups l = 3) && decide l.Fits) = true := by decide +kernel
example : Makes (CompactParameters.make (d2 1) [dr [3, 4], dr [5, 6]] (d2 7) [dr [8, 9], dr [10, 11]])
    (fun l => decide (l.data.length = 24) && eqE (CompactParameters.resonanceEnergyUncertainties l) (d2 7) && decide l.Fits) = true := by decide +kernel
example : Makes (RadiusUncertainties.make one (d2 3)) (fun l => eqE (RadiusUncertainties.uncertainties l) (d2 3)) = true := by decide +kernel
example : Makes (UnresolvedCovLValue.make one 1 (d2 1) (d2 3) (d2 5) (d2 7) (d2 9) (d2 11))
    (fun l => decide (l.data.length = 12) && eqE (UnresolvedCovLValue.spinValues l) (d2 1) && decide l.Fits) = true := by decide +kernel

/-! ### records that were read -/

example : limitedLValueC.Valid (rec 1 0 2 36) ∧ Small (rec 1 0 2 36) := ⟨⟨fits_of (by decide +kernel), by show limitedLValueOk _; decide +kernel⟩, by unfold Small; decide +kernel⟩
example : shortRangeC.Valid (rec 2 0 2 22) ∧ Small (rec 2 0 2 22) := ⟨⟨fits_of (by decide +kernel), by show shortRangeOk _; decide +kernel⟩, by unfold Small; decide +kernel⟩
example : triangleC.Valid (rec 2 0 3 6) ∧ Small (rec 2 0 3 6) := ⟨⟨fits_of (by decide +kernel), by show triangleOk _; decide +kernel⟩, by unfold Small; decide +kernel⟩
example : compactUncertaintiesC.Valid (rec 0 1 2 24) ∧ Small (rec 0 1 2 24) := ⟨⟨fits_of (by decide +kernel), by show compactOk _; decide +kernel⟩, by unfold Small; decide +kernel⟩
example : lvalueC.Valid (rec 1 0 2 12) ∧ Small (rec 1 0 2 12) := ⟨⟨fits_of (by decide +kernel), by show lvalueOk _; decide +kernel⟩, by unfold Small; decide +kernel⟩
example : (rec 3 2 2 12).data.length = 6 * 1 * 2 ∧ (rec 3 2 2 12).l2 = (2 : Nat) ∧ (rec 3 2 2 12).l1 = (3 : Nat) := by decide +kernel
example : (rec 0 2 4 48).data.length = 12 * 2 * 2 ∧ (rec 0 2 4 48).l2 = (2 : Nat) := by decide +kernel

/-! ### sizes that are not verified -/

/-- DJDF shorter than the other arrays: undefined behaviour; longer: the last values are dropped. -/
theorem C60_limited_djdf :
    isUb (LimitedBreitWignerLValue.make one 1 (d2 1) (d2 3) (d2 5) (d2 7) (d2 9) (d2 11) (d2 13) (d2 15) (d2 17) (d2 19) (d2 21) (d2 23) (d2 25) (d2 27) (d2 29)
      (dr [31]) (d2 33)) = true ∧
    Makes (LimitedBreitWignerLValue.make one 1 (d2 1) (d2 3) (d2 5) (d2 7) (d2 9) (d2 11) (d2 13) (d2 15) (d2 17) (d2 19) (d2 21) (d2 23) (d2 25) (d2 27) (d2 29)
      (dr [31, 32, 33]) (d2 33)) (fun l => eqE (LimitedBreitWignerLValue.spinAndFissionWidthCovariances l) (dr [31, 32])) = true := by decide +kernel

/-- Arrays of uncertainties of other sizes than the arrays of parameters: accepted, and the getters return values of the wrong kind (here a parameter as the
    second energy and one of the uncertainties of the parameters as that of the second energy). -/
theorem C60_compactParameters_sizes :
    Makes (CompactParameters.make (d2 1) [dr [3], dr [4]] (d2 5) [dr [], dr [7, 8]]) (fun l => eqE (CompactParameters.resonanceEnergies l) (dr [1, 4]) &&
      eqE (CompactParameters.resonanceEnergyUncertainties l) (dr [5, 7])) = true := by decide +kernel

/-- L1 larger than the number of values of a resonance, no resonances, no values: accepted when it is read, undefined behaviour in the getters. -/
theorem C60_unverified :
    (rmlParametersC.Valid (rec 6 2 2 12) ∧ isUb (ShortRangeParameters.resonanceParameters (rec 6 2 2 12)) = true) ∧
    (rmlParametersC.Valid (rec 2 0 2 12) ∧ isUb (ShortRangeParameters.resonanceEnergies (rec 2 0 2 12)) = true) ∧
    ((listC.checked compactRmlParametersOk).Valid (rec 0 0 2 12) ∧ isUb (CompactParameters.resonanceEnergies (rec 0 0 2 12)) = true) ∧
    (dapListC.Valid (rec 0 0 0 0) ∧ isUb (RadiusUncertainties.defaultUncertainty (rec 0 0 0 0)) = true) := by
  refine ⟨⟨⟨fits_of (by decide +kernel), ?_⟩, by decide +kernel⟩, ⟨⟨fits_of (by decide +kernel), ?_⟩, by decide +kernel⟩, ⟨⟨fits_of (by decide +kernel), ?_⟩, by decide +kernel⟩,
    fits_of (by decide +kernel), by decide +kernel⟩
  · show rmlParametersOk _; decide +kernel
  · show rmlParametersOk _; decide +kernel
  · show compactRmlParametersOk _; decide +kernel

end ENDFtk.Props

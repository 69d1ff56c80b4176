import Verif.Props.RowViews
import Verif.Props.GettersExamples
/-
  C70, concrete records: the hypotheses are met; a record with more transitions than it announces.
-/
set_option linter.unusedVariables false
set_option maxRecDepth 100000
namespace ENDFtk.Props.RowViewsExamples
open ENDFtk ENDFtk.Props
attribute [local instance] concDisco

theorem fits_of {l : LIST} (h : decide (fits 11 l.l1 ∧ fits 11 l.l2 ∧ fits 11 l.npl ∧ fits 11 l.n2) = true) : listC.Valid l := by
  show l.meta'.Fits
  exact of_decide_eq_true h

def yieldsRec : LIST := ⟨one, Conc.ofInt 0, 2, 0, 2, dr [92235, 0, 3, 4, 92236, 1, 5, 6]⟩
example : yieldsC.Valid yieldsRec ∧ Small yieldsRec := ⟨⟨fits_of (by decide +kernel), by show yieldsOk _; decide +kernel⟩, by unfold Small; decide +kernel⟩
example : ∃ ps, FissionYieldData.fissionProducts yieldsRec = .ok ps ∧ ps = [dr [92235, 0, 3, 4], dr [92236, 1, 5, 6]] ∧
    ps.map FissionYieldData.FissionProduct.fissionYield = [.ok (Conc.ofInt 3, Conc.ofInt 4), .ok (Conc.ofInt 5, Conc.ofInt 6)] ∧
    ps.map FissionYieldData.FissionProduct.fissionProductIdentifier = [.ok 92235, .ok 92236] := ⟨_, rfl, by decide +kernel, by decide +kernel, by decide +kernel⟩
example : IntRange [92235, 92236] ∧ IntRange [0, 1] := by unfold IntRange; decide

def subshellRec : LIST := ⟨one, Conc.ofInt 0, 0, 0, 1, dr [3, 2, 0, 0, 0, 0, 7, 8, 9, 10, 0, 0]⟩
example : subshellC.Valid subshellRec ∧ Small subshellRec ∧ 6 ≤ subshellRec.data.length :=
  ⟨⟨fits_of (by decide +kernel), by show subshellOk _; decide +kernel⟩, by unfold Small; decide +kernel, by decide +kernel⟩
example : SubshellData.transitions subshellRec = .ok [dr [7, 8, 9, 10, 0, 0]] := by decide +kernel

def jRec : LIST := ⟨one, Conc.ofInt 0, 1, 0, 2, dr [1, 2, 3, 4, 5, 6, 7, 8, 9, 10, 11, 12]⟩
example : (listC.checked lvalueAOk).Valid jRec ∧ Small jRec :=
  ⟨⟨fits_of (by decide +kernel), by show lvalueAOk _; decide +kernel⟩, by unfold Small; decide +kernel⟩

def transRec : LIST := ⟨one, Conc.ofInt 0, 0, 0, 2, dr [1, 2, 3, 4, 5, 6]⟩
example : transRec.data.length = (2 + 1) * 2 ∧ transRec.n2 = ((2 : Nat) : Int) := by decide +kernel

/-- NT = 2 and NPL = 5: accepted as LG = 1. -/
def raggedRec : LIST := ⟨one, Conc.ofInt 0, 0, 0, 2, dr [1, 2, 3, 4, 5]⟩
example : transitionC.Valid raggedRec ∧ Small raggedRec ∧ 0 < raggedRec.n2 ∧ (raggedRec.data.length : Int) % raggedRec.n2 ≠ 0 :=
  ⟨⟨fits_of (by decide +kernel), by show transitionCheck _ = _; decide +kernel⟩, by unfold Small; decide +kernel, by decide +kernel, by decide +kernel⟩

/-- There are three transitions, the last without a probability: reading it is undefined. -/
theorem C70_ragged : TransitionProbabilities.numberTransitions raggedRec = 2 ∧ TransitionProbabilities.energies raggedRec = .ok (dr [1, 3, 5]) ∧
    TransitionProbabilities.transitionProbabilities raggedRec = .error .ub := ⟨rfl, by decide +kernel, by decide +kernel⟩

end ENDFtk.Props.RowViewsExamples

import Verif.Props.Layout3
import Verif.DiscoInstance
/-
  C59, concrete components: a non-trivial record meets the hypotheses of each theorem.
-/
set_option linter.unusedVariables false
set_option maxRecDepth 100000
namespace ENDFtk.Props
attribute [local instance] concDisco

/-- a record with the values 1, 2, ..., n -/
def rec (l1 l2 n2 : Int) (n : Nat) : LIST := ⟨Conc.ofInt 1, Conc.ofInt 2, l1, l2, n2, (List.range n).map (fun (i : Nat) => Conc.ofInt (i + 1))⟩

theorem fits_of {l : LIST} (h : decide (fits 11 l.l1 ∧ fits 11 l.l2 ∧ fits 11 l.npl ∧ fits 11 l.n2) = true) : listC.Valid l := by
  show l.meta'.Fits
  exact of_decide_eq_true h

example : lvalueC.Valid (rec 1 0 2 12) ∧ Small (rec 1 0 2 12) := ⟨⟨fits_of (by decide +kernel), by show lvalueOk _; decide +kernel⟩, by unfold Small; decide +kernel⟩
example : (listC.checked lvalueAOk).Valid (rec 1 0 2 12) ∧ Small (rec 1 0 2 12) :=
  ⟨⟨fits_of (by decide +kernel), by show lvalueAOk _; decide +kernel⟩, by unfold Small; decide +kernel⟩
example : jvalueC.Valid (rec 2 0 2 18) ∧ Small (rec 2 0 2 18) := ⟨⟨fits_of (by decide +kernel), by show jvalueCheck _ = .ok (); rfl⟩, by unfold Small; decide +kernel⟩
example : jvalueBC.Valid (rec 1 2 0 9) := ⟨fits_of (by decide +kernel), by show jvalueBCheck _ = .ok (); rfl⟩
example : particlePairsC.Valid (rec 2 0 4 24) ∧ Small (rec 2 0 4 24) := ⟨⟨fits_of (by decide +kernel), by show particlePairsOk _; decide +kernel⟩, by unfold Small; decide +kernel⟩
example : channelsC.Valid (rec 0 0 2 12) ∧ Small (rec 0 0 2 12) := ⟨⟨fits_of (by decide +kernel), by show channelsOk _; decide +kernel⟩, by unfold Small; decide +kernel⟩
example : (rec 0 2 2 24).data.length = 6 * 2 * 2 ∧ (rec 0 2 2 24).l2 = (2 : Nat) := by decide +kernel
example : dilutionC.Valid (rec 5 2 2 24) ∧ Small (rec 5 2 2 24) ∧ toInt32 (rec 5 2 2 24).l1 = 5 :=
  ⟨⟨fits_of (by decide +kernel), by show dilutionSizeOk _; unfold dilutionSizeOk; decide +kernel⟩, by unfold Small; decide +kernel, by decide +kernel⟩
example : decayC.Valid (rec 0 0 0 6) ∧ Small (rec 0 0 0 6) :=
  ⟨⟨fits_of (by decide +kernel), by show ¬(asInt _ = 0 ∨ asInt _ % 2 ≠ 0); decide +kernel⟩, by unfold Small; decide +kernel⟩
example : Release.Valid (.poly (rec 0 1 2 36)) ∧ Small (rec 0 1 2 36) := ⟨⟨fits_of (by decide +kernel), by decide +kernel⟩, by unfold Small; decide +kernel⟩
example : (rec 0 1 3 9).data.length = (2 + 1) * 3 ∧ (rec 0 1 3 9).l2 = (1 : Nat) := by decide +kernel
example : (rec 0 4 2 12).data.length = (2 + 2 * 2) * 2 ∧ (rec 0 4 2 12).l2 = (2 * 2 : Nat) := by decide +kernel
example : (rec 0 0 4 12).data.length = 4 * 3 ∧ (rec 0 0 4 12).n2 = (4 : Nat) := by decide +kernel
example : (listC.checked twoBodyOk).Valid (rec 12 0 2 4) ∧ Small (rec 12 0 2 4) := ⟨⟨fits_of (by decide +kernel), by show twoBodyOk _; unfold twoBodyOk; decide +kernel⟩, by unfold Small; decide +kernel⟩
example : (listC.checked chargedOk).Valid (rec 1 0 2 11) ∧ Small (rec 1 0 2 11) ∧ (rec 1 0 2 11).n2 = toInt32 (rec 1 0 2 11).n2 :=
  ⟨⟨fits_of (by decide +kernel), by show chargedOk _; unfold chargedOk; decide +kernel⟩, by unfold Small; decide +kernel, by decide +kernel⟩
example : (listC.checked chargedOk).Valid (rec 12 0 2 4) ∧ Small (rec 12 0 2 4) :=
  ⟨⟨fits_of (by decide +kernel), by show chargedOk _; unfold chargedOk; decide +kernel⟩, by unfold Small; decide +kernel⟩
example : constantsC.Valid (rec 0 0 1 12) ∧ Small (rec 0 0 1 12) := ⟨⟨fits_of (by decide +kernel), by
  show constantsCheck _ = .ok ()
  unfold constantsCheck
  rw [if_neg (by decide +kernel), if_neg (by decide +kernel), if_neg (by decide +kernel), if_neg (by decide +kernel), if_neg (by decide +kernel)]⟩, by
    unfold Small; decide +kernel⟩
example : elementC.Valid (rec 1 0 2 12) ∧ Small (rec 1 0 2 12) := ⟨⟨fits_of (by decide +kernel), by show elementOk _; decide +kernel⟩, by unfold Small; decide +kernel⟩
example : yieldsC.Valid (rec 2 0 3 12) ∧ Small (rec 2 0 3 12) := ⟨⟨fits_of (by decide +kernel), by show yieldsOk _; decide +kernel⟩, by unfold Small; decide +kernel⟩
example : (rec 0 0 3 6).data.length = 2 * 3 ∧ (rec 0 0 3 18).data.length = 6 * 3 := by decide +kernel
example : discreteC.Valid (rec 0 0 0 12) ∧ Small (rec 0 0 0 12) ∧ discreteC.Valid (rec 0 0 0 6) ∧ discreteC.Valid (rec 0 0 0 4) :=
  ⟨⟨fits_of (by decide +kernel), by show toInt32 _ = 4 ∨ toInt32 _ = 6 ∨ toInt32 _ = 12; decide +kernel⟩, by unfold Small; decide +kernel,
    ⟨fits_of (by decide +kernel), by show toInt32 _ = 4 ∨ toInt32 _ = 6 ∨ toInt32 _ = 12; decide +kernel⟩,
    ⟨fits_of (by decide +kernel), by show toInt32 _ = 4 ∨ toInt32 _ = 6 ∨ toInt32 _ = 12; decide +kernel⟩⟩
example : (rec 0 0 3 9).data.length = (2 + 1) * 3 ∧ (rec 0 0 3 6).data.length = (1 + 1) * 3 ∧ (rec 0 0 3 9).n2 = (3 : Nat) := by decide +kernel
example : subshellC.Valid (rec 0 0 2 18) ∧ Small (rec 0 0 2 18) := ⟨⟨fits_of (by decide +kernel), by show subshellOk _; decide +kernel⟩, by unfold Small; decide +kernel⟩
example : (rec 1 3 5 10).data.length = 2 * (4 + 1) ∧ (rec 1 3 5 10).l1 = (1 : Nat) ∧ IsInt32 (rec 1 3 5 10).l1 := by decide +kernel
example : (rec 1 5 3 6).n2 = (3 : Nat) ∧ 3 ≤ (rec 1 5 3 6).data.length := by decide +kernel
example : (rec 0 6 2 7).data.length = 2 + 3 + (2 - 1) * (3 - 1) ∧ (rec 0 6 2 7).n2 = (2 : Nat) := by decide +kernel
example : (rec 0 0 2 4).data.length = 2 * 2 ∧ (rec 9228 18 3 6).data.length = 2 + 2 * 2 := by decide +kernel

end ENDFtk.Props

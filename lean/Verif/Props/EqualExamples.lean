import Verif.Props.Equal
import Verif.Props.RecordsExamples
import Verif.Rounded.Instance
/-
  C69, concrete records: the hypotheses are met, and each compared field matters.
-/
set_option linter.unusedVariables false
set_option maxRecDepth 100000
namespace ENDFtk.Props.EqualExamples
open ENDFtk ENDFtk.Props

section
attribute [local instance] tenths

/-- the equality of the reals of `tenths` is an equivalence -/
example : DoubleEquality :=
  ⟨fun x y h => by have h : decide (x = y) = true := h; simp at h; subst h; exact decide_eq_true rfl,
   fun x y z h g => by
     have h : decide (x = y) = true := h
     have g : decide (y = z) = true := g
     simp at h g; subst h; subst g; exact decide_eq_true rfl⟩

/-- all its numbers are `Sharp` -/
example (x : Int) : Sharp (show Dbl from x) :=
  ⟨decide_eq_true rfl, fun y h => by have h : decide (x = y) = true := h; simp at h; exact h.symm⟩

end

section
attribute [local instance] concDisco

example : exCont.equal exCont = true ∧ exLIST.equal exLIST = true ∧ exTAB2.equal exTAB2 = true ∧ exTAB1.equal exTAB1 = true := by decide +kernel
/- equal as numbers, not the same bits -/
example : exCont.equal { exCont with c2 := ⟨2330250, -4⟩ } = true := by decide +kernel
example : exCont.equal { exCont with n2 := 4 } = false ∧ exCont.equal { exCont with n1 := 4 } = false ∧ exCont.equal { exCont with c1 := ⟨1, 0⟩ } = false := by
  decide +kernel
example : exLIST.equal { exLIST with data := exLIST.data.take 7 } = false ∧ exLIST.equal { exLIST with n2 := 4 } = false ∧
    exLIST.equal { exLIST with data := exLIST.data.reverse } = false := by decide +kernel
example : exTAB2.equal { exTAB2 with bounds := [2, 5] } = false ∧ exTAB2.equal { exTAB2 with ints := [1, 4] } = false := by decide +kernel
example : exTAB1.equal { exTAB1 with x := exTAB1.y } = false ∧ exTAB1.equal { exTAB1 with y := exTAB1.x } = false := by decide +kernel
example : (⟨1, 451, 10, 0⟩ : Dir).equal ⟨1, 451, 10, 0⟩ = true ∧ (⟨1, 451, 10, 0⟩ : Dir).equalPython ⟨1, 451, 10, 1⟩ = false := by decide +kernel
example : textEqual "abc".toList "abc".toList = true ∧ notEqual textEqual "abc".toList "abc ".toList = true := by decide +kernel
/- the hypotheses of the round trip -/
example : nfCont.Ok ∧ nfCont.equal nfCont = true ∧ nfLIST.Ok ∧ nfLIST.equal nfLIST = true := by decide +kernel
/- and of the short text -/
example : ("U-235".toList).length < 66 ∧ '\n' ∉ "U-235".toList := by decide +kernel

end
end ENDFtk.Props.EqualExamples

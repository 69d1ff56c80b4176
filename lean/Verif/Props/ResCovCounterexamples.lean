import Verif.Props.ResCovExamples
/-
  Where section 32/151 does not do what one expects.
-/
set_option linter.unusedVariables false
set_option maxRecDepth 100000
namespace ENDFtk.Props
attribute [local instance] concDisco concCorr

def corr (m e : Int) : Dbl := (⟨m, e⟩ : DecReal)

deriving instance DecidableEq for CorrMatrix

/-- 0.505 in row 1, column 5 and 0.605 in row 1, column 3, in this order. -/
def unsorted : CorrMatrix := ⟨2, 10, [(1, 5, corr 505 (-3)), (1, 3, corr 605 (-3))]⟩

/-- The constructor accepts elements in any order; if a row is not sorted, elements are printed in other columns without notice: the element in column 3
    is read back in column 6. -/
theorem C56_unsorted : CorrMatrix.make 10 [1, 1] [5, 3] [corr 505 (-3), corr 605 (-3)] 2 = .ok unsorted ∧
    CorrMatrix.read ⟨9222, 32, 151⟩ ⟨unsorted.print ⟨9222, 32, 151⟩, 0⟩ =
      .ok (⟨2, 10, [(1, 5, corr 505 (-3)), (1, 6, corr 605 (-3))]⟩, ⟨[], 2⟩) := by decide +kernel

/-- With NDIGIT = 3 a matrix is printed with three columns per value and read with four. -/
def threeDigits : CorrMatrix := ⟨3, 10, [(1, 2, corr 5005 (-4)), (1, 3, corr 6005 (-4))]⟩

/-- The text that is printed for NDIGIT = 3 cannot be read back. -/
theorem C56_ndigit3 : CorrMatrix.make 10 [1, 1] [2, 3] [corr 5005 (-4), corr 6005 (-4)] 3 = .ok threeDigits ∧
    threeDigits.print ⟨9222, 32, 151⟩ = txt
      " 0.000000+0 0.000000+0          3         10          1          0922232151     \n"
      "    1    2 500600                                  922232151     \n" ∧
    CorrMatrix.read ⟨9222, 32, 151⟩ ⟨threeDigits.print ⟨9222, 32, 151⟩, 0⟩ = .error .exc := by decide +kernel

/-- Correlations of less than one unit of the last digit disappear, others are rounded: 0.009 is lost, 0.5012 becomes 0.505 with two digits. -/
theorem C56_rounding : CorrMatrix.read ⟨9222, 32, 151⟩ ⟨CorrMatrix.print (⟨2, 10, [(1, 2, corr 9 (-3)), (1, 3, corr 5012 (-4))]⟩ : CorrMatrix) ⟨9222, 32, 151⟩, 0⟩ =
    .ok (⟨2, 10, [(1, 3, corr 505 (-3))]⟩, ⟨[], 2⟩) := by decide +kernel

/-- The text of a section with one range, `flags` being LRU and LRF, `pars` the parameters. -/
def sectionText (flags pars : Text) : Text :=
  txt " 9.223500+4 2.330250+2          0          0          1          0922232151     \n"
      " 9.223500+4 1.000000+0          0          0          1          0922232151     \n" ++
  txt " 1.000000-5 2.250000+3" ++ flags ++ txt "          0          1922232151     \n" ++ pars ++
  txt "                                                                  922232  0     \n"

/-- Accepted, and `P` holds for the result. -/
def AcceptedWith (s : Text) (P : Sect (List CovIsotope) → St → Bool) : Bool :=
  match mf32mt151.parse ⟨s, 0⟩ with
  | .ok (x, st) => P x st
  | .error _ => false

theorem AcceptedWith.elim {s : Text} {P : Sect (List CovIsotope) → St → Bool} (h : AcceptedWith s P = true) :
    ∃ x st, mf32mt151.parse ⟨s, 0⟩ = .ok (x, st) ∧ P x st = true := by
  unfold AcceptedWith at h
  split at h
  · rename_i x st hp; exact ⟨x, st, hp, h⟩
  · cases h

def headMF33 : Text := txt
    " 9.223500+4 2.330250+2          0          0          1          0922233151     \n"
    " 9.223500+4 1.000000+0          0          0          1          0922232151     \n"
    " 1.000000-5 2.250000+3          2          1          0          1922232151     \n"
    " 2.500000+0 9.620000-1          0          0          1          0922232151     \n"
    " 2.310377+2 0.000000+0          0          0          6          1922232151     \n"
    " 1.000000+0 2.000000+0 3.000000+0 4.000000+0 5.000000+0 0.000000+0922232151     \n"
    " 0.000000+0 0.000000+0          1          0          1          1922232151     \n"
    " 1.000000-2                                                       922232151     \n"
    "                                                                  922232  0     \n"

/-- The MF number of the HEAD line is not looked at: a section whose HEAD line has MF 33 is accepted; the counter is 10 after the 9 lines. -/
theorem C55_head_mf_ignored : ∃ x st, mf32mt151.parse ⟨headMF33, 0⟩ = .ok (x, st) ∧ st.rest = [] ∧ st.line = 10 := by
  obtain ⟨x, st, h1, h2⟩ := AcceptedWith.elim (s := headMF33) (P := fun x st => decide (st.rest = [] ∧ st.line = 10)) (by decide +kernel)
  exact ⟨x, st, h1, by simpa using h2⟩

def unresolvedLRF9 : Text := sectionText (txt "          2          9") (txt
    " 2.500000+0 9.620000-1          0          0          1          0922232151     \n"
    " 2.310377+2 0.000000+0          0          0          6          1922232151     \n"
    " 1.000000+0 2.000000+0 3.000000+0 4.000000+0 5.000000+0 0.000000+0922232151     \n"
    " 0.000000+0 0.000000+0          1          0          1          1922232151     \n"
    " 1.000000-2                                                       922232151     \n")

/-- The LRF number of an unresolved range is not checked, and is printed as 1: LRF 9 is accepted and becomes 1. -/
theorem C55_unresolved_lrf : ∃ x st, mf32mt151.parse ⟨unresolvedLRF9, 0⟩ = .ok (x, st) ∧ st.rest = [] ∧
    x.data.map (fun i => i.ranges.map (fun r => r.cont.l2)) = [[1]] := by
  obtain ⟨x, st, h1, h2⟩ := AcceptedWith.elim (s := unresolvedLRF9)
    (P := fun x st => decide (st.rest = [] ∧ x.data.map (fun i => i.ranges.map (fun r => r.cont.l2)) = [[1]])) (by decide +kernel)
  exact ⟨x, st, h1, by simpa using h2⟩

def rmlLongRange : Text := sectionText (txt "          1          7") (txt
    " 2.500000+0 9.620000-1          0          1          0          0922232151     \n"
    " 2.310377+2 0.000000+0          0          0          0          1922232151     \n"
    " 0.000000+0 0.000000+0          0          1          4          2922232151     \n"
    " 1.000000-5 1.000000-2 2.000000+7 0.000000+0                      922232151     \n")

/-- For LRF = 7 no long range covariances are allowed; the check is given LRU instead of LRF, and they are accepted. -/
theorem C55_rml_long_range : ∃ x st, mf32mt151.parse ⟨rmlLongRange, 0⟩ = .ok (x, st) ∧ st.rest = [] ∧
    x.data.map (fun i => i.ranges.map (fun r => r.parameters.type)) = [[.generalRML]] := by
  obtain ⟨x, st, h1, h2⟩ := AcceptedWith.elim (s := rmlLongRange)
    (P := fun x st => decide (st.rest = [] ∧ x.data.map (fun i => i.ranges.map (fun r => r.parameters.type)) = [[.generalRML]])) (by decide +kernel)
  exact ⟨x, st, h1, by simpa using h2⟩

def cutMatrix : Text := txt
    " 9.223500+4 2.330250+2          0          0          1          0922232151     \n"
    " 9.223500+4 1.000000+0          0          0          1          0922232151     \n"
    " 1.000000-5 2.250000+3          1          1          0          1922232151     \n"
    " 2.500000+0 9.620000-1          0          2          0          0922232151     \n"
    " 2.310377+2 0.000000+0          0          0         12          1922232151     \n"
    "-1.060000+3 3.000000+0 1.524000+0 4.000000-2 2.600000-1 2.370000-1922232151     \n"
    " 2.061000+0 0.000000+0 1.453063+0 3.999991-2 2.592466-1 2.362210-1922232151     \n"
    " 0.000000+0 0.000000+0          2         10          1          0922232151     \n"
    "    2    1"

def failure (s : Text) : Option Err :=
  match mf32mt151.parse ⟨s, 0⟩ with
  | .ok _ => none
  | .error e => some e

/-- A text that ends in the middle of a compact matrix: the reader goes past the end of the buffer. -/
theorem C55_undefined : mf32mt151.parse ⟨cutMatrix, 0⟩ = .error .ub := by
  have h : failure cutMatrix = some .ub := by decide +kernel
  unfold failure at h
  split at h
  · cases h
  · rename_i e he; rw [he]; cases h; rfl

end ENDFtk.Props

import Verif.Props.Numbers
import Verif.Props.ParsedExamples
import Verif.Props.Python
/-
  C66: examples and counterexamples.
-/
set_option linter.unusedVariables false
set_option maxRecDepth 100000
namespace ENDFtk.Props
attribute [local instance] concDisco concCorr

/-- Accepted as a file and printed as another text. -/
def FilePrintsAs (mf mat : Int) (s s' : Text) : Prop :=
  match readFileFrom mf ⟨s, 0⟩ with
  | .ok (f, _) => f.print mat = .ok s'
  | .error _ => False
instance (mf mat : Int) (s s' : Text) : Decidable (FilePrintsAs mf mat s s') := by
  unfold FilePrintsAs; split <;> exact inferInstance

/-- Accepted as a material and printed as another text. -/
def MaterialPrintsAs (s s' : Text) : Prop :=
  match readMaterialFrom ⟨s, 0⟩ with
  | .ok (m, _) => m.print = .ok s'
  | .error _ => False
instance (s s' : Text) : Decidable (MaterialPrintsAs s s') := by
  unfold MaterialPrintsAs; split <;> exact inferInstance

/-- Accepted as a tape and printed as another text. -/
def TapePrintsAs (s s' : Text) : Prop :=
  match PTape.read ⟨s, 0⟩ with
  | .ok (t, _) => t.print = .ok s'
  | .error _ => False
instance (s s' : Text) : Decidable (TapePrintsAs s s') := by
  unfold TapePrintsAs; split <;> exact inferInstance

/-- A section of another material inside a file is accepted, and printed with the MAT of the file. -/
theorem C66_file_mixes_materials : FilePrintsAs 3 125
    (txt
    " 1.001000+3 9.991673-1          0          0          0          0 125 3  1     \n"
    " 0.000000+0 0.000000+0          0          0          1          2 125 3  1     \n"
    "          2          5                                             125 3  1     \n"
    " 1.000000-5 3.713628+1 2.000000+7 4.827735-1                       125 3  1     \n"
    "                                                                   125 3  0     \n"
    " 1.001000+3 9.991673-1          0          0          0          09228 3102     \n"
    " 0.000000+0 0.000000+0          0          0          1          29228 3102     \n"
    "          2          5                                            9228 3102     \n"
    " 1.000000-5 3.713628+1 2.000000+7 4.827735-1                      9228 3102     \n"
    "                                                                  9228 3  0     \n"
    "                                                                   125 0  0     \n")
    (txt
    " 1.001000+3 9.991673-1          0          0          0          0 125 3  1     \n"
    " 0.000000+0 0.000000+0          0          0          1          2 125 3  1     \n"
    "          2          5                                             125 3  1     \n"
    " 1.000000-5 3.713628+1 2.000000+7 4.827735-1                       125 3  1     \n"
    "                                                                   125 3  0     \n"
    " 1.001000+3 9.991673-1          0          0          0          0 125 3102     \n"
    " 0.000000+0 0.000000+0          0          0          1          2 125 3102     \n"
    "          2          5                                             125 3102     \n"
    " 1.000000-5 3.713628+1 2.000000+7 4.827735-1                       125 3102     \n"
    "                                                                   125 3  0     \n"
    "                                                                   125 0  0     \n") := by decide +kernel

/-- The same inside a material: a section measured for MAT 9228 becomes a section of MAT 125. -/
theorem C66_material_mixes_materials : MaterialPrintsAs
    (txt
    " 1.001000+3 9.991673-1          0          0          0          0 125 3  1     \n"
    " 0.000000+0 0.000000+0          0          0          1          2 125 3  1     \n"
    "          2          5                                             125 3  1     \n"
    " 1.000000-5 3.713628+1 2.000000+7 4.827735-1                       125 3  1     \n"
    "                                                                   125 3  0     \n"
    " 1.001000+3 9.991673-1          0          0          0          09228 3102     \n"
    " 0.000000+0 0.000000+0          0          0          1          29228 3102     \n"
    "          2          5                                            9228 3102     \n"
    " 1.000000-5 3.713628+1 2.000000+7 4.827735-1                      9228 3102     \n"
    "                                                                  9228 3  0     \n"
    "                                                                   125 0  0     \n"
    "                                                                     0 0  0     \n")
    (txt
    " 1.001000+3 9.991673-1          0          0          0          0 125 3  1     \n"
    " 0.000000+0 0.000000+0          0          0          1          2 125 3  1     \n"
    "          2          5                                             125 3  1     \n"
    " 1.000000-5 3.713628+1 2.000000+7 4.827735-1                       125 3  1     \n"
    "                                                                   125 3  0     \n"
    " 1.001000+3 9.991673-1          0          0          0          0 125 3102     \n"
    " 0.000000+0 0.000000+0          0          0          1          2 125 3102     \n"
    "          2          5                                             125 3102     \n"
    " 1.000000-5 3.713628+1 2.000000+7 4.827735-1                       125 3102     \n"
    "                                                                   125 3  0     \n"
    "                                                                   125 0  0     \n"
    "                                                                     0 0  0     \n") := by decide +kernel

/-- The FEND record of another material closes the file. -/
theorem C66_other_fend : FilePrintsAs 3 125
    (txt
    " 1.001000+3 9.991673-1          0          0          0          0 125 3  1     \n"
    " 0.000000+0 0.000000+0          0          0          1          2 125 3  1     \n"
    "          2          5                                             125 3  1     \n"
    " 1.000000-5 3.713628+1 2.000000+7 4.827735-1                       125 3  1     \n"
    "                                                                   125 3  0     \n"
    "                                                                  9228 0  0     \n")
    (txt
    " 1.001000+3 9.991673-1          0          0          0          0 125 3  1     \n"
    " 0.000000+0 0.000000+0          0          0          1          2 125 3  1     \n"
    "          2          5                                             125 3  1     \n"
    " 1.000000-5 3.713628+1 2.000000+7 4.827735-1                       125 3  1     \n"
    "                                                                   125 3  0     \n"
    "                                                                   125 0  0     \n") := by decide +kernel

/-- A line with MAT = -1 ends the tape, even if it is the HEAD record of a section; what follows is not looked at. -/
theorem C66_tape_ends_early : TapePrintsAs
    (txt
    " this is a tape                                                      0 0  0     \n"
    " 1.001000+3 9.991673-1          0          0          0          0 125 3  1     \n"
    " 0.000000+0 0.000000+0          0          0          1          2 125 3  1     \n"
    "          2          5                                             125 3  1     \n"
    " 1.000000-5 3.713628+1 2.000000+7 4.827735-1                       125 3  1     \n"
    "                                                                   125 3  0     \n"
    "                                                                   125 0  0     \n"
    "                                                                     0 0  0     \n"
    " 1.001000+3 9.991673-1          0          0          0          0  -1 3102     \n"
    " 0.000000+0 0.000000+0          0          0          1          2  -1 3102     \n"
    "          2          5                                              -1 3102     \n"
    " 1.000000-5 3.713628+1 2.000000+7 4.827735-1                        -1 3102     \n"
    "                                                                    -1 3  0     \n"
    "                                                                  9228 0  0     \n")
    (txt
    " this is a tape                                                      0 0  0     \n"
    " 1.001000+3 9.991673-1          0          0          0          0 125 3  1     \n"
    " 0.000000+0 0.000000+0          0          0          1          2 125 3  1     \n"
    "          2          5                                             125 3  1     \n"
    " 1.000000-5 3.713628+1 2.000000+7 4.827735-1                       125 3  1     \n"
    "                                                                   125 3  0     \n"
    "                                                                   125 0  0     \n"
    "                                                                     0 0  0     \n"
    "                                                                    -1 0  0     \n") := by decide +kernel

/-- The texts of the unit tests meet the hypotheses of `C66_tape_lines`. -/
theorem tapeRoundTrips_lines {mats : List (Int × List Int)} {s : Text} (h : TapeRoundTrips mats s) : ∃ t ls s', PTape.read ⟨s, 0⟩ = .ok (t, s') ∧
    t.print = .ok (unlines ls) ∧ TapeLines t ls := by
  unfold TapeRoundTrips at h
  cases hp : PTape.read ⟨s, 0⟩ with
  | error e => rw [hp] at h; exact h.elim
  | ok r =>
    obtain ⟨t, s'⟩ := r
    rw [hp] at h
    obtain ⟨ls, h1, h2⟩ := C66_tape_lines (readTape_valid hp h.2.2.1 h.2.2.2.1)
    exact ⟨t, ls, s', rfl, h1, h2⟩

theorem small_tape : TapeRoundTrips [(9228, [3]), (125, [3])] (txt
    " this is a tape                                                      0 0  0     \n"
    " 1.001000+3 9.991673-1          0          0          0          09228 3  1     \n"
    " 0.000000+0 0.000000+0          0          0          1          29228 3  1     \n"
    "          2          5                                            9228 3  1     \n"
    " 1.000000-5 3.713628+1 2.000000+7 4.827735-1                      9228 3  1     \n"
    "                                                                  9228 3  0     \n"
    " 1.001000+3 9.991673-1          0          0          0          09228 3102     \n"
    " 0.000000+0 0.000000+0          0          0          1          29228 3102     \n"
    "          2          5                                            9228 3102     \n"
    " 1.000000-5 3.713628+1 2.000000+7 4.827735-1                      9228 3102     \n"
    "                                                                  9228 3  0     \n"
    "                                                                  9228 0  0     \n"
    "                                                                     0 0  0     \n"
    " 1.001000+3 9.991673-1          0          0          0          0 125 3  1     \n"
    " 0.000000+0 0.000000+0          0          0          1          2 125 3  1     \n"
    "          2          5                                             125 3  1     \n"
    " 1.000000-5 3.713628+1 2.000000+7 4.827735-1                       125 3  1     \n"
    "                                                                   125 3  0     \n"
    "                                                                   125 0  0     \n"
    "                                                                     0 0  0     \n"
    "                                                                    -1 0  0     \n") := by decide +kernel

example := tapeRoundTrips_lines small_tape

end ENDFtk.Props

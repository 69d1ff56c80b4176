import Verif.Props.LineNumbers
import Verif.Props.TreeExamples
import Verif.Props.ParsedExamples
/-
  Concrete cases that meet the hypotheses of the theorems in Verif/Props/LineNumbers.lean: a tape and a file whose line numbers are left out, or
  replaced by others that are followed by a comment; and a line number that cannot be read.
-/
set_option linter.unusedVariables false
set_option maxRecDepth 100000
namespace ENDFtk.Props.LineNumbersEx
open ENDFtk ENDFtk.Props
attribute [local instance] concDisco concCorr

instance (l : Text) : Decidable (Numbered l) := by unfold Numbered; exact inferInstance

/-- The lines of the example tape have line numbers 0, 1, 2, 3 and 99999. -/
theorem numbered : (∀ l ∈ exTape.lines, Numbered l) ∧ (exTape.lines.map (cols 76 80)).eraseDups.length = 5 := by decide +kernel

/-- The line number 7 and a comment. -/
def other : Text := "    7 and a comment".toList

/-- The texts agree in columns 1-75, and are not the same. -/
theorem agree : SameLines (unlines exTape.lines) (unlines (exTape.lines.map fun l => l.take 75)) ∧
    SameLines (unlines exTape.lines) (unlines (exTape.lines.map fun l => l.take 75 ++ other)) :=
  ⟨C71_no_line_numbers numbered.1, C71_cut numbered.1 (fun _ => other) (fun _ _ => by decide) (fun _ _ => by decide +kernel)⟩

theorem different : unlines exTape.lines ≠ unlines (exTape.lines.map fun l => l.take 75) := by decide +kernel

/-- The tape can be indexed, so that the other texts can be, with the same numbers. -/
theorem indexed : ∃ t, TTape.ofBuffer (unlines (exTape.lines.map fun l => l.take 75 ++ other)) = .ok t ∧ t.materialNumbers = exTape.tree.materialNumbers := by
  obtain ⟨t', h1, h2⟩ := (C71_tree agree.2 0).2 exTape.tree (by decide +kernel)
  exact ⟨t', h1, (C71_tree_numbers h2).1.symm⟩

/-- but not the same contents -/
theorem contents : (TTape.ofBuffer (unlines (exTape.lines.map fun l => l.take 75))).toOption.map TTape.content ≠ some exTape.tree.content := by decide +kernel

/-- A file of section 3/1. -/
def file : List Text := [
  " 1.001000+3 9.991673-1          0          0          0          0 125 3  1    1".toList,
  " 0.000000+0 0.000000+0          0          0          1          2 125 3  1    2".toList,
  "          2          5                                             125 3  1    3".toList,
  " 1.000000-5 3.713628+1 2.000000+7 4.827735-1                       125 3  1    4".toList,
  "                                                                   125 3  099999".toList,
  "                                                                   125 0  0    0".toList]

theorem file_numbered : ∀ l ∈ file, Numbered l := by decide +kernel

theorem file_read : (readFileFrom 3 ⟨unlines file, 0⟩).toOption.map (fun q => (q.1.sections.keys, q.2)) = some ([1], ⟨[], 6⟩) := by decide +kernel

/-- `from_string` of the file without line numbers. -/
theorem file_same : Py.fileFromString 3 (unlines file) = Py.fileFromString 3 (unlines (file.map fun l => l.take 75)) :=
  (C71_python (C71_text (C71_no_line_numbers file_numbered))).2.1 3

theorem file_ok : (Py.fileFromString 3 (unlines (file.map fun l => l.take 75))).toOption.isSome = true := by decide +kernel

/-- A line number that cannot be read. -/
def badLine : Text := " 1.001000+3 9.991673-1          0          0          0          0 125 3  1   *1".toList

example : '\n' ∉ badLine ∧ parseInt (cols 76 80 badLine) = none := by decide +kernel
example : (readCont ⟨125, 3, 1⟩ ⟨badLine ++ ['\n'], 0⟩).toOption = none ∧
    (readCont ⟨125, 3, 1⟩ ⟨badLine.take 75 ++ ['\n'], 0⟩).toOption.isSome = true := by decide +kernel

end ENDFtk.Props.LineNumbersEx

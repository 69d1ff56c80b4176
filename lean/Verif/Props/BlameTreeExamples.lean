import Verif.Props.BlameTree
import Verif.Props.BlameTapeExamples
/-
  C49 for trees: a tree that meets the hypotheses of the theorems in Verif/Props/BlameTree.lean, with the concrete number format `concDisco`.
-/
set_option linter.unusedVariables false
set_option maxRecDepth 100000
namespace ENDFtk.Props.BlameTreeExamples
open BlameTapeExamples
attribute [local instance] concDisco concCorr

/-- Indexing the text of `rowless` and parsing the tree: tape, material, file and section. -/
def failures (s : Text) (mat mf mt : Int) : Option (List (Option Err)) :=
  let fails {α : Type} (x : Except Err α) : Option Err := match x with | .ok _ => none | .error e => some e
  match TTape.ofBuffer s 0 with
  | .error _ => none
  | .ok t =>
    match t.material mat with
    | .ok [m] =>
      match m.file mf with
      | .error _ => none
      | .ok f =>
        match f.section' mt with
        | .error _ => none
        | .ok c => some [fails t.parse, fails m.parse, fails (f.parse mf), fails (Py.parseFile f), fails c.parseAny]
    | _ => none

/-- All five reach undefined behaviour: file 33 is one of `riskyFiles`. -/
example : failures rowless 125 33 2 = some [some .ub, some .ub, some .ub, some .ub, some .ub] := by decide +kernel

/-- None of them fails. -/
example : failures crossSection 125 3 1 = some [none, none, none, none, none] := by decide +kernel

example : (3 : Int) ∉ riskyFiles ∧ (33 : Int) ∈ riskyFiles := by decide

end ENDFtk.Props.BlameTreeExamples

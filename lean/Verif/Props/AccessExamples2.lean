import Verif.Props.BuildExamples3
import Verif.Props.Access11
/-
  C62 and C56: concrete sections 32/151 that are written, read, and asked for their contents.
-/
set_option linter.unusedVariables false
set_option maxRecDepth 100000
namespace ENDFtk.Props
attribute [local instance] concDisco concCorr

/-- Written with MAT 125 and read, the section has the property. -/
def afterReading32 (s : Sect (List CovIsotope)) (P : Sect (List CovIsotope) → Bool) : Bool :=
  match mf32mt151.print s 125 32 with
  | .ok out => match mf32mt151.parse ⟨out, 0⟩ with
    | .ok (s', st) => decide (st.rest = []) && P s'
    | .error _ => false
  | .error _ => false

/-- The first range of the first isotope has the property. -/
def firstRange (s : Sect (List CovIsotope)) (P : CovRange → Bool) : Bool := match Get.MF32MT151.isotopes s with
  | i :: _ => match Get.Isotope32.resonanceRanges i with
    | r :: _ => P r
    | [] => false
  | [] => false

/-- LCOMP = 0: two isotopes, the first one with two ranges -/
example : Makes limited1 (fun l => Makes (Make.limitedSingle (Conc.ofInt 3) (Conc.ofInt 4) (some (Conc.ofInt 5)) [l, l]) (fun p => Makes (Make.limitedMulti one one none [l]) (fun q =>
    Makes (Make.covRange one (Conc.ofInt 20) 1 p) (fun r1 => Makes (Make.covRange (Conc.ofInt 20) (Conc.ofInt 30) 0 q) (fun r2 =>
    Makes (Make.mf32mt151 92000 one [Make.covIsotope (Conc.ofInt 92235) one true [r1, r2], Make.covIsotope (Conc.ofInt 92238) one false [r2]]) (fun s => afterReading32 s (fun x =>
      decide (Get.MF32MT151.NIS x = 2 ∧ (Get.MF32MT151.isotopes x).map Get.Isotope32.ZAI = [Conc.ofInt 92235, Conc.ofInt 92238] ∧
        (Get.MF32MT151.isotopes x).map Get.Isotope32.LFW = [1, 0] ∧ (Get.MF32MT151.isotopes x).map Get.Isotope32.NER = [2, 1] ∧
        (Get.MF32MT151.isotopes x).map (fun i => (Get.Isotope32.resonanceRanges i).map (fun r => (Get.Range32.LRU r, Get.Range32.LRF r, Get.Range32.NRO r, Get.Range32.NAPS r, Get.Range32.EH r))) =
          [[(1, 1, false, 1, Conc.ofInt 20), (1, 2, false, 0, Conc.ofInt 30)], [(1, 2, false, 0, Conc.ofInt 30)]]) &&
      firstRange x (fun r => match Get.Range32.parameters r with
        | ⟨.limitedSLBW, b⟩ => decide (Get.Limited32.SPI b = Conc.ofInt 3 ∧ Get.Limited32.AP b = Conc.ofInt 4 ∧ Get.Limited32.DAP b = some (Conc.ofInt 5) ∧ Get.Limited32.ISR b = true ∧
            Get.Limited32.NLS b = 2)
        | _ => false)))))))) = true := by decide +kernel

/-- LCOMP = 1 -/
example : Makes short1 (fun l => Makes (CovariancePairs.make2 1 (d2 1) (d2 3)) (fun c =>
    oneRange (Make.generalSingle (Conc.ofInt 9) (Conc.ofInt 3) (Conc.ofInt 4) none 7 [l, l] [c]) (fun s => afterReading32 s (fun x => firstRange x (fun r => match Get.Range32.parameters r with
      | ⟨.generalSLBW, b⟩ => decide (Get.General32.SPI b = Conc.ofInt 3 ∧ Get.General32.AP b = Conc.ofInt 4 ∧ Get.General32.AWRI b = Conc.ofInt 9 ∧ Get.General32.NLS b = 7 ∧
          Get.General32.NSRS b = 2 ∧ Get.General32.NLRS b = 1 ∧ Get.General32.ISR b = false)
      | _ => false))))) = true := by decide +kernel

/-- LCOMP = 2: of the three correlations two are read, the other one is rounded to 0 -/
example : Makes (rmlPairs 1) (fun pp => Makes rmlChannels (fun c => Makes rmlParameters (fun p => Makes (Make.compactRmlUncertainties pp [(c, p)]) (fun u => Makes matrix1 (fun m =>
    oneRange (Make.compactRml true none u m) (fun s => afterReading32 s (fun x => firstRange x (fun r => match Get.Range32.parameters r with
      | ⟨.compactRML, b⟩ => decide (Get.Compact32.IFG b = true ∧ Get.Compact32.NJS b = 1 ∧ Get.CompactRml32.NJSX (Get.Compact32.uncertainties b) = 1 ∧
          (Get.CompactRml32.spinGroups (Get.Compact32.uncertainties b)).map Get.CompactSpin32.NRSA = [2] ∧
          (Get.CompactRml32.spinGroups (Get.Compact32.uncertainties b)).map Get.CompactSpin32.NCH = [2] ∧
          Get.Correlations32.NDIGIT (Get.Compact32.correlationMatrix b) = 2 ∧ Get.Correlations32.NNN (Get.Compact32.correlationMatrix b) = 10 ∧
          Get.Correlations32.I (Get.Compact32.correlationMatrix b) = [1, 2] ∧ Get.Correlations32.J (Get.Compact32.correlationMatrix b) = [3, 4])
      | _ => false)))))))) = true := by decide +kernel

/-- unresolved resonances: LFW follows from MPAR -/
example : Makes (UnresolvedCovLValue.make one 1 (d2 1) (d2 3) (d2 5) (d2 7) (d2 9) (d2 11)) (fun l => Makes (TriangularMatrix.make 5 (dr [1, 2, 3])) (fun c =>
    Makes (TriangularMatrix.make 4 (dr [1, 2, 3])) (fun c' =>
    oneRange (Make.unresolvedRelative one one [l, l] c) (fun s => afterReading32 s (fun x => firstRange x (fun r => decide (Get.Range32.LRU r = 2 ∧ Get.Range32.LFW r = true)))) &&
    oneRange (Make.unresolvedRelative one one [l, l] c') (fun s => afterReading32 s (fun x => firstRange x (fun r => decide (Get.Range32.LRU r = 2 ∧ Get.Range32.LFW r = false))))))) = true := by
  decide +kernel

/-- The text of a section with unresolved resonances and LRF = 2 in the CONT record of the range: `LRF()` is 1, and the section is written with 1 there. -/
def lrf2 : Text := (unlines [
  " 9.223500+4 1.000000+0          0          0          1          0 12532151    1".toList,
  " 9.223500+4 1.000000+0          0          0          1          0 12532151    2".toList,
  " 1.000000+0 2.000000+1          2          2          0          1 12532151    3".toList,
  " 1.000000+0 1.000000+0          0          0          1          0 12532151    4".toList,
  " 1.000000+0 0.000000+0          1          0          6          1 12532151    5".toList,
  " 1.000000+0 2.000000+0 3.000000+0 4.000000+0 5.000000+0 6.000000+0 12532151    6".toList,
  " 0.000000+0 0.000000+0          3          0          3          2 12532151    7".toList,
  " 1.000000+0 2.000000+0 3.000000+0                                  12532151    8".toList,
  "                                                                   12532  0    9".toList])

theorem C62_lrf_lost : (match mf32mt151.parse ⟨lrf2, 0⟩ with
    | .ok (x, st) => decide (st.rest = []) && firstRange x (fun r => decide (Get.Range32.LRU r = 2 ∧ Get.Range32.LRF r = 1))
    | .error _ => false) = true := by decide +kernel

/-- A correlation matrix with two INTG records, 3 values in row 1 from column 3 on, and one in row 7: what C56_read_elements says about it. -/
def matrixText : Text := unlines [
  " 0.000000+0 0.000000+0          2         10          2          0 12532151    1".toList,
  "    1    3  50  0-20                                               12532151    2".toList,
  "    7    9  99                                                     12532151    3".toList,
  "next".toList]

example : (match CorrMatrix.read ⟨125, 32, 151⟩ ⟨matrixText, 0⟩ with
    | .ok (m, s) => decide (Get.Correlations32.I m = [1, 1, 7] ∧ Get.Correlations32.J m = [3, 5, 9] ∧ Get.Correlations32.NNN m = 10 ∧ s.rest = "next\n".toList) &&
      decide (66 ≤ (lineAt 1 matrixText).length ∧ 66 ≤ (lineAt 2 matrixText).length ∧ lineAt 3 matrixText = "next".toList)
    | .error _ => false) = true := by decide +kernel

end ENDFtk.Props

import Verif.Props.Access8
import Verif.Props.BuildExamples2
/-
  C62, C63: concrete sections.  They are made by the constructors, written, and what is read from the text is asked for its values: the hypotheses of the theorems
  about sections that are made and about sections that are read are met.  Also the cases in which a getter does not return what one expects.
-/
set_option linter.unusedVariables false
set_option maxRecDepth 100000
namespace ENDFtk.Props
attribute [local instance] concDisco

/-- The section is written, the text is read, and `f` holds for the section that is read. -/
def afterReading (T : SectionType) (s : Sect T.Data) (f : Sect T.Data → Bool) : Bool :=
  match T.defn.print s 125 T.defn.mf with
  | .ok out => match T.defn.parse ⟨out, 0⟩ with
    | .ok (s', st) => f s'
    | .error _ => false
  | .error _ => false

def d (n : Int) : DecReal := Conc.ofInt n

example : Makes (Make.mf3 102 92235 (d 7) (d 8) (d 9) 2 [1, 3] [5, 2] (dr [1, 2, 3]) (dr [4, 5, 6])) (fun s =>
    let f := fun x : Sect TAB1 => decide (x.ZA = 92235 ∧ x.AWR = d 7 ∧ x.MT = 102 ∧ Get.MF3.NR x = 2 ∧ Get.MF3.NP x = 3 ∧ Get.MF3.energies x = dr [1, 2, 3] ∧
      Get.MF3.crossSections x = dr [4, 5, 6] ∧ Get.MF3.INT x = [5, 2] ∧ Get.MF3.NBT x = [1, 3])
    f s && afterReading .mf3 s f) = true := by decide +kernel

/-- two reaction blocks in file 33: the second one begins after the lines of the first -/
example : Makes pairs1 (fun p => Makes square1 (fun q => Makes redundant1 (fun r =>
    Makes (Make.mf33 2 92235 one [Make.reactionBlock 0 0 0 2 [r] [p, q], Make.reactionBlock 0 0 9437 18 [] [p]]) (fun s =>
      afterReading .mf33 s (fun x => decide (Get.MF33.MTL x = 0 ∧ Get.MF33.NL x = 2 ∧ x.data.2.map Get.Reaction33.MT1 = [2, 18] ∧ x.data.2.map Get.Reaction33.MAT1 = [0, 9437] ∧
        x.data.2.map Get.Reaction33.NK = [1, 0] ∧ x.data.2.map Get.Reaction33.NI = [2, 1])))))) = true := by decide +kernel

/-- file 2, R-matrix limited: `SPI()` and `AP()` are those of the particle pair with MT 2; `numberBackgroundChannels()` is NCH -/
example : Makes pairs2 (fun pp => Makes (ResonanceChannels.make (d 3) (d 1) [1, 2] [0, 0] (dr [0, 3]) (dr [0, 0]) (dr [5, 6]) (dr [7, 8]) 0 0) (fun c0 => Makes widths2 (fun w =>
    Makes (Make.spinGroupShort c0 w) (fun g => Makes (Make.rMatrixLimited false true 3 pp [g]) (fun p => match p with
    | .rml b => eqE (Get.RMatrix.SPI b) (d 3) && eqE (Get.RMatrix.AP b) (d 6) && decide (Get.Spin.AJ g = d 3 ∧ Get.Spin.KBK g = 0 ∧ Get.Spin.numberBackgroundChannels g = 2)
    | _ => false))))) = true := by decide +kernel

/-- no elastic channel in the first spin group -/
theorem C62_rmatrix_AP_ub : Makes pairs2 (fun pp => Makes (ResonanceChannels.make (d 3) (d 1) [1] [0] (dr [0]) (dr [0]) (dr [5]) (dr [7]) 0 0) (fun c1 =>
    Makes (channels2 0) (fun c0 => Makes widths2 (fun w => Makes (ResonanceParameters.make xs2 [dr [1], dr [3]]) (fun w1 => Makes (Make.spinGroupShort c1 w1) (fun g1 => Makes (Make.spinGroupShort c0 w) (fun g =>
    Makes (Make.rMatrixLimited false true 3 pp [g1, g]) (fun p => match p with
    | .rml b => match Get.RMatrix.AP b with
      | .error .ub => eqE (Get.RMatrix.SPI b) (d 3)
      | _ => false
    | _ => false)))))))) = true := by decide +kernel

/-- the ranges and isotopes of file 2 -/
example : Makes bwLValue (fun l => Makes (Make.singleLevel (d 2) (d 3) [l, l]) (fun p => Makes aLValue (fun a => Makes (Make.unresolvedA (d 4) (d 5) true [a]) (fun u =>
    Makes radius2 (fun r => Makes (Make.resonanceRange one (d 2) 2 p (some r)) (fun r1 => Makes (Make.resonanceRange (d 2) (d 3) 0 u) (fun r2 =>
    Makes (Make.mf2mt151 92000 one [Make.isotope 92235 one false [r1, r2], Make.isotope 92238 one true [r1]]) (fun s => afterReading .mf2mt151 s (fun x =>
      decide (Get.MF2MT151.NIS x = 2 ∧ (Get.MF2MT151.isotopes x).map Get.Isotope2.ZAI = [92235, 92238] ∧ (Get.MF2MT151.isotopes x).map Get.Isotope2.LFW = [0, 1] ∧
        (Get.MF2MT151.isotopes x).map Get.Isotope2.NER = [2, 1] ∧
        (Get.MF2MT151.isotopes x).map (fun i => i.ranges.map (fun r => (Get.Range.LRU r, Get.Range.LRF r, Get.Range.NRO r, Get.Range.NAPS r))) =
          [[(1, 1, true, 2), (2, 1, false, 0)], [(1, 1, true, 2)]]))))))))))  = true := by decide +kernel

/-- A photon energy of 2.5 eV is returned as 2 eV if the distribution of the photon is not isotropic, and as 2.5 eV if it is. -/
theorem C62_photon_energy_lost : Makes (Make.photonDistributions (⟨25, -1⟩ : DecReal) one [1] [2] [leg 1]) (fun b =>
    decide (Get.Photon14.EG (.legendre b) = d 2 ∧ Get.Photon14.EG (.isotropic (⟨25, -1⟩ : DecReal) one) = ⟨25, -1⟩)) = true := by decide +kernel

/-- A section with STA = 1, which means that the nuclide is not stable (ENDF-6 manual 1.1): `isStable()` is true. -/
theorem C62_isStable_of_unstable : Makes (Make.mf1mt451 92235 one 1 1 0 5 one one 0 0 6 one one 8 10 8 one 0 (desc66 'a' ++ ['\n'] ++ desc66 'b' ++ ['\n']) [⟨1, 451, 10, 0⟩, ⟨3, 1, 5, 1⟩])
    (fun s => afterReading .mf1mt451 s (fun x => Get.MF1MT451.isStable x)) = true := by decide +kernel

/-- thermal scattering data of file 6: three values per energy, two energies; the first value is not the incident energy -/
example : (Get.Thermal6.E (Make.thermalScatteringData (d 7) 3 (dr [1, 2, 3, 4, 5, 6])) = d 7 ∧ Get.Thermal6.N2 (Make.thermalScatteringData (d 7) 3 (dr [1, 2, 3, 4, 5, 6])) = 3) ∧
    eqE (Get.Thermal6.NEP (Make.thermalScatteringData (d 7) 3 (dr [1, 2, 3, 4, 5, 6]))) 2 = true ∧ eqE (Get.Thermal6.LTT (Make.thermalScatteringData (d 7) 3 (dr [1, 2, 3, 4, 5, 6]))) 5 = true ∧
    eqE (Get.Thermal6.LTT (Make.thermalScatteringData (d 7) 3 (dr [7, 2, 3, 4, 5, 6]))) 6 = true := by decide +kernel

end ENDFtk.Props

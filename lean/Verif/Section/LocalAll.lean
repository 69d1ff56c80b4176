import Verif.Section.All
import Verif.Section.Local
/-
  All components and all section types are local.
-/
set_option linter.unusedVariables false
set_option linter.unusedSectionVars false
set_option linter.unusedSimpArgs false
namespace ENDFtk
variable [Disco]

/-- Proves that a component is local. -/
syntax "clocl " ident : tactic
macro_rules
  | `(tactic| clocl $d:ident) => `(tactic| first
      | (unfold $d; infer_instance)
      | (refine ⟨fun t => ?_⟩; dsimp only [$d:ident]; locl)
      | (unfold $d; locl))

instance {α : Type} (c : Comp α) (P : α → Prop) [DecidablePred P] (ov : α → Prop) [DecidablePred ov] [CLocal c] : CLocal (c.checked P ov) := by clocl Comp.checked
instance {α : Type} (c : Comp α) (f : α → Except Err Unit) [CLocal c] : CLocal (c.checkedE f) := by clocl Comp.checkedE
instance {α : Type} (c : Comp α) [CLocal c] : CLocal (iseqC c) := by clocl iseqC
instance {α : Type} (c : TAB2 → Comp α) [∀ r, CLocal (c r)] : CLocal (iseqD c) := by clocl iseqD
instance {α : Type} (c : Comp α) (n : Int) [CLocal c] : CLocal (manyC c n) := by clocl manyC
instance {α : Type} (p : Prop) [Decidable p] (c : Comp α) [CLocal c] : CLocal (optC p c) := by clocl optC
instance {σ μ α : Type} (H : Header σ) (m : Comp μ) (c : Comp α) [CLocal m] [CLocal c] : CLocal (contSeqC H m c) := by clocl contSeqC

/-! ### MF1 -/
instance  (head : Division) (t : Nums) : Local (SecDef.read mf3 head t) := by dsimp only [mf3]; locl
instance (t : Nums) : Local (Info451.readParameters t) := by unfold Info451.readParameters; locl
instance (head : Division) (t : Nums) : Local (Info451.read head t) := by unfold Info451.read; locl
instance  (head : Division) (t : Nums) : Local (SecDef.read mf1mt451 head t) := by dsimp only [mf1mt451]; locl
instance (lnu : Int) (t : Nums) : Local (Nubar.read lnu t) := by unfold Nubar.read; locl
instance (mt : Int) (head : Division) (t : Nums) : Local (SecDef.read (mf1nubar mt) head t) := by dsimp only [mf1nubar]; locl
instance : CLocal decayC := by clocl decayC
instance : CLocal decayDepC := by clocl decayDepC
instance (ldg : Int) (t : Nums) : Local (Decay.read ldg t) := by unfold Decay.read; locl
instance  (head : Division) (t : Nums) : Local (SecDef.read mf1mt455 head t) := by dsimp only [mf1mt455]; locl
/-! ### MF1b -/
instance (lo ng : Int) (t : Nums) : Local (Photons.read lo ng t) := by unfold Photons.read; locl
instance  (head : Division) (t : Nums) : Local (SecDef.read mf1mt460 head t) := by dsimp only [mf1mt460]; locl
instance : CLocal thermalC := by clocl thermalC
instance : CLocal releaseC := by clocl releaseC
theorem TabComp.readLoop_local (t : Nums) : ∀ n recs, Local (TabComp.readLoop t n recs)
  | 0, recs => Local.pure _
  | n + 1, recs => by
    have := TabComp.readLoop_local t n
    unfold TabComp.readLoop
    locl
instance (t : Nums) (n : Nat) (recs : List (Option TAB1)) : Local (TabComp.readLoop t n recs) := TabComp.readLoop_local t n recs
instance (nfc : Int) (t : Nums) : Local (TabComp.readTables nfc t) := by unfold TabComp.readTables; locl
instance (nfc : Int) (t : Nums) : Local (TabComp.read nfc t) := by unfold TabComp.read; locl
instance (lfc nfc : Int) (t : Nums) : Local (Release.read lfc nfc t) := by unfold Release.read; locl
instance  (head : Division) (t : Nums) : Local (SecDef.read mf1mt458 head t) := by dsimp only [mf1mt458]; locl
/-! ### MF4 -/
instance (mf : Int) (head : Division) (t : Nums) : Local (SecDef.read (mfTable mf) head t) := by dsimp only [mfTable]; locl
instance  (head : Division) (t : Nums) : Local (SecDef.read mf23 head t) := by dsimp only [mf23]; locl
instance  (head : Division) (t : Nums) : Local (SecDef.read mf27 head t) := by dsimp only [mf27]; locl
instance : CLocal legendreC := by clocl legendreC
instance : CLocal tabulatedC := by clocl tabulatedC
instance : CLocal mixedC := by clocl mixedC
instance (ltt : Int) (t : Nums) : Local (Angular.read ltt t) := by unfold Angular.read; locl
instance  (head : Division) (t : Nums) : Local (SecDef.read mf4 head t) := by dsimp only [mf4]; locl
/-! ### MF5 -/
instance (lf : Int) (t : Nums) : Local (Spectrum.read lf t) := by unfold Spectrum.read; locl
instance : CLocal partial5C := by clocl partial5C
instance  (head : Division) (t : Nums) : Local (SecDef.read mf5 head t) := by dsimp only [mf5]; locl
/-! ### MF6 -/
instance (r : TAB2) : CLocal (continuumElemC r) := by clocl continuumElemC
instance : CLocal continuumC := by clocl continuumC
instance : CLocal twoBodyC := by clocl twoBodyC
instance : CLocal chargedC := by clocl chargedC
instance : CLocal laboratoryC := by clocl laboratoryC
instance (law : Int) (t : Nums) : Local (Law6.read law t) := by unfold Law6.read; locl
instance (t : Nums) : Local (Product6.read t) := by unfold Product6.read; locl
instance  (head : Division) (t : Nums) : Local (SecDef.read mf6 head t) := by dsimp only [mf6]; locl
/-! ### MF7 -/
instance : CLocal tabListsC := by clocl tabListsC
instance : CLocal coherentC := by clocl coherentC
instance (lthr : Int) : CLocal (elasticC lthr) := by clocl elasticC
instance  (head : Division) (t : Nums) : Local (SecDef.read mf7mt2 head t) := by dsimp only [mf7mt2]; locl
instance : CLocal scatteringFunctionC := by clocl scatteringFunctionC
instance : CLocal tabulatedFunctionsC := by clocl tabulatedFunctionsC
instance : CLocal constantsC := by clocl constantsC
instance (b : LIST) : CLocal (scatteringLawC b) := by clocl scatteringLawC
instance (type : Dbl) : CLocal (optTemperatureC type) := by clocl optTemperatureC
theorem temperaturesC_local : ∀ l, CLocal (temperaturesC l)
  | [] => by unfold temperaturesC; infer_instance
  | a :: l => by
    have := temperaturesC_local l
    refine ⟨fun t => ?_⟩
    unfold temperaturesC
    dsimp only
    locl
instance (l : List Dbl) : CLocal (temperaturesC l) := temperaturesC_local l
instance  (head : Division) (t : Nums) : Local (SecDef.read mf7mt4 head t) := by dsimp only [mf7mt4]; locl
instance : CLocal elementC := by clocl elementC
instance  (head : Division) (t : Nums) : Local (SecDef.read mf7mt451 head t) := by dsimp only [mf7mt451]; locl
/-! ### MF8 -/
instance : CLocal yieldsC := by clocl yieldsC
instance (mt : Int) (head : Division) (t : Nums) : Local (SecDef.read (mf8yields mt) head t) := by dsimp only [mf8yields]; locl
instance  (head : Division) (t : Nums) : Local (SecDef.read mf8mt454 head t) := by dsimp only [mf8mt454]; locl
instance  (head : Division) (t : Nums) : Local (SecDef.read mf8mt459 head t) := by dsimp only [mf8mt459]; locl
instance : CLocal decayEnergiesC := by clocl decayEnergiesC
instance : CLocal decayModesC := by clocl decayModesC
instance : CLocal discreteC := by clocl discreteC
instance : CLocal decaySpectrumC := by clocl decaySpectrumC
instance  (head : Division) (t : Nums) : Local (SecDef.read mf8mt457 head t) := by dsimp only [mf8mt457]; locl
/-! ### MF12 -/
instance (mf : Int) (head : Division) (t : Nums) : Local (SecDef.read (mfProducts mf) head t) := by dsimp only [mfProducts]; locl
instance  (head : Division) (t : Nums) : Local (SecDef.read mf9 head t) := by dsimp only [mf9]; locl
instance  (head : Division) (t : Nums) : Local (SecDef.read mf10 head t) := by dsimp only [mf10]; locl
instance (nk : Int) : CLocal (totalPartialsC nk) := by clocl totalPartialsC
instance  (head : Division) (t : Nums) : Local (SecDef.read mf13 head t) := by dsimp only [mf13]; locl
instance : CLocal transitionC := by clocl transitionC
instance  (head : Division) (t : Nums) : Local (SecDef.read mf12 head t) := by dsimp only [mf12]; locl
instance : CLocal isotropicPhotonC := by clocl isotropicPhotonC
instance (ltt : Int) : CLocal (anisotropicC ltt) := by clocl anisotropicC
instance (li ni nk ltt : Int) (t : Nums) : Local (readPhotons li ni nk ltt t) := by unfold readPhotons; locl
instance  (head : Division) (t : Nums) : Local (SecDef.read mf14 head t) := by dsimp only [mf14]; locl
instance : CLocal partial15C := by clocl partial15C
instance  (head : Division) (t : Nums) : Local (SecDef.read mf15 head t) := by dsimp only [mf15]; locl
instance (r : TAB2) : CLocal (continuum26ElemC r) := by clocl continuum26ElemC
instance : CLocal continuum26C := by clocl continuum26C
instance : CLocal twoBody26C := by clocl twoBody26C
instance (law : Int) : CLocal (law26C law) := by clocl law26C
instance : CLocal product26C := by clocl product26C
instance  (head : Division) (t : Nums) : Local (SecDef.read mf26 head t) := by dsimp only [mf26]; locl
instance : CLocal subshellC := by clocl subshellC
instance  (head : Division) (t : Nums) : Local (SecDef.read mf28 head t) := by dsimp only [mf28]; locl
/-! ### MF31 -/
instance : CLocal explicitC := by clocl explicitC
instance : CLocal derivedC := by clocl derivedC
instance : CLocal reactionBlockC := by clocl reactionBlockC
instance  (head : Division) (t : Nums) : Local (SecDef.read mf31 head t) := by dsimp only [mf31]; locl
instance  (head : Division) (t : Nums) : Local (SecDef.read mf33 head t) := by dsimp only [mf33]; locl
instance : CLocal legendreBlockC := by clocl legendreBlockC
instance (mt : Int) : CLocal (reactionBlock34C mt) := by clocl reactionBlock34C
instance  (head : Division) (t : Nums) : Local (SecDef.read mf34 head t) := by dsimp only [mf34]; locl
instance : CLocal squareMatrix35C := by clocl squareMatrix35C
instance  (head : Division) (t : Nums) : Local (SecDef.read mf35 head t) := by dsimp only [mf35]; locl
instance : CLocal levelBlockC := by clocl levelBlockC
instance  (head : Division) (t : Nums) : Local (SecDef.read mf40 head t) := by dsimp only [mf40]; locl
instance : CLocal dilutionC := by clocl dilutionC
instance  (head : Division) (t : Nums) : Local (SecDef.read mf2mt152 head t) := by dsimp only [mf2mt152]; locl
/-! ### MF2 -/
instance : CLocal lvalueC := by clocl lvalueC
instance : CLocal breitWignerC := by clocl breitWignerC
instance : CLocal reichMooreC := by clocl reichMooreC
instance : CLocal caseAC := by clocl caseAC
instance : CLocal jvalueC := by clocl jvalueC
instance : CLocal lvalueCC := by clocl lvalueCC
instance : CLocal caseCC := by clocl caseCC
instance : CLocal jvalueBC := by clocl jvalueBC
instance : CLocal lvalueBC := by clocl lvalueBC
instance : CLocal caseBC := by clocl caseBC
instance : CLocal particlePairsC := by clocl particlePairsC
instance : CLocal channelsC := by clocl channelsC
instance : CLocal rmlParametersC := by clocl rmlParametersC
instance (n : Nat) (mk : Dbl → Dbl → List Dbl → Background) : CLocal (valuesC n  mk) := by clocl valuesC
instance (lbk : Int) : CLocal (backgroundBodyC lbk) := by clocl backgroundBodyC
instance (nch : Int) : CLocal (backgroundC nch) := by clocl backgroundC
instance (nch kbk : Int) : CLocal (backgroundsC nch kbk) := by clocl backgroundsC
instance : CLocal spinGroupC := by clocl spinGroupC
instance : CLocal rmlC := by clocl rmlC
instance : CLocal specialC := by clocl specialC
instance (lru lrf lfw : Int) : CLocal (resParamsC lru lrf lfw) := by clocl resParamsC
instance (nro : Int) : CLocal (radiusC nro) := by clocl radiusC
instance (lfw : Int) : CLocal (resRangeC lfw) := by clocl resRangeC
instance (t : Nums) : Local (Isotope.read t) := by unfold Isotope.read; locl
instance  (head : Division) (t : Nums) : Local (SecDef.read mf2mt151 head t) := by dsimp only [mf2mt151]; locl

theorem SectionType.localRead (T : SectionType) (head : Division) (t : Nums) : Local (T.defn.read head t) := by
  cases T <;> simp only [SectionType.defn] <;> infer_instance

instance (T : SectionType) (head : Division) (mat : Int) : Local (T.defn.readSect head mat) := by
  have := fun t => T.localRead head t
  unfold SecDef.readSect
  locl

instance (T : SectionType) : Local T.defn.parse := by
  unfold SecDef.parse
  locl

end ENDFtk

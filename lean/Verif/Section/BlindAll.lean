import Verif.Section.All
import Verif.Section.Blind
import Verif.Section.MF32Sect
/-
  All components and all section types are blind.
-/
set_option linter.unusedVariables false
set_option linter.unusedSectionVars false
set_option linter.unusedSimpArgs false
namespace ENDFtk
variable [Disco]

/-- Proves that a component is blind. -/
syntax "cblnd " ident : tactic
macro_rules
  | `(tactic| cblnd $d:ident) => `(tactic| first
      | (unfold $d; infer_instance)
      | (refine ⟨fun t => ?_⟩; dsimp only [$d:ident]; blnd)
      | (unfold $d; blnd))

instance {α : Type} (c : Comp α) (P : α → Prop) [DecidablePred P] (ov : α → Prop) [DecidablePred ov] [CBlind c] : CBlind (c.checked P ov) := by cblnd Comp.checked
instance {α : Type} (c : Comp α) (f : α → Except Err Unit) [CBlind c] : CBlind (c.checkedE f) := by cblnd Comp.checkedE
instance {α : Type} (c : Comp α) [CBlind c] : CBlind (iseqC c) := by cblnd iseqC
instance {α : Type} (c : TAB2 → Comp α) [∀ r, CBlind (c r)] : CBlind (iseqD c) := by cblnd iseqD
instance {α : Type} (c : Comp α) (n : Int) [CBlind c] : CBlind (manyC c n) := by cblnd manyC
instance {α : Type} (p : Prop) [Decidable p] (c : Comp α) [CBlind c] : CBlind (optC p c) := by cblnd optC
instance {σ μ α : Type} (H : Header σ) (m : Comp μ) (c : Comp α) [CBlind m] [CBlind c] : CBlind (contSeqC H m c) := by cblnd contSeqC

/-! ### MF1 -/
instance  (head : Division) (t : Nums) : Blind (SecDef.read mf3 head t) := by dsimp only [mf3]; blnd
instance (t : Nums) : Blind (Info451.readParameters t) := by unfold Info451.readParameters; blnd
instance (head : Division) (t : Nums) : Blind (Info451.read head t) := by unfold Info451.read; blnd
instance  (head : Division) (t : Nums) : Blind (SecDef.read mf1mt451 head t) := by dsimp only [mf1mt451]; blnd
instance (lnu : Int) (t : Nums) : Blind (Nubar.read lnu t) := by unfold Nubar.read; blnd
instance (mt : Int) (head : Division) (t : Nums) : Blind (SecDef.read (mf1nubar mt) head t) := by dsimp only [mf1nubar]; blnd
instance : CBlind decayC := by cblnd decayC
instance : CBlind decayDepC := by cblnd decayDepC
instance (ldg : Int) (t : Nums) : Blind (Decay.read ldg t) := by unfold Decay.read; blnd
instance  (head : Division) (t : Nums) : Blind (SecDef.read mf1mt455 head t) := by dsimp only [mf1mt455]; blnd
/-! ### MF1b -/
instance (lo ng : Int) (t : Nums) : Blind (Photons.read lo ng t) := by unfold Photons.read; blnd
instance  (head : Division) (t : Nums) : Blind (SecDef.read mf1mt460 head t) := by dsimp only [mf1mt460]; blnd
instance : CBlind thermalC := by cblnd thermalC
instance : CBlind releaseC := by cblnd releaseC
theorem TabComp.readLoop_blind (t : Nums) : ∀ n recs, Blind (TabComp.readLoop t n recs)
  | 0, recs => Blind.pure _
  | n + 1, recs => by
    have := TabComp.readLoop_blind t n
    unfold TabComp.readLoop
    blnd
instance (t : Nums) (n : Nat) (recs : List (Option TAB1)) : Blind (TabComp.readLoop t n recs) := TabComp.readLoop_blind t n recs
instance (nfc : Int) (t : Nums) : Blind (TabComp.readTables nfc t) := by unfold TabComp.readTables; blnd
instance (nfc : Int) (t : Nums) : Blind (TabComp.read nfc t) := by unfold TabComp.read; blnd
instance (lfc nfc : Int) (t : Nums) : Blind (Release.read lfc nfc t) := by unfold Release.read; blnd
instance  (head : Division) (t : Nums) : Blind (SecDef.read mf1mt458 head t) := by dsimp only [mf1mt458]; blnd
/-! ### MF4 -/
instance (mf : Int) (head : Division) (t : Nums) : Blind (SecDef.read (mfTable mf) head t) := by dsimp only [mfTable]; blnd
instance  (head : Division) (t : Nums) : Blind (SecDef.read mf23 head t) := by dsimp only [mf23]; blnd
instance  (head : Division) (t : Nums) : Blind (SecDef.read mf27 head t) := by dsimp only [mf27]; blnd
instance : CBlind legendreC := by cblnd legendreC
instance : CBlind tabulatedC := by cblnd tabulatedC
instance : CBlind mixedC := by cblnd mixedC
instance (ltt : Int) (t : Nums) : Blind (Angular.read ltt t) := by unfold Angular.read; blnd
instance  (head : Division) (t : Nums) : Blind (SecDef.read mf4 head t) := by dsimp only [mf4]; blnd
/-! ### MF5 -/
instance (lf : Int) (t : Nums) : Blind (Spectrum.read lf t) := by unfold Spectrum.read; blnd
instance : CBlind partial5C := by cblnd partial5C
instance  (head : Division) (t : Nums) : Blind (SecDef.read mf5 head t) := by dsimp only [mf5]; blnd
/-! ### MF6 -/
instance (r : TAB2) : CBlind (continuumElemC r) := by cblnd continuumElemC
instance : CBlind continuumC := by cblnd continuumC
instance : CBlind twoBodyC := by cblnd twoBodyC
instance : CBlind chargedC := by cblnd chargedC
instance : CBlind laboratoryC := by cblnd laboratoryC
instance (law : Int) (t : Nums) : Blind (Law6.read law t) := by unfold Law6.read; blnd
instance (t : Nums) : Blind (Product6.read t) := by unfold Product6.read; blnd
instance  (head : Division) (t : Nums) : Blind (SecDef.read mf6 head t) := by dsimp only [mf6]; blnd
/-! ### MF7 -/
instance : CBlind tabListsC := by cblnd tabListsC
instance : CBlind coherentC := by cblnd coherentC
instance (lthr : Int) : CBlind (elasticC lthr) := by cblnd elasticC
instance  (head : Division) (t : Nums) : Blind (SecDef.read mf7mt2 head t) := by dsimp only [mf7mt2]; blnd
instance : CBlind scatteringFunctionC := by cblnd scatteringFunctionC
instance : CBlind tabulatedFunctionsC := by cblnd tabulatedFunctionsC
instance : CBlind constantsC := by cblnd constantsC
instance (b : LIST) : CBlind (scatteringLawC b) := by cblnd scatteringLawC
instance (type : Dbl) : CBlind (optTemperatureC type) := by cblnd optTemperatureC
theorem temperaturesC_blind : ∀ l, CBlind (temperaturesC l)
  | [] => by unfold temperaturesC; infer_instance
  | a :: l => by
    have := temperaturesC_blind l
    refine ⟨fun t => ?_⟩
    unfold temperaturesC
    dsimp only
    blnd
instance (l : List Dbl) : CBlind (temperaturesC l) := temperaturesC_blind l
instance  (head : Division) (t : Nums) : Blind (SecDef.read mf7mt4 head t) := by dsimp only [mf7mt4]; blnd
instance : CBlind elementC := by cblnd elementC
instance  (head : Division) (t : Nums) : Blind (SecDef.read mf7mt451 head t) := by dsimp only [mf7mt451]; blnd
/-! ### MF8 -/
instance : CBlind yieldsC := by cblnd yieldsC
instance (mt : Int) (head : Division) (t : Nums) : Blind (SecDef.read (mf8yields mt) head t) := by dsimp only [mf8yields]; blnd
instance  (head : Division) (t : Nums) : Blind (SecDef.read mf8mt454 head t) := by dsimp only [mf8mt454]; blnd
instance  (head : Division) (t : Nums) : Blind (SecDef.read mf8mt459 head t) := by dsimp only [mf8mt459]; blnd
instance : CBlind decayEnergiesC := by cblnd decayEnergiesC
instance : CBlind decayModesC := by cblnd decayModesC
instance : CBlind discreteC := by cblnd discreteC
instance : CBlind decaySpectrumC := by cblnd decaySpectrumC
instance  (head : Division) (t : Nums) : Blind (SecDef.read mf8mt457 head t) := by dsimp only [mf8mt457]; blnd
/-! ### MF12 -/
instance (mf : Int) (head : Division) (t : Nums) : Blind (SecDef.read (mfProducts mf) head t) := by dsimp only [mfProducts]; blnd
instance  (head : Division) (t : Nums) : Blind (SecDef.read mf9 head t) := by dsimp only [mf9]; blnd
instance  (head : Division) (t : Nums) : Blind (SecDef.read mf10 head t) := by dsimp only [mf10]; blnd
instance (nk : Int) : CBlind (totalPartialsC nk) := by cblnd totalPartialsC
instance  (head : Division) (t : Nums) : Blind (SecDef.read mf13 head t) := by dsimp only [mf13]; blnd
instance : CBlind transitionC := by cblnd transitionC
instance  (head : Division) (t : Nums) : Blind (SecDef.read mf12 head t) := by dsimp only [mf12]; blnd
instance : CBlind isotropicPhotonC := by cblnd isotropicPhotonC
instance (ltt : Int) : CBlind (anisotropicC ltt) := by cblnd anisotropicC
instance (li ni nk ltt : Int) (t : Nums) : Blind (readPhotons li ni nk ltt t) := by unfold readPhotons; blnd
instance  (head : Division) (t : Nums) : Blind (SecDef.read mf14 head t) := by dsimp only [mf14]; blnd
instance : CBlind partial15C := by cblnd partial15C
instance  (head : Division) (t : Nums) : Blind (SecDef.read mf15 head t) := by dsimp only [mf15]; blnd
instance (r : TAB2) : CBlind (continuum26ElemC r) := by cblnd continuum26ElemC
instance : CBlind continuum26C := by cblnd continuum26C
instance : CBlind twoBody26C := by cblnd twoBody26C
instance (law : Int) : CBlind (law26C law) := by cblnd law26C
instance : CBlind product26C := by cblnd product26C
instance  (head : Division) (t : Nums) : Blind (SecDef.read mf26 head t) := by dsimp only [mf26]; blnd
instance : CBlind subshellC := by cblnd subshellC
instance  (head : Division) (t : Nums) : Blind (SecDef.read mf28 head t) := by dsimp only [mf28]; blnd
/-! ### MF31 -/
instance : CBlind explicitC := by cblnd explicitC
instance : CBlind derivedC := by cblnd derivedC
instance : CBlind reactionBlockC := by cblnd reactionBlockC
instance  (head : Division) (t : Nums) : Blind (SecDef.read mf31 head t) := by dsimp only [mf31]; blnd
instance  (head : Division) (t : Nums) : Blind (SecDef.read mf33 head t) := by dsimp only [mf33]; blnd
instance : CBlind legendreBlockC := by cblnd legendreBlockC
instance (mt : Int) : CBlind (reactionBlock34C mt) := by cblnd reactionBlock34C
instance  (head : Division) (t : Nums) : Blind (SecDef.read mf34 head t) := by dsimp only [mf34]; blnd
instance : CBlind squareMatrix35C := by cblnd squareMatrix35C
instance  (head : Division) (t : Nums) : Blind (SecDef.read mf35 head t) := by dsimp only [mf35]; blnd
instance : CBlind levelBlockC := by cblnd levelBlockC
instance  (head : Division) (t : Nums) : Blind (SecDef.read mf40 head t) := by dsimp only [mf40]; blnd
instance : CBlind dilutionC := by cblnd dilutionC
instance  (head : Division) (t : Nums) : Blind (SecDef.read mf2mt152 head t) := by dsimp only [mf2mt152]; blnd
/-! ### MF2 -/
instance : CBlind lvalueC := by cblnd lvalueC
instance : CBlind breitWignerC := by cblnd breitWignerC
instance : CBlind reichMooreC := by cblnd reichMooreC
instance : CBlind caseAC := by cblnd caseAC
instance : CBlind jvalueC := by cblnd jvalueC
instance : CBlind lvalueCC := by cblnd lvalueCC
instance : CBlind caseCC := by cblnd caseCC
instance : CBlind jvalueBC := by cblnd jvalueBC
instance : CBlind lvalueBC := by cblnd lvalueBC
instance : CBlind caseBC := by cblnd caseBC
instance : CBlind particlePairsC := by cblnd particlePairsC
instance : CBlind channelsC := by cblnd channelsC
instance : CBlind rmlParametersC := by cblnd rmlParametersC
instance (n : Nat) (mk : Dbl → Dbl → List Dbl → Background) : CBlind (valuesC n  mk) := by cblnd valuesC
instance (lbk : Int) : CBlind (backgroundBodyC lbk) := by cblnd backgroundBodyC
instance (nch : Int) : CBlind (backgroundC nch) := by cblnd backgroundC
instance (nch kbk : Int) : CBlind (backgroundsC nch kbk) := by cblnd backgroundsC
instance : CBlind spinGroupC := by cblnd spinGroupC
instance : CBlind rmlC := by cblnd rmlC
instance : CBlind specialC := by cblnd specialC
instance (lru lrf lfw : Int) : CBlind (resParamsC lru lrf lfw) := by cblnd resParamsC
instance (nro : Int) : CBlind (radiusC nro) := by cblnd radiusC
instance (lfw : Int) : CBlind (resRangeC lfw) := by cblnd resRangeC
instance (t : Nums) : Blind (Isotope.read t) := by unfold Isotope.read; blnd
instance  (head : Division) (t : Nums) : Blind (SecDef.read mf2mt151 head t) := by dsimp only [mf2mt151]; blnd

theorem SectionType.blindRead (T : SectionType) (head : Division) (t : Nums) : Blind (T.defn.read head t) := by
  cases T <;> simp only [SectionType.defn] <;> infer_instance

instance (T : SectionType) (head : Division) (mat : Int) : Blind (T.defn.readSect head mat) := by
  have := fun t => T.blindRead head t
  unfold SecDef.readSect
  blnd

instance (T : SectionType) : Blind T.defn.parse := by
  unfold SecDef.parse
  blnd


/-! ### file 32 -/

theorem intgN_fits {nd : Nat} (h : 2 ≤ nd ∧ nd ≤ 6) : 10 + ((if nd ≠ 6 then 1 else 0) + intgN nd * (nd + 1) + intgPad nd) = 66 := by
  have : nd = 2 ∨ nd = 3 ∨ nd = 4 ∨ nd = 5 ∨ nd = 6 := by omega
  rcases this with rfl | rfl | rfl | rfl | rfl <;> rfl

namespace Bl
theorem many {α : Type} {p : Parser α} {w : Nat} (hp : ∀ k, k + w ≤ 75 → Bl (InLine k) (InLine (k + w)) p) :
    ∀ n k, k + n * w ≤ 75 → Bl (InLine k) (InLine (k + n * w)) (readMany p n)
  | 0, k, hk => by rw [Nat.zero_mul, Nat.add_zero]; exact Bl.pure _
  | n + 1, k, hk => by
    have e : k + (n + 1) * w = k + w + n * w := by rw [Nat.succ_mul]; omega
    rw [e] at hk ⊢
    exact Bl.bind (hp k (by omega)) fun _ => Bl.bind (many hp n (k + w) hk) fun _ => Bl.pure _

theorem readIntegers {nd : Nat} (h : 2 ≤ nd ∧ nd ≤ 6) : Bl (InLine 10) (InLine 66) (readIntegers nd (intgN nd)) := by
  have hf := intgN_fits h
  have h0 : Bl (InLine 10) (InLine (10 + if nd ≠ 6 then 1 else 0)) (if nd ≠ 6 then ENDFtk.advance 1 else Pure.pure () : Parser Unit) := by
    split
    · exact Bl.advance (by omega)
    · exact Bl.pure _
  have h1 := many (w := nd + 1) (fun k hk => readInt (w := nd + 1) hk) (intgN nd) (10 + if nd ≠ 6 then 1 else 0) (by omega)
  have h2 := advance (w := intgPad nd) (k := 10 + (if nd ≠ 6 then 1 else 0) + intgN nd * (nd + 1)) (by omega)
  have e : 10 + (if nd ≠ 6 then 1 else 0) + intgN nd * (nd + 1) + intgPad nd = 66 := by omega
  rw [e] at h2
  unfold ENDFtk.readIntegers
  exact Bl.bind h0 fun _ => Bl.bind h1 fun _ => Bl.bind h2 fun _ => Bl.pure _
end Bl

theorem readINTG_blind {nd : Nat} (h : 2 ≤ nd ∧ nd ≤ 6) (e : Nums) : Blind (readINTG nd (intgN nd) e) := by
  unfold readINTG
  exact Blind.mapErr (Blind.line (Bl.bind (Bl.readInt (k := 0) (w := 5) (by omega)) fun _ => Bl.bind (Bl.readInt (k := 5) (w := 5) (by omega)) fun _ =>
    Bl.bind (Bl.readIntegers h) fun _ => Bl.bind (Bl.liftE _) fun _ => Bl.bind (Bl.verifyTail e) fun _ => Bl.pure _))

instance {σ α : Type} (f : Cont → σ) (g : σ → α → Cont) (c : Cont → Comp α) [∀ r, CBlind (c r)] : CBlind (hdrC f g c) := by cblnd hdrC

instance : CBlind limitedLValueC := by cblnd limitedLValueC
instance : CBlind shortRangeC := by cblnd shortRangeC
instance : CBlind triangleC := by cblnd triangleC
instance : CBlind compactUncertaintiesC := by cblnd compactUncertaintiesC
instance : CBlind longRangeC := by cblnd longRangeC
instance : CBlind dapC := by cblnd dapC
instance : CBlind dapListC := by cblnd dapListC
instance : CBlind dapNoneC := by cblnd dapNoneC
instance : CBlind limitedC := by cblnd limitedC
instance {δ α : Type} (dap : Comp δ) (short : Comp α) [CBlind dap] [CBlind short] : CBlind (generalC dap short) := by cblnd generalC
instance : CBlind shortRangeRmlC := by cblnd shortRangeRmlC
instance : CBlind unresolvedC := by cblnd unresolvedC
instance : CBlind compactGroupC := by cblnd compactGroupC
instance : CBlind compactRmlC := by cblnd compactRmlC
instance : CBlind radiusCovC := by cblnd radiusCovC

section
variable [CorrOps]

instance (t : Nums) : Blind (CorrMatrix.read t) := by
  unfold CorrMatrix.read
  refine Blind.bind inferInstance fun c => ?_
  dsimp only
  split
  · exact Blind.fail _
  · rename_i hnd
    have := readINTG_blind (nd := (CorrMatrix.asUnsigned c.l1).toNat) (by omega) t
    exact Blind.bind inferInstance fun _ => Blind.pure _
instance : CBlind corrC := ⟨fun t => by show Blind (CorrMatrix.read t); infer_instance⟩
instance {δ α : Type} (dap : Comp δ) (unc : Comp α) [CBlind dap] [CBlind unc] : CBlind (compactC dap unc) := by cblnd compactC
theorem CovType.comp_blind : ∀ k : CovType, CBlind k.comp
  | .limitedSLBW => (inferInstance : CBlind limitedC)
  | .limitedMLBW => (inferInstance : CBlind limitedC)
  | .generalSLBW => (inferInstance : CBlind (generalC dapC shortRangeC))
  | .generalMLBW => (inferInstance : CBlind (generalC dapC shortRangeC))
  | .generalRM => (inferInstance : CBlind (generalC dapListC shortRangeC))
  | .generalRML => (inferInstance : CBlind (generalC dapNoneC shortRangeRmlC))
  | .compactSLBW => (inferInstance : CBlind (compactC dapC compactUncertaintiesC))
  | .compactMLBW => (inferInstance : CBlind (compactC dapC compactUncertaintiesC))
  | .compactRM => (inferInstance : CBlind (compactC dapListC compactUncertaintiesC))
  | .compactRML => (inferInstance : CBlind (compactC dapNoneC compactRmlC))
  | .unresolved => (inferInstance : CBlind unresolvedC)

instance (k : CovType) : CBlind k.comp := k.comp_blind


/-- The parameters are read from the line that was already read as CONT record. -/
instance (lru lrf : Int) (t : Nums) : Blind (CovParams.read lru lrf t) where
  run := by
    intro x x' n h
    have h1 := (inferInstance : Blind (readCont t)).run x x' n h
    unfold CovParams.read
    cases hx : readCont t ⟨x, n⟩ with
    | error e =>
      cases hx' : readCont t ⟨x', n⟩ with
      | error e' => rw [hx, hx'] at h1; exact h1
      | ok q => rw [hx, hx'] at h1; exact h1.elim
    | ok q =>
      cases hx' : readCont t ⟨x', n⟩ with
      | error e' => rw [hx, hx'] at h1; exact h1.elim
      | ok q' =>
        rw [hx, hx'] at h1
        obtain ⟨c, s⟩ := q
        obtain ⟨c', s'⟩ := q'
        obtain ⟨rfl, h2, -⟩ := h1
        simp only at h2 ⊢
        cases hk : CovType.ofFlags lru lrf (toInt32 c.l2) with
        | none => exact rfl
        | some k =>
          simp only
          rw [← h2]
          exact (Blind.bind (inferInstance : Blind (k.comp.read t)) fun _ => Blind.pure _).run x x' _ h

instance (t : Nums) : Blind (CovRange.read t) := by unfold CovRange.read; blnd
instance (t : Nums) : Blind (CovIsotope.read t) := by unfold CovIsotope.read; blnd
instance (head : Division) (t : Nums) : Blind (SecDef.read mf32mt151 head t) := by dsimp only [mf32mt151]; blnd

instance (head : Division) (mat : Int) : Blind (mf32mt151.readSect head mat) := by
  unfold SecDef.readSect
  blnd

instance : Blind mf32mt151.parse := by
  unfold SecDef.parse
  blnd

end

end ENDFtk

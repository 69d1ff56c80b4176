import Verif.Props.Layout2
/-
  C59: MF12, MF28, covariances.
-/
set_option linter.unusedVariables false
set_option linter.unusedSectionVars false
set_option linter.unusedSimpArgs false
namespace ENDFtk.Props
open ENDFtk
variable [Disco] {l : LIST}

/-! ### MF12, MF28 -/

theorem transition_column {w n j : Nat} (hl : l.data.length = w * n) (hw : w ≠ 0) (hj : j < w) (ht : TransitionProbabilities.transitions l = chunkE (w : Int) l.data)
    {f : List Dbl → Except Err Dbl} (hf : ∀ c, c.length = w → f c = .ok (c.getD j Disco.zero)) :
    ∃ xs, (TransitionProbabilities.transitions l).bind (mapE f) = .ok xs ∧ IsColumn xs l.data j w n := by
  have hlen : (chunkL w l.data).length = n := by
    rw [chunkL_length, hl]
    have : w * n + w - 1 = w * n + (w - 1) := by omega
    rw [this, Nat.mul_add_div (by omega), Nat.div_eq_of_lt (by omega)]; rfl
  have hg : ∀ i < n, (chunkL w l.data)[i]? = some ((l.data.drop (i * w)).take w) ∧ i * w + w ≤ l.data.length := fun i hi => by
    have := mul_succ_le (k := w) hi
    have e2 : w * n = n * w := Nat.mul_comm _ _
    rw [chunkL_getElem? (by omega), if_pos (by omega)]
    exact ⟨rfl, by omega⟩
  refine ⟨(chunkL w l.data).map (fun c => c.getD j Disco.zero), ?_, by rw [List.length_map, hlen], fun i hi => ?_⟩
  · rw [ht, chunkE_ok (by omega)]
    refine mapE_ok fun c hc => hf c ?_
    obtain ⟨i, hi⟩ := List.mem_iff_getElem?.mp hc
    simp only [Int.toNat_natCast] at hi
    have hin : i < n := by rw [← hlen]; exact (List.getElem?_eq_some_iff.mp hi).1
    rw [(hg i hin).1] at hi
    cases hi
    have := (hg i hin).2
    simp; omega
  · rw [List.getElem?_map, (hg i hi).1]
    have := (hg i hi).2
    simp only [Option.map_some]
    rw [List.getD_eq_getElem?_getD, List.getElem?_take_of_lt hj, List.getElem?_drop, List.getElem?_eq_getElem (by omega)]
    simp only [Option.getD_some]
    rw [← List.getElem?_eq_getElem]
    congr 1; rw [Nat.mul_comm w i]; omega

/-- For each transition: ES, TP, and for LG = 2 also GP; for LG = 1 the conditional probabilities are 1. -/
theorem C59_transitions {lg n : Nat} (hn : n ≠ 0) (hg : lg = 1 ∨ lg = 2) (hl : l.data.length = (lg + 1) * n) (h2 : l.n2 = n) :
    TransitionProbabilities.transitionType l = .ok (lg : Int) ∧
    Columns l.data (lg + 1) n 0 [TransitionProbabilities.energies l, TransitionProbabilities.transitionProbabilities l] ∧
    (lg = 2 → Columns l.data 3 n 2 [TransitionProbabilities.conditionalProbabilities l]) ∧
    (lg = 1 → TransitionProbabilities.conditionalProbabilities l = .ok (List.replicate n (Disco.ofInt 1))) ∧
    TransitionProbabilities.highestEnergyLevel l = l.c1 ∧ TransitionProbabilities.numberTransitions l = n := by
  have ht : TransitionProbabilities.transitionType l = .ok (lg : Int) := by
    unfold TransitionProbabilities.transitionType transitionLG LIST.npl
    rw [if_neg (by omega), h2, hl]
    congr 1
    have : (((lg + 1) * n : Nat) : Int).tdiv (n : Int) = ((lg + 1 : Nat) : Int) := by
      rw [Int.tdiv_eq_ediv_of_nonneg (by omega), Int.natCast_mul]
      exact Int.mul_ediv_cancel _ (by omega)
    rw [this, toInt32_of ⟨by omega, by omega⟩]; omega
  have hts : TransitionProbabilities.transitions l = chunkE ((lg + 1 : Nat) : Int) l.data := by
    unfold TransitionProbabilities.transitions
    rw [ht]; rfl
  have at' : ∀ (c : List Dbl) i, i < c.length → atE c i = .ok (c.getD i Disco.zero) := fun c i hi => by
    unfold atE; rw [List.getElem?_eq_getElem hi, List.getD_eq_getElem?_getD, List.getElem?_eq_getElem hi]; rfl
  refine ⟨ht, ⟨?_, ?_, trivial⟩, fun h => ⟨?_, trivial⟩, fun h => ?_, rfl, h2⟩
  · exact transition_column hl (by omega) (by omega) hts fun c hc => at' c 0 (by omega)
  · exact transition_column hl (by omega) (by omega) hts fun c hc => at' c 1 (by omega)
  · subst h
    exact transition_column hl (by omega) (by omega) hts fun c hc => by rw [if_pos (by omega)]; exact at' c 2 (by omega)
  · subst h
    unfold TransitionProbabilities.conditionalProbabilities
    rw [hts, chunkE_ok (by omega)]
    have hlen : (chunkL 2 l.data).length = n := by rw [chunkL_length]; omega
    simp only [Except.bind, Int.toNat_natCast]
    rw [mapE_ok (g := fun _ => Disco.ofInt 1)]
    · rw [List.map_const', hlen]
    · intro c hc
      obtain ⟨i, hi⟩ := List.mem_iff_getElem?.mp hc
      rw [chunkL_getElem? (by decide)] at hi
      split at hi
      · cases hi
        rw [if_neg (by simp; omega)]
      · cases hi

/-- After EBI, ELN, 0, 0, 0, 0: SUBJ, SUBK, ETR, FTR, 0, 0. -/
theorem C59_subshell (h : subshellC.Valid l) (hs : Small l) (hz : 6 < l.data.length) :
    Value l.data 0 (SubshellData.subshellBindingEnergy l) ∧ IntValue l.data 1 (SubshellData.numberSubshellElectrons l) ∧
    Columns l.data 6 (toInt32 l.n2).toNat 6 [SubshellData.secondarySubshellDesignators l, SubshellData.tertiarySubshellDesignators l,
      SubshellData.transitionEnergies l, SubshellData.transitionProbabilities l] ∧
    SubshellData.subshellDesignator l = Disco.trunc l.c1 ∧ (0 ≤ toInt32 l.n2 → SubshellData.numberTransitions l = toInt32 l.n2) := by
  have c := fun (j : Nat) (hj : j < 6) => C48_subshell_columns h hs hz hj
  refine ⟨value_of (by omega), intValue_of (by omega), ⟨c 0 (by decide), c 1 (by decide), c 2 (by decide), c 3 (by decide), trivial⟩, rfl, fun h0 => ?_⟩
  unfold SubshellData.numberTransitions
  unfold toInt32 at *
  unfold toUInt32
  omega

/-! ### covariances -/

/-- LT second pairs after NP - LT first pairs: the energies and values of both are interleaved. -/
theorem C59_covariancePairs {n1 n2 : Nat} (hl : l.data.length = 2 * (n1 + n2)) (h1 : l.l1 = n2) (hi : IsInt32 l.l1) (hn1 : n1 ≠ 0) :
    Columns l.data 2 n1 0 [CovariancePairs.firstArrayEnergies l, CovariancePairs.firstArrayFValues l] ∧
    Columns l.data 2 n2 (2 * n1) [CovariancePairs.secondArrayEnergies l] ∧
    (n2 ≠ 0 → Columns l.data 2 n2 (2 * n1 + 1) [CovariancePairs.secondArrayFValues l]) ∧
    CovariancePairs.numberSecondPairs l = n2 ∧ CovariancePairs.numberPairs l = n1 + n2 ∧ CovariancePairs.procedure l = toInt32 l.l2 := by
  have e1 : CovariancePairs.numberSecondPairs l = n2 := by unfold CovariancePairs.numberSecondPairs; rw [toInt32_of hi, h1]
  have e2 : CovariancePairs.numberPairs l = n1 + n2 := by
    unfold CovariancePairs.numberPairs LIST.npl
    rw [hl, Int.tdiv_eq_ediv_of_nonneg (by omega)]; omega
  have e3 : 2 * (CovariancePairs.numberPairs l - CovariancePairs.numberSecondPairs l) = ((2 * n1 : Nat) : Int) := by rw [e1, e2]; push_cast; omega
  have tk : ∀ {xs : List Dbl} {j : Nat}, j < 2 → IsColumn xs (l.data.take (2 * n1)) j 2 n1 → IsColumn xs l.data j 2 n1 := fun hj h =>
    ⟨h.1, fun i hi => by rw [h.2 i hi, List.getElem?_take_of_lt (by omega)]⟩
  have ht : (l.data.take (2 * n1)).length = 2 * n1 := by simp; omega
  refine ⟨⟨?_, ?_, trivial⟩, ⟨?_, trivial⟩, fun h => ⟨?_, trivial⟩, e1, e2, rfl⟩
  · unfold CovariancePairs.firstArrayEnergies
    rw [e3, takeE_ok (by omega) (by omega)]
    obtain ⟨xs, a, b⟩ := strideE_of (l := l.data.take (2 * n1)) (k' := 2) ht (by decide) rfl
    exact ⟨xs, a, tk (by decide) b⟩
  · unfold CovariancePairs.firstArrayFValues
    rw [e3, takeE_ok (by omega) (by omega)]
    obtain ⟨xs, a, b⟩ := column_of (l := l.data.take (2 * n1)) (p := 0) (j := 1) (k := 2) (n := n1) (off := 1) (k' := 2) (by omega) (by decide) (.inl hn1) rfl rfl
    exact ⟨xs, a, tk (by decide) b⟩
  · unfold CovariancePairs.secondArrayEnergies
    rw [e3]
    exact col_of (p := 2 * n1) (j := 0) (by omega) (by decide) (.inr rfl) rfl rfl
  · unfold CovariancePairs.secondArrayFValues
    rw [e3]
    exact col_of (p := 2 * n1) (j := 1) (by omega) (by decide) (.inl h) (by push_cast; omega) rfl

/-- Symmetric and square matrices (LB = 5, and 35): the energies, and then the matrix. -/
theorem C59_squareMatrix {n : Nat} (h2 : l.n2 = n) (hn : n ≤ l.data.length) :
    SquareMatrix.energies l = .ok (l.data.take n) ∧ SquareMatrix.values l = .ok (l.data.drop n) ∧ SquareMatrix.numberEnergies l = n ∧
    SquareMatrix.symmetryFlag l = toInt32 l.l1 ∧ SquareMatrix.procedure l = toInt32 l.l2 := by
  unfold SquareMatrix.energies SquareMatrix.values SquareMatrix.numberEnergies
  rw [h2, takeE_ok (by omega) (by omega), dropE_ok (by omega) (by omega), Int.toNat_natCast]
  exact ⟨rfl, rfl, rfl, rfl, rfl⟩

/-- Rectangular matrices (LB = 6): the row energies, the column energies, and then the matrix.  `columnEnergies()` returns the matrix as well. -/
theorem C59_rectangularMatrix {r c : Nat} (hl : l.data.length = r + c + (r - 1) * (c - 1)) (h2 : l.n2 = r) (hr : r ≠ 0) (hc : c ≠ 0) :
    RectangularMatrix.rowEnergies l = .ok (l.data.take r) ∧ RectangularMatrix.columnEnergies l = .ok (l.data.drop r) ∧
    RectangularMatrix.values l = .ok (l.data.drop (r + c)) ∧ RectangularMatrix.numberRowEnergies l = r ∧ RectangularMatrix.numberColumnEnergies l = c := by
  have hrc : l.data.length = r * c + 1 := by
    obtain ⟨r, rfl⟩ : ∃ r', r = r' + 1 := ⟨r - 1, by omega⟩
    obtain ⟨c, rfl⟩ : ∃ c', c = c' + 1 := ⟨c - 1, by omega⟩
    rw [hl]
    simp only [Nat.add_sub_cancel, Nat.add_mul, Nat.mul_add]
    omega
  have e : RectangularMatrix.numberColumnEnergies l = c := by
    unfold RectangularMatrix.numberColumnEnergies LIST.npl
    rw [h2, hrc]
    have : ((r * c + 1 : Nat) : Int) - 1 = ((c * r : Nat) : Int) := by rw [Nat.mul_comm c r]; omega
    rw [this, Int.tdiv_eq_ediv_of_nonneg (by omega), Int.natCast_mul]
    exact Int.mul_ediv_cancel _ (by omega)
  refine ⟨?_, ?_, ?_, h2, e⟩
  · unfold RectangularMatrix.rowEnergies
    rw [h2, takeE_ok (by omega) (by omega), Int.toNat_natCast]
  · unfold RectangularMatrix.columnEnergies
    rw [h2, dropE_ok (by omega) (by omega), Int.toNat_natCast]
  · unfold RectangularMatrix.values
    rw [e, h2, if_neg (by omega), dropE_ok (by omega) (by omega)]
    congr 2

/-- Covariances derived from other reactions (LTY = 0): coefficient and MT, interleaved. -/
theorem C59_derivedRedundant {l : LIST} {n : Nat} (hl : l.data.length = 2 * n) (hn : n ≠ 0) :
    Columns l.data 2 n 0 [DerivedRedundant.coefficients (.redundant l), DerivedRedundant.reactions (.redundant l)] ∧
    DerivedRedundant.lowerEnergy (.redundant l) = l.c1 ∧ DerivedRedundant.upperEnergy (.redundant l) = l.c2 ∧
    DerivedRedundant.numberReactions (.redundant l) = toInt32 l.n2 := by
  refine ⟨⟨strideE_of hl (by decide) rfl, ?_, trivial⟩, rfl, rfl, rfl⟩
  have := col_of (data := l.data) (p := 0) (j := 1) (k := 2) (n := n) (off := 1) (k' := 2) (by omega) (by decide) (.inl hn) rfl rfl
  simpa [DerivedRedundant.reactions, Derived.list] using this

/-- Covariances relative to a standard (LTY = 1, 2, 3): XMFS, XLFSS, and then energy and weight, interleaved. -/
theorem C59_derivedRatio {l : LIST} {n : Nat} {lty : Int} (hl : l.data.length = 2 + 2 * n) (hn : n ≠ 0) :
    IntValue l.data 0 (DerivedRatio.standardFileNumber (.ratio lty l)) ∧ IntValue l.data 1 (DerivedRatio.standardFinalExcitedState (.ratio lty l)) ∧
    Columns l.data 2 n 2 [DerivedRatio.energies (.ratio lty l), DerivedRatio.weights (.ratio lty l)] ∧
    DerivedRatio.lowerEnergy (.ratio lty l) = l.c1 ∧ DerivedRatio.upperEnergy (.ratio lty l) = l.c2 ∧
    DerivedRatio.standardMaterialNumber (.ratio lty l) = toInt32 l.l1 ∧ DerivedRatio.standardSectionNumber (.ratio lty l) = toInt32 l.l2 ∧
    DerivedRatio.numberEnergies (.ratio lty l) = toInt32 l.n2 ∧ DerivedRatio.procedure (.ratio lty l) = lty :=
  ⟨intValue_of (by omega), intValue_of (by omega),
    ⟨col_of (p := 2) (j := 0) hl (by decide) (.inr rfl) rfl rfl, col_of (p := 2) (j := 1) hl (by decide) (.inl hn) rfl rfl, trivial⟩, rfl, rfl, rfl, rfl, rfl, rfl⟩

end ENDFtk.Props

import Verif.Props.Getters7
/-
  C48, continued: sections 8, 12, 28 and the covariances.
-/
set_option linter.unusedVariables false
set_option linter.unusedSectionVars false
set_option linter.unusedSimpArgs false
namespace ENDFtk.Props
open ENDFtk

section
variable [Disco]

/-! ### section 8/457, discrete spectra -/

theorem returnArray_in {c1 c2 : Dbl} {l1 l2 n2 : Int} {d : List Dbl} {i : Nat} {a b : Dbl} (hs : (d.length : Int) < 2147483648) (ha : d[i]? = some a) (hb : d[i + 1]? = some b) :
    DiscreteSpectrum.returnArray i ⟨c1, c2, l1, l2, n2, d⟩ = .ok (a, b) := by
  have hi := (List.getElem?_eq_some_iff.mp ha).1
  unfold DiscreteSpectrum.returnArray LIST.npl
  simp only
  rw [nat32 hs, if_pos (by omega)]
  unfold atE
  rw [ha, hb]; rfl

theorem returnArray_out {c1 c2 : Dbl} {l1 l2 n2 : Int} {d : List Dbl} {i : Nat} (hs : (d.length : Int) < 2147483648) (hi : d.length ≤ i) :
    DiscreteSpectrum.returnArray i ⟨c1, c2, l1, l2, n2, d⟩ = .ok (Disco.zero, Disco.zero) := by
  unfold DiscreteSpectrum.returnArray LIST.npl
  simp only
  rw [nat32 hs, if_neg (by omega)]

theorem discreteOk_of {c1 c2 : Dbl} {l1 l2 n2 : Int} {d : List Dbl} (h : d.length = 4 ∨ d.length = 6 ∨ d.length = 12) : discreteOk ⟨c1, c2, l1, l2, n2, d⟩ := by
  unfold discreteOk LIST.npl
  simp only
  rw [nat32 (by omega)]; omega

/-- A discrete line with only its intensity: the coefficients that were not given are zero. -/
theorem C48_discreteSpectrum4 (chain : Dbl) (e ri : Dbl × Dbl) (type : Dbl) :
    ∃ l, DiscreteSpectrum.make4 chain e ri type = .ok l ∧ DiscreteSpectrum.decayChain l = .ok chain ∧ DiscreteSpectrum.discreteEnergy l = e ∧
      DiscreteSpectrum.relativeIntensity l = .ok ri ∧ DiscreteSpectrum.type l = .ok type ∧
      DiscreteSpectrum.internalPairFormationCoefficient l = .ok (Disco.zero, Disco.zero) ∧
      DiscreteSpectrum.totalInternalConversionCoefficient l = .ok (Disco.zero, Disco.zero) ∧
      DiscreteSpectrum.internalConversionCoefficientKShell l = .ok (Disco.zero, Disco.zero) ∧
      DiscreteSpectrum.internalConversionCoefficientLShell l = .ok (Disco.zero, Disco.zero) ∧ (l.Fits → discreteC.Valid l) := by
  have hv : discreteOk ⟨e.1, e.2, 0, 0, 0, [chain, type, ri.1, ri.2]⟩ := discreteOk_of (by simp)
  have hs : (([chain, type, ri.1, ri.2] : List Dbl).length : Int) < 2147483648 := by simp
  exact ⟨_, verified_pos hv, rfl, rfl, returnArray_in hs rfl rfl, rfl, returnArray_out hs (by simp), returnArray_out hs (by simp),
    returnArray_out hs (by simp), returnArray_out hs (by simp), fun hf => ⟨hf, hv⟩⟩

/-- A discrete line with intensity and internal pair formation coefficient. -/
theorem C48_discreteSpectrum6 (chain : Dbl) (e ri : Dbl × Dbl) (type : Dbl) (ris : Dbl × Dbl) :
    ∃ l, DiscreteSpectrum.make6 chain e ri type ris = .ok l ∧ DiscreteSpectrum.decayChain l = .ok chain ∧ DiscreteSpectrum.discreteEnergy l = e ∧
      DiscreteSpectrum.relativeIntensity l = .ok ri ∧ DiscreteSpectrum.type l = .ok type ∧
      DiscreteSpectrum.internalPairFormationCoefficient l = .ok ris ∧
      DiscreteSpectrum.totalInternalConversionCoefficient l = .ok (Disco.zero, Disco.zero) ∧
      DiscreteSpectrum.internalConversionCoefficientKShell l = .ok (Disco.zero, Disco.zero) ∧
      DiscreteSpectrum.internalConversionCoefficientLShell l = .ok (Disco.zero, Disco.zero) ∧ (l.Fits → discreteC.Valid l) := by
  have hv : discreteOk ⟨e.1, e.2, 0, 0, 0, [chain, type, ri.1, ri.2, ris.1, ris.2]⟩ := discreteOk_of (by simp)
  have hs : (([chain, type, ri.1, ri.2, ris.1, ris.2] : List Dbl).length : Int) < 2147483648 := by simp
  exact ⟨_, verified_pos hv, rfl, rfl, returnArray_in hs rfl rfl, rfl, returnArray_in hs rfl rfl, returnArray_out hs (by simp),
    returnArray_out hs (by simp), returnArray_out hs (by simp), fun hf => ⟨hf, hv⟩⟩

/-- A discrete line with all coefficients. -/
theorem C48_discreteSpectrum12 (chain : Dbl) (e ri : Dbl × Dbl) (type : Dbl) (ris ricc rick ricl : Dbl × Dbl) :
    ∃ l, DiscreteSpectrum.make12 chain e ri type ris ricc rick ricl = .ok l ∧ DiscreteSpectrum.decayChain l = .ok chain ∧
      DiscreteSpectrum.discreteEnergy l = e ∧ DiscreteSpectrum.relativeIntensity l = .ok ri ∧ DiscreteSpectrum.type l = .ok type ∧
      DiscreteSpectrum.internalPairFormationCoefficient l = .ok ris ∧ DiscreteSpectrum.totalInternalConversionCoefficient l = .ok ricc ∧
      DiscreteSpectrum.internalConversionCoefficientKShell l = .ok rick ∧ DiscreteSpectrum.internalConversionCoefficientLShell l = .ok ricl ∧
      (l.Fits → discreteC.Valid l) := by
  have hv : discreteOk ⟨e.1, e.2, 0, 0, 0, [chain, type, ri.1, ri.2, ris.1, ris.2, ricc.1, ricc.2, rick.1, rick.2, ricl.1, ricl.2]⟩ := discreteOk_of (by simp)
  have hs : (([chain, type, ri.1, ri.2, ris.1, ris.2, ricc.1, ricc.2, rick.1, rick.2, ricl.1, ricl.2] : List Dbl).length : Int) < 2147483648 := by simp
  exact ⟨_, verified_pos hv, rfl, rfl, returnArray_in hs rfl rfl, rfl, returnArray_in hs rfl rfl, returnArray_in hs rfl rfl,
    returnArray_in hs rfl rfl, returnArray_in hs rfl rfl, fun hf => ⟨hf, hv⟩⟩

/-! ### section 12, transition probabilities -/

theorem lg_of {c1 c2 : Dbl} {l1 l2 : Int} {n k : Nat} {d : List Dbl} (hd : d.length = n * k) (hn : n ≠ 0) (hk : (k : Int) < 2147483648) :
    transitionLG ⟨c1, c2, l1, l2, n, d⟩ = (k : Int) - 1 := by
  unfold transitionLG LIST.npl
  simp only [hd]
  rw [← Int.ofNat_tdiv, Nat.mul_div_cancel_left _ (by omega), toInt32_of ⟨by omega, by omega⟩]

theorem C48_transitions {e : Dbl} {es ps : List Dbl} {l : LIST} (h : TransitionProbabilities.make2 e es ps = .ok l) :
    TransitionProbabilities.highestEnergyLevel l = e ∧ TransitionProbabilities.numberTransitions l = es.length ∧
    TransitionProbabilities.transitionType l = .ok 1 ∧ TransitionProbabilities.energies l = .ok es ∧
    TransitionProbabilities.transitionProbabilities l = .ok ps ∧
    TransitionProbabilities.conditionalProbabilities l = .ok (List.replicate es.length (Disco.ofInt 1)) ∧ (l.Fits → transitionC.Valid l) := by
  unfold TransitionProbabilities.make2 at h
  split at h
  · cases h
  obtain ⟨rfl, hv⟩ := verified_ok h
  have hn : es.length ≠ 0 := by
    intro h0
    unfold transitionCheck at hv
    rw [if_pos (by simp only; omega)] at hv
    cases hv
  have hl : ∀ x ∈ [es, ps], x.length = es.length := by simp; omega
  have hd : (rows es.length [es, ps]).length = es.length * 2 := rows_length _ _
  have ht : TransitionProbabilities.transitionType ⟨e, Disco.zero, 0, 0, es.length, rows es.length [es, ps]⟩ = .ok 1 := by
    unfold TransitionProbabilities.transitionType
    rw [if_neg (by simp only; omega), lg_of (k := 2) hd hn (by decide)]; rfl
  refine ⟨rfl, rfl, ht, ?_, ?_, ?_, fun hf => ⟨hf, hv⟩⟩
  · unfold TransitionProbabilities.energies TransitionProbabilities.transitions
    rw [ht]
    exact chunk_rows (j := 0) rfl hl rfl
  · unfold TransitionProbabilities.transitionProbabilities TransitionProbabilities.transitions
    rw [ht]
    exact chunk_rows (j := 1) rfl hl rfl
  · unfold TransitionProbabilities.conditionalProbabilities TransitionProbabilities.transitions
    rw [ht]
    show (chunkE 2 (rows es.length [es, ps])).bind _ = _
    rw [chunkE_ok (by decide)]
    show mapE _ (chunkL 2 _) = _
    rw [rows, chunkL_flatMap (by decide) (by simp), mapE_ok (g := fun _ => Disco.ofInt 1)]
    · rw [List.map_map]
      congr 1
      apply List.ext_getElem?
      intro i
      rw [List.getElem?_map, List.getElem?_replicate]
      by_cases hi : i < es.length
      · rw [List.getElem?_range hi, if_pos hi]; rfl
      · rw [List.getElem?_eq_none (by simpa using hi), if_neg hi]; rfl
    · intro x hx
      obtain ⟨i, _, rfl⟩ := List.mem_map.mp hx
      rw [if_neg (by simp)]

theorem C48_transitions_conditional {e : Dbl} {es ps cs : List Dbl} {l : LIST} (h : TransitionProbabilities.make3 e es ps cs = .ok l) :
    TransitionProbabilities.highestEnergyLevel l = e ∧ TransitionProbabilities.numberTransitions l = es.length ∧
    TransitionProbabilities.transitionType l = .ok 2 ∧ TransitionProbabilities.energies l = .ok es ∧
    TransitionProbabilities.transitionProbabilities l = .ok ps ∧ TransitionProbabilities.conditionalProbabilities l = .ok cs ∧
    (l.Fits → transitionC.Valid l) := by
  unfold TransitionProbabilities.make3 at h
  split at h
  · cases h
  obtain ⟨rfl, hv⟩ := verified_ok h
  have hn : es.length ≠ 0 := by
    intro h0
    unfold transitionCheck at hv
    rw [if_pos (by simp only; omega)] at hv
    cases hv
  have hl : ∀ x ∈ [es, ps, cs], x.length = es.length := by simp; omega
  have hd : (rows es.length [es, ps, cs]).length = es.length * 3 := rows_length _ _
  have ht : TransitionProbabilities.transitionType ⟨e, Disco.zero, 0, 0, es.length, rows es.length [es, ps, cs]⟩ = .ok 2 := by
    unfold TransitionProbabilities.transitionType
    rw [if_neg (by simp only; omega), lg_of (k := 3) hd hn (by decide)]; rfl
  refine ⟨rfl, rfl, ht, ?_, ?_, ?_, fun hf => ⟨hf, hv⟩⟩
  · unfold TransitionProbabilities.energies TransitionProbabilities.transitions
    rw [ht]
    exact chunk_rows (j := 0) rfl hl rfl
  · unfold TransitionProbabilities.transitionProbabilities TransitionProbabilities.transitions
    rw [ht]
    exact chunk_rows (j := 1) rfl hl rfl
  · unfold TransitionProbabilities.conditionalProbabilities TransitionProbabilities.transitions
    rw [ht]
    rw [← chunk_rows (k := 3) (j := 2) (c := cs) rfl hl rfl]
    show (chunkE 3 (rows es.length [es, ps, cs])).bind _ = _
    rw [chunkE_ok (by decide)]
    show mapE _ (chunkL 3 _) = mapE _ (chunkL 3 _)
    rw [rows, chunkL_flatMap (by decide) (by simp)]
    have : ∀ l : List Nat, mapE (fun c => if c.length = 3 then atE c 2 else .ok (Disco.ofInt 1)) (l.map fun i => [es, ps, cs].map fun c => c.getD i Disco.zero) =
        mapE (fun c => atE c 2) (l.map fun i => [es, ps, cs].map fun c => c.getD i Disco.zero) := by
      intro l
      induction l with
      | nil => rfl
      | cons i l ih => simp only [List.map_cons, mapE] at ih ⊢; rw [if_pos (by simp), ih]
    exact this _

/-- At least one transition is needed (none at all is a division by zero); arrays of different sizes are rejected. -/
theorem C48_transitions_accepts {e : Dbl} {es ps : List Dbl} :
    (es ≠ [] ∧ es.length = ps.length → ∃ l, TransitionProbabilities.make2 e es ps = .ok l) ∧
    (es.length ≠ ps.length → TransitionProbabilities.make2 e es ps = .error .exc) ∧
    (es = [] ∧ ps = [] → TransitionProbabilities.make2 e es ps = .error .ub) := by
  unfold TransitionProbabilities.make2
  refine ⟨fun ⟨h1, h2⟩ => ?_, fun h => by rw [if_pos h], fun ⟨h1, h2⟩ => ?_⟩
  · have hn : es.length ≠ 0 := by simpa using h1
    rw [if_neg (not_not_intro h2)]
    refine ⟨_, verified_of_ok ?_⟩
    unfold transitionCheck
    rw [if_neg (by simp only; omega), lg_of (k := 2) (rows_length _ _) hn (by decide), if_neg (by decide)]
  · subst h1 h2
    rw [if_neg (by simp)]
    refine verified_of_err ?_
    unfold transitionCheck
    rw [if_pos (by rfl)]

theorem C48_transitions_conditional_accepts {e : Dbl} {es ps cs : List Dbl} :
    (es ≠ [] ∧ es.length = ps.length ∧ es.length = cs.length → ∃ l, TransitionProbabilities.make3 e es ps cs = .ok l) ∧
    (¬(es.length = ps.length ∧ es.length = cs.length) → TransitionProbabilities.make3 e es ps cs = .error .exc) := by
  unfold TransitionProbabilities.make3
  refine ⟨fun ⟨h1, h2, h3⟩ => ?_, fun h => by rw [if_pos (by omega)]⟩
  have hn : es.length ≠ 0 := by simpa using h1
  rw [if_neg (by omega)]
  refine ⟨_, verified_of_ok ?_⟩
  unfold transitionCheck
  rw [if_neg (by simp only; omega), lg_of (k := 3) (rows_length _ _) hn (by decide), if_neg (by decide)]

/-! ### section 28 -/

theorem C48_subshell {sub : Int} {e : Dbl} {eln : Int} {sec ter : List Int} {es ps : List Dbl} {l : LIST}
    (h : SubshellData.make sub e eln sec ter es ps = .ok l) (hn : sec ≠ []) :
    (IntRange [sub] → SubshellData.subshellDesignator l = sub) ∧ (Small l → SubshellData.numberTransitions l = sec.length) ∧
    SubshellData.subshellBindingEnergy l = .ok e ∧ (IntRange [eln] → SubshellData.numberSubshellElectrons l = .ok eln) ∧
    SubshellData.secondarySubshellDesignators l = .ok (ofInts sec) ∧ SubshellData.tertiarySubshellDesignators l = .ok (ofInts ter) ∧
    SubshellData.transitionEnergies l = .ok es ∧ SubshellData.transitionProbabilities l = .ok ps ∧ (l.Fits → subshellC.Valid l) := by
  unfold SubshellData.make at h
  simp only at h
  split at h
  · cases h
  obtain ⟨rfl, hv⟩ := verified_require h
  have hn' : sec.length ≠ 0 := by simpa using hn
  have hl : ∀ x ∈ [ofInts sec, ofInts ter, es, ps, List.replicate sec.length Disco.zero, List.replicate sec.length Disco.zero], x.length = sec.length := by
    simp [ofInts_length]; omega
  have tr : ∀ n, IntRange [n] → Disco.trunc (Disco.ofInt n) = n := fun n hn => Disco.trunc_ofInt n (hn n (by simp)).1 (hn n (by simp)).2
  refine ⟨fun h => tr _ h, fun hs => ?_, rfl, fun h => congrArg Except.ok (tr _ h), 
    column_rows (pre := [e, Disco.ofInt eln, Disco.zero, Disco.zero, Disco.zero, Disco.zero]) (j := 0) rfl hl rfl rfl (.inl hn'),
    column_rows (pre := [e, Disco.ofInt eln, Disco.zero, Disco.zero, Disco.zero, Disco.zero]) (j := 1) rfl hl rfl rfl (.inl hn'),
    column_rows (pre := [e, Disco.ofInt eln, Disco.zero, Disco.zero, Disco.zero, Disco.zero]) (j := 2) rfl hl rfl rfl (.inl hn'),
    column_rows (pre := [e, Disco.ofInt eln, Disco.zero, Disco.zero, Disco.zero, Disco.zero]) (j := 3) rfl hl rfl rfl (.inl hn'),
    fun hf => ⟨hf, hv⟩⟩
  unfold Small LIST.npl at hs
  simp only [List.length_append, rows_length, List.length_cons, List.length_nil] at hs
  exact toUInt32_nat (by omega)

theorem C48_subshell_accepts {sub : Int} {e : Dbl} {eln : Int} {sec ter : List Int} {es ps : List Dbl} (hs : 6 * (sec.length : Int) + 6 < 2147483648) :
    let ok := ter.length = sec.length ∧ es.length = sec.length ∧ ps.length = sec.length
    (ok → ∃ l, SubshellData.make sub e eln sec ter es ps = .ok l) ∧ (¬ok → SubshellData.make sub e eln sec ter es ps = .error .exc) := by
  unfold SubshellData.make
  simp only
  constructor
  · intro h
    rw [if_neg (by omega)]
    refine ⟨_, verified_pos ?_⟩
    unfold subshellOk LIST.npl
    simp only [List.length_append, rows_length, List.length_cons, List.length_nil]
    rw [nat32 (by omega), nat32 (by omega)]
    omega
  · intro h
    rw [if_pos (by omega)]

theorem C48_subshell_columns {l : LIST} (h : subshellC.Valid l) (hs : Small l) (hn : 6 < l.data.length) {j : Nat} (hj : j < 6) :
    ∃ xs, SubshellData.col j l = .ok xs ∧ IsColumn xs l.data (6 + j) 6 (toInt32 l.n2).toNat := by
  have h1 : toInt32 l.npl = (toInt32 l.n2 + 1) * 6 := h.2
  rw [small32 hs] at h1
  exact column_of (l := l.data) (p := 6) (j := j) (k := 6) (n := (toInt32 l.n2).toNat) (off := 6 + j) (k' := 6)
    (by omega) hj (.inl (by omega)) (by omega) rfl

/-- A subshell without transitions is accepted; the arrays of designators, energies and probabilities (other than the first) are then undefined. -/
theorem C48_subshell_empty (sub : Int) (e : Dbl) (eln : Int) :
    ∃ l, SubshellData.make sub e eln [] [] [] [] = .ok l ∧ SubshellData.secondarySubshellDesignators l = .ok [] ∧
      SubshellData.tertiarySubshellDesignators l = .error .ub ∧ SubshellData.transitionEnergies l = .error .ub := by
  obtain ⟨l, h⟩ := (C48_subshell_accepts (sub := sub) (e := e) (eln := eln) (sec := []) (ter := []) (es := []) (ps := []) (by decide)).1 ⟨rfl, rfl, rfl⟩
  refine ⟨l, h, ?_⟩
  unfold SubshellData.make at h
  simp only at h
  split at h
  · cases h
  obtain ⟨rfl, _⟩ := verified_require h
  exact ⟨column_rows (pre := [e, Disco.ofInt eln, Disco.zero, Disco.zero, Disco.zero, Disco.zero]) (n := 0) (cols := [ofInts [], ofInts [], [], [], [], []]) (j := 0) rfl (by simp [ofInts]) rfl rfl (.inr rfl), rfl, rfl⟩

end

end ENDFtk.Props

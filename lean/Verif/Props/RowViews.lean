import Verif.Section.RowViews
import Verif.Props.CovGetters5
import Verif.Props.Layout3
import Verif.Props.Access2
/-
  C70: getters that give a record row by row (fission products, transitions, J values).

  The statements name, for every row `i`, the values of the record (`l.data[..]`) that the getters of the row return.
-/
set_option linter.unusedVariables false
set_option linter.unusedSectionVars false
set_option linter.unusedSimpArgs false
namespace ENDFtk.Props
open ENDFtk

section
variable [Disco]

/-! ### auxiliary facts -/

theorem rowChunks {data : List Dbl} {k n : Nat} {k' : Int} (hk : 0 < k) (hl : data.length = k * n) (hk' : k' = k) :
    ∃ rs, chunkE k' data = .ok rs ∧ rs.length = n ∧ ∀ i < n, ∃ c, rs[i]? = some c ∧ c.length = k ∧
      ∀ j < k, ∃ x, atE c j = .ok x ∧ data[k * i + j]? = some x := by
  subst hk'
  have hlen : (chunkL k data).length = n := by
    rw [chunkL_length, hl]
    have : k * n + k - 1 = k * n + (k - 1) := by omega
    rw [this, Nat.mul_add_div hk, Nat.div_eq_of_lt (by omega)]; rfl
  refine ⟨chunkL k data, chunkE_ok (by omega), hlen, fun i hi => ?_⟩
  have e1 : k * i = i * k := Nat.mul_comm _ _
  have e2 : k * n = n * k := Nat.mul_comm _ _
  have hsz : i * k + k ≤ data.length := by
    have : (i + 1) * k = i * k + k := Nat.succ_mul _ _
    have : (i + 1) * k ≤ n * k := Nat.mul_le_mul_right _ hi
    omega
  refine ⟨(data.drop (i * k)).take k, ?_, by simp; omega, fun j hj => ?_⟩
  · rw [chunkL_getElem? hk, if_pos (by omega)]
  · refine ⟨data[k * i + j]'(by omega), ?_, List.getElem?_eq_getElem _⟩
    unfold atE
    rw [List.getElem?_take_of_lt hj, List.getElem?_drop, List.getElem?_eq_getElem (by omega)]
    simp only [e1]

/-! ### fission products -/

/-- Each product: identifier ZAFP, isomeric state FPS, yield Y and its uncertainty DY. -/
theorem C70_fissionProducts {l : LIST} (h : yieldsC.Valid l) (hs : Small l) :
    ∃ ps, FissionYieldData.fissionProducts l = .ok ps ∧ ps.length = (toInt32 l.n2).toNat ∧ ∀ i < (toInt32 l.n2).toNat, ∃ p za fps y dy,
      ps[i]? = some p ∧ l.data[4 * i]? = some za ∧ l.data[4 * i + 1]? = some fps ∧ l.data[4 * i + 2]? = some y ∧ l.data[4 * i + 3]? = some dy ∧
      FissionYieldData.FissionProduct.fissionProductIdentifier p = .ok (Disco.trunc za) ∧
      FissionYieldData.FissionProduct.isomericState p = .ok (Disco.trunc fps) ∧
      FissionYieldData.FissionProduct.fissionYield p = .ok (y, dy) := by
  have h1 : toInt32 l.npl = toInt32 l.n2 * 4 := h.2
  rw [small32 hs] at h1
  obtain ⟨rs, a, b, c⟩ := rowChunks (data := l.data) (k := 4) (n := (toInt32 l.n2).toNat) (k' := 4) (by decide) (by omega) rfl
  refine ⟨rs, a, b, fun i hi => ?_⟩
  obtain ⟨p, hp, _, hx⟩ := c i hi
  obtain ⟨x0, e0, d0⟩ := hx 0 (by decide)
  obtain ⟨x1, e1, d1⟩ := hx 1 (by decide)
  obtain ⟨x2, e2, d2⟩ := hx 2 (by decide)
  obtain ⟨x3, e3, d3⟩ := hx 3 (by decide)
  refine ⟨p, x0, x1, x2, x3, hp, d0, d1, d2, d3, ?_, ?_, ?_⟩
  · unfold FissionYieldData.FissionProduct.fissionProductIdentifier; rw [e0]; rfl
  · unfold FissionYieldData.FissionProduct.isomericState; rw [e1]; rfl
  · unfold FissionYieldData.FissionProduct.fissionYield; rw [e2, e3]; rfl

/-- Made from arrays: product `i` is `ids[i]`, `states[i]`, `ys[i]`. -/
theorem C70_fissionProducts_made {ids states : List Int} {ys : List (Dbl × Dbl)} {e : Dbl} {int : Int} {l : LIST}
    (h : FissionYieldData.make ids states ys e int = .ok l) (hi : IntRange ids) (hst : IntRange states) :
    ∃ ps, FissionYieldData.fissionProducts l = .ok ps ∧ ps.length = ids.length ∧ ∀ (i : Nat) (id st : Int) (y : Dbl × Dbl),
      ids[i]? = some id → states[i]? = some st → ys[i]? = some y → ∃ p, ps[i]? = some p ∧
        FissionYieldData.FissionProduct.fissionProductIdentifier p = .ok id ∧ FissionYieldData.FissionProduct.isomericState p = .ok st ∧
        FissionYieldData.FissionProduct.fissionYield p = .ok y := by
  unfold FissionYieldData.make at h
  simp only at h
  split at h
  · cases h
  obtain ⟨rfl, hv⟩ := verified_require h
  have hl : (rows ids.length [ofInts ids, ofInts states, ys.map (·.1), ys.map (·.2)]).length = 4 * ids.length := by
    rw [rows_length]; simp [Nat.mul_comm]
  obtain ⟨rs, a, b, c⟩ := rowChunks (k := 4) (n := ids.length) (k' := 4) (by decide) hl rfl
  refine ⟨rs, a, b, fun i id st y h1 h2 h3 => ?_⟩
  have hin := (List.getElem?_eq_some_iff.mp h1).1
  obtain ⟨p, hp, _, hx⟩ := c i hin
  have r : ∀ j (hj : j < 4), (rows ids.length [ofInts ids, ofInts states, ys.map (·.1), ys.map (·.2)])[4 * i + j]? =
      some (([ofInts ids, ofInts states, ys.map (·.1), ys.map (·.2)][j]'hj).getD i Disco.zero) := fun j hj => by
    have := rows_getElem? (n := ids.length) (cols := [ofInts ids, ofInts states, ys.map (·.1), ys.map (·.2)]) (i := i) (j := j) hj
    rw [if_pos hin] at this
    rw [← this]; congr 1
    show 4 * i + j = i * 4 + j
    omega
  obtain ⟨x0, e0, d0⟩ := hx 0 (by decide)
  obtain ⟨x1, e1, d1⟩ := hx 1 (by decide)
  obtain ⟨x2, e2, d2⟩ := hx 2 (by decide)
  obtain ⟨x3, e3, d3⟩ := hx 3 (by decide)
  rw [r 0 (by decide)] at d0; rw [r 1 (by decide)] at d1; rw [r 2 (by decide)] at d2; rw [r 3 (by decide)] at d3
  simp only [List.getElem_cons_zero, List.getElem_cons_succ, List.getD_eq_getElem?_getD, ofInts, List.getElem?_map, h1, h2, h3, Option.map_some, Option.getD_some,
    Option.some.injEq] at d0 d1 d2 d3
  subst d0; subst d1; subst d2; subst d3
  refine ⟨p, hp, ?_, ?_, ?_⟩
  · unfold FissionYieldData.FissionProduct.fissionProductIdentifier; rw [e0]
    have := hi id (List.mem_iff_getElem?.mpr ⟨i, h1⟩)
    exact congrArg Except.ok (Disco.trunc_ofInt _ this.1 this.2)
  · unfold FissionYieldData.FissionProduct.isomericState; rw [e1]
    have := hst st (List.mem_iff_getElem?.mpr ⟨i, h2⟩)
    exact congrArg Except.ok (Disco.trunc_ofInt _ this.1 this.2)
  · unfold FissionYieldData.FissionProduct.fissionYield; rw [e2, e3]; rfl

/-! ### transitions of a subshell -/

/-- SUBJ, SUBK, ETR, FTR: the first four of each row of six, after the row of the subshell itself. -/
theorem C70_subshell_transitions {l : LIST} (h : subshellC.Valid l) (hs : Small l) (hn : 6 ≤ l.data.length) :
    RowGetters (l.data.drop 6) 6 (toInt32 l.n2).toNat (SubshellData.transitions l) [(0, SubshellData.Transition.secondarySubshellDesignator),
      (1, SubshellData.Transition.tertiarySubshellDesignator), (2, SubshellData.Transition.transitionEnergy),
      (3, SubshellData.Transition.transitionProbability)] := by
  have h1 : toInt32 l.npl = (toInt32 l.n2 + 1) * 6 := h.2
  rw [small32 hs] at h1
  obtain ⟨rs, a, b, c⟩ := rowChunks (data := l.data) (k := 6) (n := (toInt32 l.n2).toNat + 1) (k' := 6) (by decide) (by omega) rfl
  refine ⟨rs.drop 1, ?_, by simp; omega, fun i hi => ?_⟩
  · unfold SubshellData.transitions
    rw [a]
    show dropE 1 rs = _
    unfold dropE
    rw [if_neg (by omega)]; rfl
  · obtain ⟨p, hp, _, hx⟩ := c (i + 1) (by omega)
    refine ⟨p, by rw [List.getElem?_drop, Nat.add_comm 1 i]; exact hp, ?_⟩
    have q : ∀ j < 6, ∃ x, atE p j = .ok x ∧ (l.data.drop 6)[6 * i + j]? = some x := fun j hj => by
      obtain ⟨x, e, d⟩ := hx j hj
      refine ⟨x, e, ?_⟩
      rw [List.getElem?_drop, ← d]; congr 1; omega
    simp only [List.forall_mem_cons, List.not_mem_nil, false_implies, implies_true, and_true]
    exact ⟨q 0 (by decide), q 1 (by decide), q 2 (by decide), q 3 (by decide)⟩

/-- A subshell record without any value (NTR = -1) is accepted: then the transitions are undefined. -/
theorem C70_subshell_no_values {l : LIST} (h : l.data = []) : SubshellData.transitions l = .error .ub := by
  unfold SubshellData.transitions chunkE dropE chunkL; rw [h]; simp [Except.bind]

/-! ### transitions of MF12 -/

/-- ES, TP and for LG = 2 also GP. -/
theorem C70_transitions {l : LIST} {lg n : Nat} (hn : n ≠ 0) (hg : lg = 1 ∨ lg = 2) (hl : l.data.length = (lg + 1) * n) (h2 : l.n2 = n) :
    RowGetters l.data (lg + 1) n (TransitionProbabilities.transitions l) ([(0, TransitionProbabilities.Transition.energy),
      (1, TransitionProbabilities.Transition.transitionProbability)] ++
        (if lg = 2 then [(2, TransitionProbabilities.Transition.conditionalProbability)] else [])) ∧
    (lg = 1 → ∃ rs, TransitionProbabilities.transitions l = .ok rs ∧ ∀ c ∈ rs, TransitionProbabilities.Transition.conditionalProbability c = .ok (Disco.ofInt 1)) := by
  have ht := (C59_transitions hn hg hl h2).1
  obtain ⟨rs, a, b, c⟩ := rowChunks (data := l.data) (k := lg + 1) (n := n) (k' := (lg : Int) + 1) (by omega) hl rfl
  have hr : TransitionProbabilities.transitions l = .ok rs := by
    unfold TransitionProbabilities.transitions
    rw [ht]; exact a
  have hlen : ∀ x ∈ rs, x.length = lg + 1 := fun x hx => by
    obtain ⟨i, hi⟩ := List.mem_iff_getElem?.mp hx
    obtain ⟨p, hp, hq, _⟩ := c i (by have := (List.getElem?_eq_some_iff.mp hi).1; omega)
    rw [hi] at hp; cases hp; exact hq
  refine ⟨⟨rs, hr, b, fun i hi => ?_⟩, fun h1 => ⟨rs, hr, fun x hx => ?_⟩⟩
  · obtain ⟨p, hp, hq, hx⟩ := c i hi
    refine ⟨p, hp, ?_⟩
    rcases hg with rfl | rfl
    · simp only [Nat.reduceEqDiff, if_false, List.append_nil, List.forall_mem_cons, List.not_mem_nil, false_implies, implies_true, and_true]
      exact ⟨hx 0 (by decide), hx 1 (by decide)⟩
    · simp only [if_true, List.cons_append, List.nil_append, List.forall_mem_cons, List.not_mem_nil, false_implies, implies_true, and_true]
      refine ⟨hx 0 (by decide), hx 1 (by decide), ?_⟩
      obtain ⟨x, e, d⟩ := hx 2 (by decide)
      refine ⟨x, ?_, d⟩
      unfold TransitionProbabilities.Transition.conditionalProbability
      rw [if_pos hq]; exact e
  · unfold TransitionProbabilities.Transition.conditionalProbability
    rw [if_neg (by rw [hlen x hx]; omega)]

/-- The columns are made from the rows. -/
theorem C70_transitions_columns {l : LIST} : TransitionProbabilities.energies l = (TransitionProbabilities.transitions l).bind (mapE TransitionProbabilities.Transition.energy) ∧
    TransitionProbabilities.transitionProbabilities l = (TransitionProbabilities.transitions l).bind (mapE TransitionProbabilities.Transition.transitionProbability) ∧
    TransitionProbabilities.conditionalProbabilities l = (TransitionProbabilities.transitions l).bind (mapE TransitionProbabilities.Transition.conditionalProbability) :=
  ⟨rfl, rfl, rfl⟩

/-- The number of values need not be a multiple of the number of transitions: only the quotient NPL / NT is verified.  Then there are more transitions than
    the record announces. -/
theorem C70_transitions_extra {l : LIST} (h : transitionC.Valid l) (hs : Small l) (hp : 0 < l.n2) (hr : (l.data.length : Int) % l.n2 ≠ 0) :
    ∃ rs, TransitionProbabilities.transitions l = .ok rs ∧ TransitionProbabilities.numberTransitions l < rs.length := by
  have hc : transitionCheck l = .ok () := h.2
  unfold transitionCheck at hc
  rw [if_neg (by omega)] at hc
  have hg : transitionLG l = 1 ∨ transitionLG l = 2 := by
    by_cases h1 : transitionLG l = 1
    · exact .inl h1
    · by_cases h2 : transitionLG l = 2
      · exact .inr h2
      · rw [if_pos ⟨h1, h2⟩] at hc; cases hc
  have ht : TransitionProbabilities.transitions l = chunkE (transitionLG l + 1) l.data := by
    unfold TransitionProbabilities.transitions TransitionProbabilities.transitionType
    rw [if_neg (by omega)]; rfl
  have hq : transitionLG l = (l.data.length : Int) / l.n2 - 1 := by
    unfold transitionLG LIST.npl
    rw [Int.tdiv_eq_ediv_of_nonneg (by omega)]
    refine toInt32_of ⟨?_, ?_⟩
    · have := Int.ediv_nonneg (a := (l.data.length : Int)) (b := l.n2) (by omega) (by omega); omega
    · have := Int.ediv_le_self (a := (l.data.length : Int)) l.n2 (by omega)
      have := small32 hs
      have hh : (l.data.length : Int) < 2147483648 := hs
      omega
  have hm := Int.emod_add_mul_ediv (l.data.length : Int) l.n2
  have hm0 := Int.emod_nonneg (l.data.length : Int) (b := l.n2) (by omega)
  obtain ⟨k, hk⟩ : ∃ k : Nat, transitionLG l + 1 = k ∧ (k = 2 ∨ k = 3) := by
    rcases hg with h | h <;> rw [h]
    · exact ⟨2, rfl, .inl rfl⟩
    · exact ⟨3, rfl, .inr rfl⟩
  have hd : (l.data.length : Int) / l.n2 = k := by omega
  rw [hd] at hm
  refine ⟨chunkL k l.data, by rw [ht, hk.1]; exact chunkE_ok (by omega), ?_⟩
  rw [chunkL_length]
  unfold TransitionProbabilities.numberTransitions
  rcases hk.2 with rfl | rfl <;> omega

/-! ### J values -/

/-- J values of the energy independent unresolved resonances of 2/151 (case A): D, AJ, AMUN, GNO, GG, 0. -/
theorem C70_jValuesA {l : LIST} (h : (listC.checked lvalueAOk).Valid l) (hs : Small l) :
    RowGetters l.data 6 (toInt32 l.n2).toNat (UnresolvedALValue.jValues l) [(0, UnresolvedALValue.JValue.averageLevelSpacing),
      (1, UnresolvedALValue.JValue.spin), (3, UnresolvedALValue.JValue.averageNeutronWidth), (4, UnresolvedALValue.JValue.averageGammaWidth)] ∧
    ∃ js, UnresolvedALValue.jValues l = .ok js ∧ ∀ i < (toInt32 l.n2).toNat, ∃ c x, js[i]? = some c ∧ l.data[6 * i + 2]? = some x ∧
      UnresolvedALValue.JValue.neutronWidthDegreesFreedom c = .ok (Disco.trunc x) := by
  have h1 : toInt32 l.npl = 6 * toInt32 l.n2 := h.2
  rw [small32 hs] at h1
  obtain ⟨rs, a, b, c⟩ := rowChunks (data := l.data) (k := 6) (n := (toInt32 l.n2).toNat) (k' := 6) (by decide) (by omega) rfl
  refine ⟨⟨rs, a, b, fun i hi => ?_⟩, ⟨rs, a, fun i hi => ?_⟩⟩
  · obtain ⟨p, hp, _, hx⟩ := c i hi
    refine ⟨p, hp, ?_⟩
    simp only [List.forall_mem_cons, List.not_mem_nil, false_implies, implies_true, and_true]
    exact ⟨hx 0 (by decide), hx 1 (by decide), hx 3 (by decide), hx 4 (by decide)⟩
  · obtain ⟨p, hp, _, hx⟩ := c i hi
    obtain ⟨x, e, d⟩ := hx 2 (by decide)
    refine ⟨p, x, hp, d, ?_⟩
    unfold UnresolvedALValue.JValue.neutronWidthDegreesFreedom; rw [e]; rfl

/-- J values of 32/151: D, AJ, GNO, GG, GF, GX. -/
theorem C70_jValuesCov {l : LIST} (h : (listC.checked lvalueAOk).Valid l) (hs : Small l) :
    RowGetters l.data 6 (toInt32 l.n2).toNat (UnresolvedCovLValue.jValues l) [(0, UnresolvedCovLValue.JValue.averageLevelSpacing),
      (1, UnresolvedCovLValue.JValue.spin), (2, UnresolvedCovLValue.JValue.averageNeutronWidth), (3, UnresolvedCovLValue.JValue.averageGammaWidth),
      (4, UnresolvedCovLValue.JValue.averageFissionWidth), (5, UnresolvedCovLValue.JValue.averageCompetitiveWidth)] := by
  have h1 : toInt32 l.npl = 6 * toInt32 l.n2 := h.2
  rw [small32 hs] at h1
  obtain ⟨rs, a, b, c⟩ := rowChunks (data := l.data) (k := 6) (n := (toInt32 l.n2).toNat) (k' := 6) (by decide) (by omega) rfl
  refine ⟨rs, a, b, fun i hi => ?_⟩
  obtain ⟨p, hp, _, hx⟩ := c i hi
  refine ⟨p, hp, ?_⟩
  simp only [List.forall_mem_cons, List.not_mem_nil, false_implies, implies_true, and_true]
  exact ⟨hx 0 (by decide), hx 1 (by decide), hx 2 (by decide), hx 3 (by decide), hx 4 (by decide), hx 5 (by decide)⟩

/-- The columns are made from the rows (both kinds). -/
theorem C70_jValues_columns {l : LIST} :
    UnresolvedALValue.spinValues l = (UnresolvedALValue.jValues l).bind (mapE UnresolvedALValue.JValue.spin) ∧
    UnresolvedALValue.averageLevelSpacings l = (UnresolvedALValue.jValues l).bind (mapE UnresolvedALValue.JValue.averageLevelSpacing) ∧
    UnresolvedALValue.averageNeutronWidths l = (UnresolvedALValue.jValues l).bind (mapE UnresolvedALValue.JValue.averageNeutronWidth) ∧
    UnresolvedALValue.averageGammaWidths l = (UnresolvedALValue.jValues l).bind (mapE UnresolvedALValue.JValue.averageGammaWidth) ∧
    UnresolvedCovLValue.spinValues l = (UnresolvedCovLValue.jValues l).bind (mapE UnresolvedCovLValue.JValue.spin) ∧
    UnresolvedCovLValue.averageLevelSpacings l = (UnresolvedCovLValue.jValues l).bind (mapE UnresolvedCovLValue.JValue.averageLevelSpacing) ∧
    UnresolvedCovLValue.averageNeutronWidths l = (UnresolvedCovLValue.jValues l).bind (mapE UnresolvedCovLValue.JValue.averageNeutronWidth) ∧
    UnresolvedCovLValue.averageGammaWidths l = (UnresolvedCovLValue.jValues l).bind (mapE UnresolvedCovLValue.JValue.averageGammaWidth) ∧
    UnresolvedCovLValue.averageFissionWidths l = (UnresolvedCovLValue.jValues l).bind (mapE UnresolvedCovLValue.JValue.averageFissionWidth) ∧
    UnresolvedCovLValue.averageCompetitiveWidths l = (UnresolvedCovLValue.jValues l).bind (mapE UnresolvedCovLValue.JValue.averageCompetitiveWidth) :=
  ⟨rfl, rfl, rfl, rfl, rfl, rfl, rfl, rfl, rfl, rfl⟩

/-! ### angular distributions of file 4 -/

/-- The incident energy of a distribution: C2 of its first line. -/
def energyOf : LIST ⊕ TAB1 → Dbl
  | .inl r => r.c2
  | .inr r => r.base.c2

/-- One distribution for each incident energy, in this order; Legendre coefficients only (LTT = 1), tables only (LTT = 2), or all Legendre coefficients before
    all tables (LTT = 3); none if the distributions are isotropic (LTT = 0). -/
theorem C70_mf4_distributions (s : Sect MF4Data) :
    (Get.MF4.angularDistributions s).map energyOf = Get.MF4.incidentEnergies s ∧
    (∃ ls ts, Get.MF4.angularDistributions s = ls.map .inl ++ ts.map .inr ∧ (Get.MF4.LTT s ∈ [0, 2] → ls = []) ∧ (Get.MF4.LTT s ∈ [0, 1] → ts = []) ∧
      (∀ b, s.data.dist = .legendre b → ls = b.seq) ∧ (∀ b, s.data.dist = .tabulated b → ts = b.seq) ∧
      (∀ b, s.data.dist = .mixed b → ls = b.legendre.seq ∧ ts = b.tabulated.seq)) := by
  obtain ⟨za, awr, mt, lct, d⟩ := s
  unfold Get.MF4.angularDistributions Get.MF4.incidentEnergies Get.MF4.LTT
  simp only
  cases d with
  | isotropic => exact ⟨rfl, [], [], by simp⟩
  | legendre b =>
    refine ⟨by simp [Get.AngularDistributions.incidentEnergies, energyOf, Get.LegendreCoefficients4.E], b.seq, [], by simp, ?_, by simp, ?_⟩
    · intro h; simp [Angular.ltt] at h
    · simp
  | tabulated b =>
    refine ⟨by simp [Get.AngularDistributions.incidentEnergies, energyOf, Get.TabulatedDistribution4.E], [], b.seq, by simp, by simp, ?_, ?_⟩
    · intro h; simp [Angular.ltt] at h
    · simp
  | mixed b =>
    refine ⟨?_, b.legendre.seq, b.tabulated.seq, rfl, ?_, ?_, ?_⟩
    · simp [Get.MixedDistributions.angularDistributions, Get.MixedDistributions.incidentEnergies, Get.AngularDistributions.incidentEnergies, energyOf,
        Get.TabulatedDistribution4.E, Get.LegendreCoefficients4.E]
      rfl
    · intro h; simp [Angular.ltt] at h
    · intro h; simp [Angular.ltt] at h
    · simp

end
end ENDFtk.Props

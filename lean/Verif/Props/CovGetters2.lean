import Verif.Props.CovGetters
/-
  C60: short range blocks (LCOMP = 1), triangular covariance matrices, resonances of 2/151.
-/
set_option linter.unusedVariables false
set_option linter.unusedSectionVars false
set_option linter.unusedSimpArgs false
namespace ENDFtk.Props
open ENDFtk
variable [Disco]

/-! ### resonances of the short range blocks (LCOMP = 1) -/

theorem half {m : Int} (h : 0 ≤ m) : 2 * Int.tdiv (m * (m + 1)) 2 = m * (m + 1) := by
  have h0 : 0 ≤ m * (m + 1) := Int.mul_nonneg h (by omega)
  rw [Int.tdiv_eq_ediv_of_nonneg h0]
  have : m * (m + 1) % 2 = 0 := by
    rw [Int.mul_emod]
    rcases Int.emod_two_eq m with h' | h'
    · rw [h']; simp
    · have : (m + 1) % 2 = 0 := by omega
      rw [this]; simp
  omega

section
variable {mpar : Int} {er aj g1 g2 g3 g4 values : List Dbl} {l : LIST}

/-- The arrays given are the arrays returned, the covariance matrix included. -/
theorem short_make (h : ShortRangeBlock.make mpar er aj g1 g2 g3 g4 values = .ok l) (hs : Small l) :
    (∀ (j : Nat) (c : List Dbl), [er, aj, g1, g2, g3, g4][j]? = some c → ShortRangeBlock.col j l = .ok c) ∧
    ShortRangeBlock.covarianceMatrix l = .ok values ∧ ShortRangeBlock.numberResonances l = er.length ∧
    (IsInt32 mpar → ShortRangeBlock.numberParametersWithCovariances l = mpar ∧ 2 * (values.length : Int) = mpar * er.length * (mpar * er.length + 1)) ∧
    (l.Fits → shortRangeC.Valid l) := by
  unfold ShortRangeBlock.make at h
  simp only at h
  split at h
  · cases h
  obtain ⟨rfl, hv⟩ := verified_require h
  rename_i h1
  have hl : ∀ x ∈ [er, aj, g1, g2, g3, g4], x.length = er.length := by
    have h1 := same_of h1
    simp only [List.forall_mem_cons, List.not_mem_nil, false_implies, implies_true, and_true] at h1 ⊢
    simp only [h1, and_self]
  have hrl : (rows er.length [er, aj, g1, g2, g3, g4]).length = er.length * 6 := rows_length _ _
  unfold Small LIST.npl at hs
  simp only [List.length_append, hrl] at hs
  have hn : toInt32 (er.length : Int) = er.length := nat32 (by omega)
  obtain ⟨h2, h3, h4, h5, h6⟩ := id hv
  simp only [LIST.npl, List.length_append, hrl, hn] at h2 h3 h4 h5 h6
  have hn0 : er.length ≠ 0 := by omega
  refine ⟨fun j c hc => ?_, ?_, hn, fun hi => ⟨toInt32_of hi, ?_⟩, fun hf => ⟨hf, hv⟩⟩
  · unfold ShortRangeBlock.col ShortRangeBlock.numberResonances
    simp only [hn]
    rw [takeE_append (by omega)]
    exact col_rows hc hl rfl rfl (.inl hn0)
  · unfold ShortRangeBlock.covarianceMatrix ShortRangeBlock.numberResonances
    simp only [hn]
    rw [dropE_append (by omega)]
  · rw [toInt32_of hi] at h3 h6
    have := half (m := mpar * er.length) (Int.mul_nonneg (by omega) (by omega))
    rw [nat32 (by omega)] at h6
    omega

theorem short_order {n : Nat} {values : List Dbl} (h1 : ShortRangeBlock.numberResonances l = n) (h2 : ShortRangeBlock.numberParametersWithCovariances l = mpar)
    (h3 : 2 * (values.length : Int) = mpar * n * (mpar * n + 1)) :
    ShortRangeBlock.numberParametersWithCovariances l = mpar ∧ ShortRangeBlock.covarianceMatrixOrder l = mpar * n ∧
      ShortRangeBlock.numberValues l = values.length ∧ 2 * (values.length : Int) = mpar * n * (mpar * n + 1) := by
  unfold ShortRangeBlock.numberValues ShortRangeBlock.covarianceMatrixOrder
  rw [h1, h2, ← h3]
  refine ⟨rfl, rfl, ?_, rfl⟩
  rw [Int.tdiv_eq_ediv_of_nonneg (by omega)]; omega

/-- What is accepted: MPAR from 1 to 5, at least one resonance, arrays of the same size and the upper triangle of a matrix of order MPAR * NRB. -/
theorem short_accepts (hi : IsInt32 mpar) (hs : 6 * (er.length : Int) + values.length < 2147483648)
    (hq : mpar * er.length * (mpar * er.length + 1) < 2147483648) :
    let ok := 1 ≤ mpar ∧ mpar ≤ 5 ∧ er ≠ [] ∧ (∀ x ∈ [aj, g1, g2, g3, g4], x.length = er.length) ∧
      2 * (values.length : Int) = mpar * er.length * (mpar * er.length + 1)
    (ok → ∃ l, ShortRangeBlock.make mpar er aj g1 g2 g3 g4 values = .ok l) ∧
    (¬ok → ShortRangeBlock.make mpar er aj g1 g2 g3 g4 values = .error .exc) := by
  have hrl : (rows er.length [er, aj, g1, g2, g3, g4]).length = er.length * 6 := rows_length _ _
  have hok : shortRangeOk ⟨Disco.zero, Disco.zero, mpar, 0, er.length, rows er.length [er, aj, g1, g2, g3, g4] ++ values⟩ ↔
      1 ≤ mpar ∧ mpar ≤ 5 ∧ er ≠ [] ∧ 2 * (values.length : Int) = mpar * er.length * (mpar * er.length + 1) := by
    unfold shortRangeOk LIST.npl
    simp only [List.length_append, hrl]
    rw [nat32 (by omega), nat32 (by omega), toInt32_of hi, ne_eq, ← List.length_eq_zero_iff]
    simp only [Over]
    by_cases h : 1 ≤ mpar
    · have h0 : 0 ≤ mpar * (er.length : Int) := Int.mul_nonneg (by omega) (by omega)
      have := half (m := mpar * er.length) h0
      have := Int.mul_nonneg h0 (show 0 ≤ mpar * (er.length : Int) + 1 by omega)
      omega
    · omega
  unfold ShortRangeBlock.make
  simp only
  refine ⟨fun ⟨a, b, c, d, e⟩ => ?_, fun h => ?_⟩
  · rw [if_neg (not_same d)]
    exact ⟨_, verified_pos (hok.mpr ⟨a, b, c, e⟩)⟩
  · split
    · rfl
    · rename_i h1
      refine verified_neg fun h' => h ?_
      have := hok.mp h'
      exact ⟨this.1, this.2.1, this.2.2.1, same_of h1, this.2.2.2⟩

/-- The columns and the triangle of a block that was read. -/
theorem short_layout (h : shortRangeC.Valid l) (hs : Small l) : ∃ n t : Nat, n ≠ 0 ∧ toInt32 l.n2 = n ∧ l.data.length = 6 * n + t ∧
    2 * (t : Int) = toInt32 l.l1 * n * (toInt32 l.l1 * n + 1) ∧
    (∀ j < 6, ∃ xs, ShortRangeBlock.col j l = .ok xs ∧ IsColumn xs l.data j 6 n) ∧
    (∀ gs : List (Nat × (List Dbl → Except Err Dbl)), (∀ p ∈ gs, p.1 < 6 ∧ ∀ c, p.2 c = atE c p.1) → RowGetters l.data 6 n (ShortRangeBlock.resonances l) gs) ∧
    ShortRangeBlock.covarianceMatrix l = .ok (l.data.drop (6 * n)) ∧ ShortRangeBlock.numberValues l = t := by
  obtain ⟨h1, h2, h3, h4, h5⟩ : shortRangeOk l := h.2
  rw [small32 hs] at h1 h5
  obtain ⟨n, hn⟩ : ∃ n : Nat, toInt32 l.n2 = n := ⟨(toInt32 l.n2).toNat, by omega⟩
  rw [hn] at h4 h5
  have hh := half (m := toInt32 l.l1 * n) (Int.mul_nonneg (by omega) (by omega))
  have h0 : 0 ≤ Int.tdiv (toInt32 l.l1 * n * (toInt32 l.l1 * n + 1)) 2 :=
    Int.tdiv_nonneg (Int.mul_nonneg (Int.mul_nonneg (by omega) (by omega)) (by have := Int.mul_nonneg (a := toInt32 l.l1) (b := n) (by omega) (by omega); omega)) (by decide)
  obtain ⟨t, ht⟩ : ∃ t : Nat, Int.tdiv (toInt32 l.l1 * n * (toInt32 l.l1 * n + 1)) 2 = t := ⟨_, (Int.toNat_of_nonneg h0).symm⟩
  rw [ht] at h5 hh
  have hlen : l.data.length = 6 * n + t := by omega
  have htake : takeE (6 * ShortRangeBlock.numberResonances l) l.data = .ok (l.data.take (6 * n)) := by
    unfold ShortRangeBlock.numberResonances
    rw [hn, takeE_ok (by omega) (by omega)]
    congr 2
  have htl : (l.data.take (6 * n)).length = 6 * n := by rw [List.length_take]; omega
  have hget : ∀ i < 6 * n, (l.data.take (6 * n))[i]? = l.data[i]? := fun i hi => List.getElem?_take_of_lt hi
  refine ⟨n, t, by omega, hn, hlen, hh, fun j hj => ?_, fun gs hg => ?_, ?_, ?_⟩
  · unfold ShortRangeBlock.col
    rw [htake]
    obtain ⟨xs, h1, h2⟩ := column_of (l := l.data.take (6 * n)) (p := 0) (j := j) (k := 6) (n := n) (off := j) (k' := 6) (by omega) hj (.inl (by omega))
      (by omega) rfl
    refine ⟨xs, h1, h2.1, fun i hi => ?_⟩
    have := h2.2 i hi
    rw [this]
    have := mul_succ_le (k := 6) hi
    rw [hget _ (by omega)]
    congr 1; omega
  · obtain ⟨rs, h1, h2, h3⟩ := rowGetters_of (data := l.data.take (6 * n)) (k := 6) (n := n) (k' := 6) (gs := gs) (by decide) htl rfl hg
    refine ⟨rs, ?_, h2, fun i hi => ?_⟩
    · unfold ShortRangeBlock.resonances
      rw [htake]
      exact h1
    · obtain ⟨c, h4, h5⟩ := h3 i hi
      refine ⟨c, h4, fun p hp => ?_⟩
      obtain ⟨x, h6, h7⟩ := h5 p hp
      have := (hg p hp).1
      have := mul_succ_le (k := 6) hi
      exact ⟨x, h6, by rw [← hget _ (by omega)]; exact h7⟩
  · unfold ShortRangeBlock.covarianceMatrix ShortRangeBlock.numberResonances
    rw [hn, dropE_ok (by omega) (by omega)]
    congr 2
  · unfold ShortRangeBlock.numberValues ShortRangeBlock.covarianceMatrixOrder ShortRangeBlock.numberParametersWithCovariances ShortRangeBlock.numberResonances
    rw [hn]; exact ht

end

section
variable {mpar : Int} {er aj gt gn gg gf gfa gfb values : List Dbl} {l : LIST}

theorem C60_shortRangeBreitWigner (h : ShortRangeBreitWignerBlock.make mpar er aj gt gn gg gf values = .ok l) (hs : Small l) :
    ShortRangeBlock.resonanceEnergies l = .ok er ∧ ShortRangeBlock.spinValues l = .ok aj ∧ ShortRangeBreitWignerBlock.totalWidths l = .ok gt ∧
    ShortRangeBreitWignerBlock.neutronWidths l = .ok gn ∧ ShortRangeBreitWignerBlock.gammaWidths l = .ok gg ∧ ShortRangeBreitWignerBlock.fissionWidths l = .ok gf ∧
    ShortRangeBlock.covarianceMatrix l = .ok values ∧ ShortRangeBlock.numberResonances l = er.length ∧
    (IsInt32 mpar → ShortRangeBlock.numberParametersWithCovariances l = mpar ∧ ShortRangeBlock.covarianceMatrixOrder l = mpar * er.length ∧
      ShortRangeBlock.numberValues l = values.length ∧ 2 * (values.length : Int) = mpar * er.length * (mpar * er.length + 1)) ∧
    (l.Fits → shortRangeC.Valid l) := by
  obtain ⟨h1, h2, h3, h4, h5⟩ := short_make h hs
  exact ⟨h1 0 _ rfl, h1 1 _ rfl, h1 2 _ rfl, h1 3 _ rfl, h1 4 _ rfl, h1 5 _ rfl, h2, h3, fun hi => short_order h3 (h4 hi).1 (h4 hi).2, h5⟩

theorem C60_shortRangeReichMoore (h : ShortRangeReichMooreBlock.make mpar er aj gn gg gfa gfb values = .ok l) (hs : Small l) :
    ShortRangeBlock.resonanceEnergies l = .ok er ∧ ShortRangeBlock.spinValues l = .ok aj ∧ ShortRangeReichMooreBlock.neutronWidths l = .ok gn ∧
    ShortRangeReichMooreBlock.gammaWidths l = .ok gg ∧ ShortRangeReichMooreBlock.firstFissionWidths l = .ok gfa ∧
    ShortRangeReichMooreBlock.secondFissionWidths l = .ok gfb ∧ ShortRangeBlock.covarianceMatrix l = .ok values ∧
    ShortRangeBlock.numberResonances l = er.length ∧
    (IsInt32 mpar → ShortRangeBlock.numberParametersWithCovariances l = mpar ∧ ShortRangeBlock.covarianceMatrixOrder l = mpar * er.length ∧
      ShortRangeBlock.numberValues l = values.length ∧ 2 * (values.length : Int) = mpar * er.length * (mpar * er.length + 1)) ∧
    (l.Fits → shortRangeC.Valid l) := by
  obtain ⟨h1, h2, h3, h4, h5⟩ := short_make h hs
  exact ⟨h1 0 _ rfl, h1 1 _ rfl, h1 2 _ rfl, h1 3 _ rfl, h1 4 _ rfl, h1 5 _ rfl, h2, h3, fun hi => short_order h3 (h4 hi).1 (h4 hi).2, h5⟩

theorem C60_shortRange_accepts (hi : IsInt32 mpar) (hs : 6 * (er.length : Int) + values.length < 2147483648)
    (hq : mpar * er.length * (mpar * er.length + 1) < 2147483648) :
    let triangle := 1 ≤ mpar ∧ mpar ≤ 5 ∧ er ≠ [] ∧ 2 * (values.length : Int) = mpar * er.length * (mpar * er.length + 1)
    let same := ∀ x ∈ [aj, gn, gg], x.length = er.length
    (triangle ∧ same ∧ gt.length = er.length ∧ gf.length = er.length → ∃ l, ShortRangeBreitWignerBlock.make mpar er aj gt gn gg gf values = .ok l) ∧
    (¬(triangle ∧ same ∧ gt.length = er.length ∧ gf.length = er.length) → ShortRangeBreitWignerBlock.make mpar er aj gt gn gg gf values = .error .exc) ∧
    (triangle ∧ same ∧ gfa.length = er.length ∧ gfb.length = er.length → ∃ l, ShortRangeReichMooreBlock.make mpar er aj gn gg gfa gfb values = .ok l) ∧
    (¬(triangle ∧ same ∧ gfa.length = er.length ∧ gfb.length = er.length) → ShortRangeReichMooreBlock.make mpar er aj gn gg gfa gfb values = .error .exc) := by
  have a := short_accepts (er := er) (aj := aj) (g1 := gt) (g2 := gn) (g3 := gg) (g4 := gf) hi hs hq
  have b := short_accepts (er := er) (aj := aj) (g1 := gn) (g2 := gg) (g3 := gfa) (g4 := gfb) hi hs hq
  simp only [List.forall_mem_cons, List.not_mem_nil, false_implies, implies_true, and_true] at a b ⊢
  exact ⟨fun ⟨⟨t1, t2, t3, t4⟩, ⟨s1, s2, s3⟩, u1, u2⟩ => a.1 ⟨t1, t2, t3, ⟨s1, u1, s2, s3, u2⟩, t4⟩,
    fun h => a.2 fun ⟨t1, t2, t3, ⟨s1, u1, s2, s3, u2⟩, t4⟩ => h ⟨⟨t1, t2, t3, t4⟩, ⟨s1, s2, s3⟩, u1, u2⟩,
    fun ⟨⟨t1, t2, t3, t4⟩, ⟨s1, s2, s3⟩, u1, u2⟩ => b.1 ⟨t1, t2, t3, ⟨s1, s2, s3, u1, u2⟩, t4⟩,
    fun h => b.2 fun ⟨t1, t2, t3, ⟨s1, s2, s3, u1, u2⟩, t4⟩ => h ⟨⟨t1, t2, t3, t4⟩, ⟨s1, s2, s3⟩, u1, u2⟩⟩

/-- ER, AJ, GT, GN, GG, GF of each resonance, then the upper triangle. -/
theorem C60_shortRangeBreitWigner_layout (h : shortRangeC.Valid l) (hs : Small l) : ∃ n t : Nat, n ≠ 0 ∧ ShortRangeBlock.numberResonances l = n ∧
    l.data.length = 6 * n + t ∧ 2 * (t : Int) = toInt32 l.l1 * n * (toInt32 l.l1 * n + 1) ∧ ShortRangeBlock.numberValues l = t ∧
    ShortRangeBlock.numberParametersWithCovariances l = toInt32 l.l1 ∧ ShortRangeBlock.covarianceMatrix l = .ok (l.data.drop (6 * n)) ∧
    Columns l.data 6 n 0 [ShortRangeBlock.resonanceEnergies l, ShortRangeBlock.spinValues l, ShortRangeBreitWignerBlock.totalWidths l,
      ShortRangeBreitWignerBlock.neutronWidths l, ShortRangeBreitWignerBlock.gammaWidths l, ShortRangeBreitWignerBlock.fissionWidths l] ∧
    RowGetters l.data 6 n (ShortRangeBlock.resonances l) [(0, BreitWignerLValue.Resonance.resonanceEnergy), (1, BreitWignerLValue.Resonance.spin),
      (2, BreitWignerLValue.Resonance.totalWidth), (3, BreitWignerLValue.Resonance.neutronWidth), (4, BreitWignerLValue.Resonance.gammaWidth),
      (5, BreitWignerLValue.Resonance.fissionWidth)] := by
  obtain ⟨n, t, h1, h2, h3, h4, c, h5, h6, h7⟩ := short_layout h hs
  refine ⟨n, t, h1, h2, h3, h4, h7, rfl, h6, ⟨c 0 (by decide), c 1 (by decide), c 2 (by decide), c 3 (by decide), c 4 (by decide), c 5 (by decide), trivial⟩, h5 _ ?_⟩
  simp only [List.forall_mem_cons, List.not_mem_nil, false_implies, implies_true, and_true]
  exact ⟨⟨by decide, fun _ => rfl⟩, ⟨by decide, fun _ => rfl⟩, ⟨by decide, fun _ => rfl⟩, ⟨by decide, fun _ => rfl⟩, ⟨by decide, fun _ => rfl⟩,
    ⟨by decide, fun _ => rfl⟩⟩

/-- ER, AJ, GN, GG, GFA, GFB of each resonance, then the upper triangle. -/
theorem C60_shortRangeReichMoore_layout (h : shortRangeC.Valid l) (hs : Small l) : ∃ n t : Nat, n ≠ 0 ∧ ShortRangeBlock.numberResonances l = n ∧
    l.data.length = 6 * n + t ∧ 2 * (t : Int) = toInt32 l.l1 * n * (toInt32 l.l1 * n + 1) ∧ ShortRangeBlock.numberValues l = t ∧
    ShortRangeBlock.numberParametersWithCovariances l = toInt32 l.l1 ∧ ShortRangeBlock.covarianceMatrix l = .ok (l.data.drop (6 * n)) ∧
    Columns l.data 6 n 0 [ShortRangeBlock.resonanceEnergies l, ShortRangeBlock.spinValues l, ShortRangeReichMooreBlock.neutronWidths l,
      ShortRangeReichMooreBlock.gammaWidths l, ShortRangeReichMooreBlock.firstFissionWidths l, ShortRangeReichMooreBlock.secondFissionWidths l] ∧
    RowGetters l.data 6 n (ShortRangeBlock.resonances l) [(0, ReichMooreLValue.Resonance.resonanceEnergy), (1, ReichMooreLValue.Resonance.spin),
      (2, ReichMooreLValue.Resonance.neutronWidth), (3, ReichMooreLValue.Resonance.gammaWidth), (4, ReichMooreLValue.Resonance.firstFissionWidth),
      (5, ReichMooreLValue.Resonance.secondFissionWidth)] := by
  obtain ⟨n, t, h1, h2, h3, h4, c, h5, h6, h7⟩ := short_layout h hs
  refine ⟨n, t, h1, h2, h3, h4, h7, rfl, h6, ⟨c 0 (by decide), c 1 (by decide), c 2 (by decide), c 3 (by decide), c 4 (by decide), c 5 (by decide), trivial⟩, h5 _ ?_⟩
  simp only [List.forall_mem_cons, List.not_mem_nil, false_implies, implies_true, and_true]
  exact ⟨⟨by decide, fun _ => rfl⟩, ⟨by decide, fun _ => rfl⟩, ⟨by decide, fun _ => rfl⟩, ⟨by decide, fun _ => rfl⟩, ⟨by decide, fun _ => rfl⟩,
    ⟨by decide, fun _ => rfl⟩⟩

end

/-! ### `resonances()` of 2/151 -/

section
variable {l : LIST}

/-- The rows of `resonances()` are the entries of the list: the values of `BreitWignerLValue`. -/
theorem C60_breitWigner_resonances (h : lvalueC.Valid l) (hs : Small l) :
    RowGetters l.data 6 (toInt32 l.n2).toNat (ResolvedLValue.resonances l) [(0, BreitWignerLValue.Resonance.resonanceEnergy), (1, BreitWignerLValue.Resonance.spin),
      (2, BreitWignerLValue.Resonance.totalWidth), (3, BreitWignerLValue.Resonance.neutronWidth), (4, BreitWignerLValue.Resonance.gammaWidth),
      (5, BreitWignerLValue.Resonance.fissionWidth)] ∧
    RowGetters l.data 6 (toInt32 l.n2).toNat (ResolvedLValue.resonances l) [(0, ReichMooreLValue.Resonance.resonanceEnergy), (1, ReichMooreLValue.Resonance.spin),
      (2, ReichMooreLValue.Resonance.neutronWidth), (3, ReichMooreLValue.Resonance.gammaWidth), (4, ReichMooreLValue.Resonance.firstFissionWidth),
      (5, ReichMooreLValue.Resonance.secondFissionWidth)] := by
  have hok : lvalueOk l := h.2
  unfold lvalueOk at hok
  rw [small32 hs] at hok
  have hlen : l.data.length = 6 * (toInt32 l.n2).toNat := by omega
  constructor
  all_goals
    refine rowGetters_of (by decide) hlen rfl ?_
    simp only [List.forall_mem_cons, List.not_mem_nil, false_implies, implies_true, and_true]
    exact ⟨⟨by decide, fun _ => rfl⟩, ⟨by decide, fun _ => rfl⟩, ⟨by decide, fun _ => rfl⟩, ⟨by decide, fun _ => rfl⟩, ⟨by decide, fun _ => rfl⟩,
      ⟨by decide, fun _ => rfl⟩⟩

/-- The competitive widths, as an array and row by row: the total width minus the three other ones, in this order, whatever the rounding of the
    subtraction. -/
theorem C60_competitiveWidths (h : lvalueC.Valid l) (hs : Small l) (sub : Dbl → Dbl → Dbl) :
    ∃ gx rows, BreitWignerLValue.competitiveWidths sub l = .ok gx ∧ ResolvedLValue.resonances l = .ok rows ∧ gx.length = (toInt32 l.n2).toNat ∧
      rows.length = (toInt32 l.n2).toNat ∧
      ∀ i < (toInt32 l.n2).toNat, ∃ gt gn gg gf, l.data[6 * i + 2]? = some gt ∧ l.data[6 * i + 3]? = some gn ∧ l.data[6 * i + 4]? = some gg ∧
        l.data[6 * i + 5]? = some gf ∧ gx[i]? = some (sub (sub (sub gt gn) gg) gf) ∧
        ∃ c, rows[i]? = some c ∧ BreitWignerLValue.Resonance.competitiveWidth sub c = .ok (sub (sub (sub gt gn) gg) gf) := by
  obtain ⟨⟨⟨_, _, _⟩, ⟨_, _, _⟩, ⟨gt, e1, c1⟩, ⟨gn, e2, c2⟩, ⟨gg, e3, c3⟩, ⟨gf, e4, c4⟩, _⟩, _⟩ := C59_breitWigner h hs
  obtain ⟨⟨rs, e5, c5, c6⟩, _⟩ := C60_breitWigner_resonances h hs
  refine ⟨(gt.zip (gn.zip (gg.zip gf))).map fun q => sub (sub (sub q.1 q.2.1) q.2.2.1) q.2.2.2, rs, ?_, e5, ?_, c5, fun i hi => ?_⟩
  · unfold BreitWignerLValue.competitiveWidths
    rw [e1, e2, e3, e4]; rfl
  · simp [c1.1, c2.1, c3.1, c4.1]
  · obtain ⟨c, h1, h2⟩ := c6 i hi
    simp only [List.forall_mem_cons, List.not_mem_nil, false_implies, implies_true, and_true] at h2
    obtain ⟨_, _, ⟨a, p1, q1⟩, ⟨b, p2, q2⟩, ⟨d, p3, q3⟩, ⟨e, p4, q4⟩⟩ := h2
    refine ⟨a, b, d, e, q1, q2, q3, q4, ?_, c, h1, ?_⟩
    · have r1 := c1.2 i hi
      have r2 := c2.2 i hi
      have r3 := c3.2 i hi
      have r4 := c4.2 i hi
      rw [Nat.add_comm, q1] at r1
      rw [Nat.add_comm, q2] at r2
      rw [Nat.add_comm, q3] at r3
      rw [Nat.add_comm, q4] at r4
      rw [List.getElem?_map, (List.getElem?_zip_eq_some (z := (a, b, d, e))).mpr ⟨r1, List.getElem?_zip_eq_some.mpr ⟨r2, List.getElem?_zip_eq_some.mpr ⟨r3, r4⟩⟩⟩]
      rfl
    · unfold BreitWignerLValue.Resonance.competitiveWidth
      rw [p1, p2, p3, p4]; rfl

end
end ENDFtk.Props

import Verif.Props.CovGetters2
/-
  C60: triangular covariance matrices, compact uncertainties (LCOMP = 2), scattering radius uncertainties, unresolved resonances.
-/
set_option linter.unusedVariables false
set_option linter.unusedSectionVars false
set_option linter.unusedSimpArgs false
namespace ENDFtk.Props
open ENDFtk
variable [Disco]

/-! ### triangular matrices -/

theorem isqrt_spec (n : Nat) : isqrt n * isqrt n ≤ n ∧ n < (isqrt n + 1) * (isqrt n + 1) := by
  induction n with
  | zero => decide
  | succ n ih =>
    unfold isqrt
    split
    · rename_i h
      refine ⟨h, ?_⟩
      have e : (isqrt n + 1 + 1) * (isqrt n + 1 + 1) = (isqrt n + 1) * (isqrt n + 1) + 2 * (isqrt n + 1) + 1 := by
        rw [Nat.mul_add, Nat.add_mul]; omega
      omega
    · rename_i h
      omega

theorem isqrt_unique {n r : Nat} (h1 : r * r ≤ n) (h2 : n < (r + 1) * (r + 1)) : isqrt n = r := by
  obtain ⟨h3, h4⟩ := isqrt_spec n
  have a : ¬r + 1 ≤ isqrt n := fun h => by have := Nat.mul_le_mul h h; omega
  have b : ¬isqrt n + 1 ≤ r := fun h => by have := Nat.mul_le_mul h h; omega
  omega

theorem order_eq {n k : Nat} (h : 2 * n = k * (k + 1)) (hs : n < 2 ^ 29 - 1) : TriangularMatrix.order n = k := by
  unfold TriangularMatrix.order
  rw [Nat.mod_eq_of_lt (by omega)]
  have e : 1 + 8 * n = (2 * k + 1) * (2 * k + 1) := by
    have e1 : (2 * k + 1) * (2 * k + 1) = 4 * (k * (k + 1)) + 1 := by
      rw [Nat.mul_add k k 1, Nat.mul_add, Nat.add_mul, Nat.mul_assoc, Nat.mul_left_comm k 2 k]; omega
    omega
  rw [e, isqrt_unique (r := 2 * k + 1) (Nat.le_refl _) (Nat.mul_lt_mul_of_lt_of_lt (by omega) (by omega))]
  omega

section
variable {mpar : Int} {values : List Dbl} {l : LIST}

/-- The values of the matrix are those given; NPAR is the order of the matrix. -/
theorem C60_triangularMatrix (h : TriangularMatrix.make mpar values = .ok l) :
    TriangularMatrix.covarianceMatrix l = values ∧ (IsInt32 mpar → TriangularMatrix.numberAverageParameters l = mpar) ∧
    (values.length < 2 ^ 29 - 1 → ∃ k : Nat, 1 ≤ k ∧ 2 * values.length = k * (k + 1) ∧ TriangularMatrix.covarianceMatrixOrder l = k ∧
      TriangularMatrix.numberValues l = values.length) ∧ (l.Fits → triangleC.Valid l) := by
  obtain ⟨rfl, hv⟩ := verified_require h
  refine ⟨rfl, fun hi => toInt32_of hi, fun hs => ?_, fun hf => ⟨hf, hv⟩⟩
  obtain ⟨h1, h2, h3⟩ := hv
  simp only [LIST.npl] at h1 h2 h3
  have hle : TriangularMatrix.order values.length ≤ 2 ^ 30 := by
    unfold TriangularMatrix.order
    have := (isqrt_spec ((1 + 8 * values.length) % 2 ^ 32)).1
    have h4 : (1 + 8 * values.length) % 2 ^ 32 < 2 ^ 32 := Nat.mod_lt _ (by decide)
    have : ¬2 ^ 16 + 1 ≤ isqrt ((1 + 8 * values.length) % 2 ^ 32) := fun h => by have := Nat.mul_le_mul h h; omega
    omega
  rw [nat32 (by omega)] at h1 h2 h3
  rw [nat32 (by omega)] at h3
  have hh := half (m := (TriangularMatrix.order values.length : Int)) (by omega)
  refine ⟨TriangularMatrix.order values.length, by omega, ?_, nat32 (by omega), ?_⟩
  · have : ((2 * values.length : Nat) : Int) = ((TriangularMatrix.order values.length * (TriangularMatrix.order values.length + 1) : Nat) : Int) := by
      push_cast; omega
    omega
  · unfold TriangularMatrix.numberValues TriangularMatrix.covarianceMatrixOrder
    rw [nat32 (by omega)]
    exact h3.2.symm

/-- Accepted are the triangles of matrices of order 1, 2, 3, ... -/
theorem C60_triangularMatrix_accepts (hs : values.length < 2 ^ 29 - 1) :
    ((∃ k ≥ 1, 2 * values.length = k * (k + 1)) → ∃ l, TriangularMatrix.make mpar values = .ok l) ∧
    ((¬∃ k ≥ 1, 2 * values.length = k * (k + 1)) → TriangularMatrix.make mpar values = .error .exc) := by
  constructor
  · rintro ⟨k, hk, h⟩
    have hk' : k * 1 ≤ k * (k + 1) := Nat.mul_le_mul_left _ (by omega)
    refine ⟨_, verified_pos ?_⟩
    unfold triangleOk LIST.npl
    simp only [order_eq h hs]
    rw [nat32 (by omega), nat32 (by omega)]
    have hh := half (m := (k : Int)) (by omega)
    have : ((2 * values.length : Nat) : Int) = ((k * (k + 1) : Nat) : Int) := by rw [h]
    push_cast at this
    simp only [Over]
    omega
  · intro h
    refine verified_neg fun hv => ?_
    obtain ⟨k, h1, h2, _⟩ := (C60_triangularMatrix (verified_pos hv : TriangularMatrix.make mpar values = .ok _)).2.2.1 hs
    exact h ⟨k, h1, h2⟩

/-- A matrix that was read: NPAR (NPAR + 1) / 2 values. -/
theorem C60_triangularMatrix_layout (h : triangleC.Valid l) (hs : Small l) : TriangularMatrix.covarianceMatrix l = l.data ∧
    TriangularMatrix.covarianceMatrixOrder l = toInt32 l.n2 ∧ TriangularMatrix.numberAverageParameters l = toInt32 l.l1 ∧ 1 ≤ toInt32 l.n2 ∧
    TriangularMatrix.numberValues l = l.data.length ∧ 2 * (l.data.length : Int) = toInt32 l.n2 * (toInt32 l.n2 + 1) := by
  obtain ⟨h1, h2, h3⟩ : triangleOk l := h.2
  rw [small32 hs] at h1 h3
  have hh := half (m := toInt32 l.n2) (by omega)
  exact ⟨rfl, rfl, rfl, h2, h3.2.symm, by omega⟩

end

/-! ### compact uncertainties (LCOMP = 2) -/

section
variable {l : LIST}

/-- A record that was read: `NRSA` entries of 12 values. -/
theorem compact_layout (h : compactUncertaintiesC.Valid l) (hs : Small l) : l.data.length = 12 * (toInt32 l.n2).toNat ∧ 1 ≤ toInt32 l.n2 ∧
    (∀ j < 12, ∃ xs, column (j : Nat) 12 l.data = .ok xs ∧ IsColumn xs l.data j 12 (toInt32 l.n2).toNat) := by
  obtain ⟨h1, h2, h3⟩ : compactOk l := h.2
  rw [small32 hs] at h1 h3
  refine ⟨by omega, h2, fun j hj => ?_⟩
  have := column_of (l := l.data) (p := 0) (j := j) (k := 12) (n := (toInt32 l.n2).toNat) (off := j) (k' := 12) (by omega) hj (.inl (by omega)) (by omega) rfl
  rw [Nat.zero_add] at this
  exact this

/-- Entries of 12 values made from 12 arrays. -/
theorem compact_make {c1 c2 : Dbl} {l1 l2 : Int} {n : Nat} {cols : List (List Dbl)} (h12 : cols.length = 12) (hc : ∀ x ∈ cols, x.length = n)
    (h : verified (require compactOk) ⟨c1, c2, l1, l2, (n : Int), rows n cols⟩ = .ok l) :
    l = ⟨c1, c2, l1, l2, (n : Int), rows n cols⟩ ∧ (∀ (j : Nat) (c : List Dbl), cols[j]? = some c → column (j : Int) 12 l.data = .ok c) ∧
    (Small l → toInt32 l.n2 = n) ∧ (l.Fits → compactUncertaintiesC.Valid l) := by
  obtain ⟨rfl, hv⟩ := verified_require h
  have hn : n ≠ 0 := by
    intro h0
    have := hv.2.1
    simp [h0, toInt32] at this
  refine ⟨rfl, fun j c hj => col_rows hj hc rfl (by omega) (.inl hn), fun hs => ?_, fun hf => ⟨hf, hv⟩⟩
  unfold Small LIST.npl at hs
  simp only [rows_length, h12] at hs
  exact nat32 (by omega)

theorem compact_ok {c1 c2 : Dbl} {l1 l2 : Int} {n : Nat} {cols : List (List Dbl)} (h12 : cols.length = 12) (hs : 12 * (n : Int) < 2147483648) :
    compactOk ⟨c1, c2, l1, l2, (n : Int), rows n cols⟩ ↔ n ≠ 0 := by
  unfold compactOk LIST.npl
  simp only [rows_length, h12]
  rw [nat32 (by omega), nat32 (by omega)]
  omega

end

section
variable {awri qx apl : Dbl} {lrx : Bool} {er aj gt gn gg gf gfa gfb der dgn dgg dgf dgfa dgfb : List Dbl} {l : LIST}

theorem C60_compactBreitWigner (h : CompactBreitWignerUncertainties.make awri qx lrx er aj gt gn gg gf der dgn dgg dgf = .ok l) :
    CompactBreitWignerUncertainties.atomicWeightRatio l = awri ∧ CompactBreitWignerUncertainties.competitiveQValue l = qx ∧
    CompactBreitWignerUncertainties.competitiveWidthFlag l = lrx ∧ (Small l → CompactBreitWignerUncertainties.numberResonances l = er.length) ∧
    CompactBreitWignerUncertainties.resonanceEnergies l = .ok er ∧ CompactBreitWignerUncertainties.spinValues l = .ok aj ∧
    CompactBreitWignerUncertainties.totalWidths l = .ok gt ∧ CompactBreitWignerUncertainties.neutronWidths l = .ok gn ∧
    CompactBreitWignerUncertainties.gammaWidths l = .ok gg ∧ CompactBreitWignerUncertainties.fissionWidths l = .ok gf ∧
    CompactBreitWignerUncertainties.resonanceEnergyUncertainties l = .ok der ∧ CompactBreitWignerUncertainties.neutronWidthUncertainties l = .ok dgn ∧
    CompactBreitWignerUncertainties.gammaWidthUncertainties l = .ok dgg ∧ CompactBreitWignerUncertainties.fissionWidthUncertainties l = .ok dgf ∧
    (l.Fits → compactUncertaintiesC.Valid l) := by
  unfold CompactBreitWignerUncertainties.make at h
  simp only at h
  split at h
  · cases h
  rename_i h1
  have hl : ∀ x ∈ [er, aj, gt, gn, gg, gf, der, List.replicate er.length Disco.zero, List.replicate er.length Disco.zero, dgn, dgg, dgf],
      x.length = er.length := by
    have h1 := same_of h1
    simp only [List.forall_mem_cons, List.not_mem_nil, false_implies, implies_true, and_true] at h1 ⊢
    simp only [h1, List.length_replicate, and_self]
  obtain ⟨e, c, hn, hf⟩ := compact_make rfl hl h
  refine ⟨by rw [e]; rfl, by rw [e]; rfl, ?_, hn, c 0 _ rfl, c 1 _ rfl, c 2 _ rfl, c 3 _ rfl, c 4 _ rfl, c 5 _ rfl, c 6 _ rfl, c 9 _ rfl, c 10 _ rfl, c 11 _ rfl, hf⟩
  rw [e]
  cases lrx <;> rfl

theorem C60_compactReichMoore (h : CompactReichMooreUncertainties.make awri apl er aj gn gg gfa gfb der dgn dgg dgfa dgfb = .ok l) :
    CompactReichMooreUncertainties.atomicWeightRatio l = awri ∧ CompactReichMooreUncertainties.lDependentScatteringRadius l = apl ∧
    (Small l → CompactReichMooreUncertainties.numberResonances l = er.length) ∧
    CompactReichMooreUncertainties.resonanceEnergies l = .ok er ∧ CompactReichMooreUncertainties.spinValues l = .ok aj ∧
    CompactReichMooreUncertainties.neutronWidths l = .ok gn ∧ CompactReichMooreUncertainties.gammaWidths l = .ok gg ∧
    CompactReichMooreUncertainties.firstFissionWidths l = .ok gfa ∧ CompactReichMooreUncertainties.secondFissionWidths l = .ok gfb ∧
    CompactReichMooreUncertainties.resonanceEnergyUncertainties l = .ok der ∧ CompactReichMooreUncertainties.neutronWidthUncertainties l = .ok dgn ∧
    CompactReichMooreUncertainties.gammaWidthUncertainties l = .ok dgg ∧ CompactReichMooreUncertainties.firstFissionWidthUncertainties l = .ok dgfa ∧
    CompactReichMooreUncertainties.secondFissionWidthUncertainties l = .ok dgfb ∧ (l.Fits → compactUncertaintiesC.Valid l) := by
  unfold CompactReichMooreUncertainties.make at h
  simp only at h
  split at h
  · cases h
  rename_i h1
  have hl : ∀ x ∈ [er, aj, gn, gg, gfa, gfb, der, List.replicate er.length Disco.zero, dgn, dgg, dgfa, dgfb], x.length = er.length := by
    have h1 := same_of h1
    simp only [List.forall_mem_cons, List.not_mem_nil, false_implies, implies_true, and_true] at h1 ⊢
    simp only [h1, List.length_replicate, and_self]
  obtain ⟨e, c, hn, hf⟩ := compact_make rfl hl h
  exact ⟨by rw [e]; rfl, by rw [e]; rfl, hn, c 0 _ rfl, c 1 _ rfl, c 2 _ rfl, c 3 _ rfl, c 4 _ rfl, c 5 _ rfl, c 6 _ rfl, c 8 _ rfl, c 9 _ rfl, c 10 _ rfl, c 11 _ rfl, hf⟩

/-- Accepted are arrays of the same size with at least one resonance. -/
theorem C60_compact_accepts (hs : 12 * (er.length : Int) < 2147483648) :
    let same := er ≠ [] ∧ ∀ x ∈ [aj, gt, gn, gg, gf, der, dgn, dgg, dgf], x.length = er.length
    let same' := er ≠ [] ∧ ∀ x ∈ [aj, gn, gg, gfa, gfb, der, dgn, dgg, dgfa, dgfb], x.length = er.length
    (same → ∃ l, CompactBreitWignerUncertainties.make awri qx lrx er aj gt gn gg gf der dgn dgg dgf = .ok l) ∧
    (¬same → CompactBreitWignerUncertainties.make awri qx lrx er aj gt gn gg gf der dgn dgg dgf = .error .exc) ∧
    (same' → ∃ l, CompactReichMooreUncertainties.make awri apl er aj gn gg gfa gfb der dgn dgg dgfa dgfb = .ok l) ∧
    (¬same' → CompactReichMooreUncertainties.make awri apl er aj gn gg gfa gfb der dgn dgg dgfa dgfb = .error .exc) := by
  unfold CompactBreitWignerUncertainties.make CompactReichMooreUncertainties.make
  rw [ne_eq, ← List.length_eq_zero_iff]
  simp only
  refine ⟨fun h => ?_, fun h => ?_, fun h => ?_, fun h => ?_⟩
  · rw [if_neg (not_same h.2)]
    exact ⟨_, verified_pos ((compact_ok rfl hs).mpr h.1)⟩
  · split
    · rfl
    · rename_i h1
      exact verified_neg fun h' => h ⟨(compact_ok rfl hs).mp h', same_of h1⟩
  · rw [if_neg (not_same h.2)]
    exact ⟨_, verified_pos ((compact_ok rfl hs).mpr h.1)⟩
  · split
    · rfl
    · rename_i h1
      exact verified_neg fun h' => h ⟨(compact_ok rfl hs).mp h', same_of h1⟩

/-- ER, AJ, GT, GN, GG, GF; DER, 0, 0, DGN, DGG, DGF. -/
theorem C60_compactBreitWigner_layout (h : compactUncertaintiesC.Valid l) (hs : Small l) :
    Columns l.data 12 (toInt32 l.n2).toNat 0 [CompactBreitWignerUncertainties.resonanceEnergies l, CompactBreitWignerUncertainties.spinValues l,
      CompactBreitWignerUncertainties.totalWidths l, CompactBreitWignerUncertainties.neutronWidths l, CompactBreitWignerUncertainties.gammaWidths l,
      CompactBreitWignerUncertainties.fissionWidths l, CompactBreitWignerUncertainties.resonanceEnergyUncertainties l] ∧
    Columns l.data 12 (toInt32 l.n2).toNat 9 [CompactBreitWignerUncertainties.neutronWidthUncertainties l,
      CompactBreitWignerUncertainties.gammaWidthUncertainties l, CompactBreitWignerUncertainties.fissionWidthUncertainties l] ∧
    RowGetters l.data 12 (toInt32 l.n2).toNat (CompactBreitWignerUncertainties.resonances l) [(0, CompactBreitWignerUncertainties.Resonance.resonanceEnergy),
      (1, CompactBreitWignerUncertainties.Resonance.spin), (2, CompactBreitWignerUncertainties.Resonance.totalWidth),
      (3, CompactBreitWignerUncertainties.Resonance.neutronWidth), (4, CompactBreitWignerUncertainties.Resonance.gammaWidth),
      (5, CompactBreitWignerUncertainties.Resonance.fissionWidth), (6, CompactBreitWignerUncertainties.Resonance.resonanceEnergyUncertainty),
      (9, CompactBreitWignerUncertainties.Resonance.neutronWidthUncertainty), (10, CompactBreitWignerUncertainties.Resonance.gammaWidthUncertainty),
      (11, CompactBreitWignerUncertainties.Resonance.fissionWidthUncertainty)] ∧
    CompactBreitWignerUncertainties.atomicWeightRatio l = l.c1 ∧ CompactBreitWignerUncertainties.competitiveQValue l = l.c2 ∧
    (CompactBreitWignerUncertainties.competitiveWidthFlag l = true ↔ l.l2 ≠ 0) ∧ CompactBreitWignerUncertainties.numberResonances l = toInt32 l.n2 := by
  obtain ⟨hlen, _, c⟩ := compact_layout h hs
  refine ⟨⟨c 0 (by decide), c 1 (by decide), c 2 (by decide), c 3 (by decide), c 4 (by decide), c 5 (by decide), c 6 (by decide), trivial⟩,
    ⟨c 9 (by decide), c 10 (by decide), c 11 (by decide), trivial⟩, rowGetters_of (by decide) hlen rfl ?_, rfl, rfl,
    by simp [CompactBreitWignerUncertainties.competitiveWidthFlag], rfl⟩
  simp only [List.forall_mem_cons, List.not_mem_nil, false_implies, implies_true, and_true]
  exact ⟨⟨by decide, fun _ => rfl⟩, ⟨by decide, fun _ => rfl⟩, ⟨by decide, fun _ => rfl⟩, ⟨by decide, fun _ => rfl⟩, ⟨by decide, fun _ => rfl⟩, ⟨by decide, fun _ => rfl⟩, ⟨by decide, fun _ => rfl⟩, ⟨by decide, fun _ => rfl⟩, ⟨by decide, fun _ => rfl⟩, ⟨by decide, fun _ => rfl⟩⟩

/-- ER, AJ, GN, GG, GFA, GFB; DER, 0, DGN, DGG, DGFA, DGFB. -/
theorem C60_compactReichMoore_layout (h : compactUncertaintiesC.Valid l) (hs : Small l) :
    Columns l.data 12 (toInt32 l.n2).toNat 0 [CompactReichMooreUncertainties.resonanceEnergies l, CompactReichMooreUncertainties.spinValues l,
      CompactReichMooreUncertainties.neutronWidths l, CompactReichMooreUncertainties.gammaWidths l, CompactReichMooreUncertainties.firstFissionWidths l,
      CompactReichMooreUncertainties.secondFissionWidths l, CompactReichMooreUncertainties.resonanceEnergyUncertainties l] ∧
    Columns l.data 12 (toInt32 l.n2).toNat 8 [CompactReichMooreUncertainties.neutronWidthUncertainties l,
      CompactReichMooreUncertainties.gammaWidthUncertainties l, CompactReichMooreUncertainties.firstFissionWidthUncertainties l,
      CompactReichMooreUncertainties.secondFissionWidthUncertainties l] ∧
    RowGetters l.data 12 (toInt32 l.n2).toNat (CompactReichMooreUncertainties.resonances l) [(0, CompactReichMooreUncertainties.Resonance.resonanceEnergy),
      (1, CompactReichMooreUncertainties.Resonance.spin), (2, CompactReichMooreUncertainties.Resonance.neutronWidth),
      (3, CompactReichMooreUncertainties.Resonance.gammaWidth), (4, CompactReichMooreUncertainties.Resonance.firstFissionWidth),
      (5, CompactReichMooreUncertainties.Resonance.secondFissionWidth), (6, CompactReichMooreUncertainties.Resonance.resonanceEnergyUncertainty),
      (8, CompactReichMooreUncertainties.Resonance.neutronWidthUncertainty), (9, CompactReichMooreUncertainties.Resonance.gammaWidthUncertainty),
      (10, CompactReichMooreUncertainties.Resonance.firstFissionWidthUncertainty), (11, CompactReichMooreUncertainties.Resonance.secondFissionWidthUncertainty)] ∧
    CompactReichMooreUncertainties.atomicWeightRatio l = l.c1 ∧ CompactReichMooreUncertainties.lDependentScatteringRadius l = l.c2 ∧
    CompactReichMooreUncertainties.numberResonances l = toInt32 l.n2 := by
  obtain ⟨hlen, _, c⟩ := compact_layout h hs
  refine ⟨⟨c 0 (by decide), c 1 (by decide), c 2 (by decide), c 3 (by decide), c 4 (by decide), c 5 (by decide), c 6 (by decide), trivial⟩,
    ⟨c 8 (by decide), c 9 (by decide), c 10 (by decide), c 11 (by decide), trivial⟩, rowGetters_of (by decide) hlen rfl ?_, rfl, rfl, rfl⟩
  simp only [List.forall_mem_cons, List.not_mem_nil, false_implies, implies_true, and_true]
  exact ⟨⟨by decide, fun _ => rfl⟩, ⟨by decide, fun _ => rfl⟩, ⟨by decide, fun _ => rfl⟩, ⟨by decide, fun _ => rfl⟩, ⟨by decide, fun _ => rfl⟩, ⟨by decide, fun _ => rfl⟩, ⟨by decide, fun _ => rfl⟩, ⟨by decide, fun _ => rfl⟩, ⟨by decide, fun _ => rfl⟩, ⟨by decide, fun _ => rfl⟩, ⟨by decide, fun _ => rfl⟩⟩

end

/-! ### uncertainties of the scattering radius -/

/-- DAP and the l dependent values that follow it. -/
theorem C60_radiusUncertainties {dap : Dbl} {us : List Dbl} {l : LIST} (h : RadiusUncertainties.make dap us = .ok l) :
    RadiusUncertainties.defaultUncertainty l = .ok dap ∧ RadiusUncertainties.uncertainties l = .ok us := by
  cases h
  exact ⟨rfl, dropE_append (a := [dap]) rfl⟩

/-- A record that was read: the first value and the others; for an empty list the getters read out of bounds. -/
theorem C60_radiusUncertainties_layout {l : LIST} :
    (l.data ≠ [] → Value l.data 0 (RadiusUncertainties.defaultUncertainty l) ∧ RadiusUncertainties.uncertainties l = .ok (l.data.drop 1)) ∧
    (l.data = [] → RadiusUncertainties.defaultUncertainty l = .error .ub ∧ RadiusUncertainties.uncertainties l = .error .ub) := by
  unfold RadiusUncertainties.defaultUncertainty RadiusUncertainties.uncertainties
  rw [ne_eq, ← List.length_eq_zero_iff]
  refine ⟨fun h => ⟨value_of (by omega), dropE_ok (by omega) (by omega)⟩, fun h => ?_⟩
  rw [List.length_eq_zero_iff] at h
  rw [h]
  exact ⟨rfl, rfl⟩

/-! ### unresolved resonances -/

section
variable {awri : Dbl} {lm : Int} {aj d gno gg gf gx : List Dbl} {l : LIST}

theorem C60_unresolved (h : UnresolvedCovLValue.make awri lm aj d gno gg gf gx = .ok l) :
    UnresolvedCovLValue.atomicWeightRatio l = awri ∧ (IsInt32 lm → UnresolvedCovLValue.orbitalMomentum l = lm) ∧
    (Small l → UnresolvedCovLValue.numberSpinValues l = aj.length) ∧ UnresolvedCovLValue.averageLevelSpacings l = .ok d ∧ UnresolvedCovLValue.spinValues l = .ok aj ∧
    UnresolvedCovLValue.averageNeutronWidths l = .ok gno ∧ UnresolvedCovLValue.averageGammaWidths l = .ok gg ∧ UnresolvedCovLValue.averageFissionWidths l = .ok gf ∧
    UnresolvedCovLValue.averageCompetitiveWidths l = .ok gx ∧ (l.Fits → (listC.checked lvalueAOk).Valid l) := by
  unfold UnresolvedCovLValue.make at h
  simp only at h
  split at h
  · cases h
  obtain ⟨rfl, hv⟩ := verified_require h
  rename_i h1
  have hl : ∀ x ∈ [d, aj, gno, gg, gf, gx], x.length = aj.length := by
    have h1 := same_of h1
    simp only [List.forall_mem_cons, List.not_mem_nil, false_implies, implies_true, and_true] at h1 ⊢
    simp only [h1, and_self]
  have key : ∀ (j : Nat) (c : List Dbl), [d, aj, gno, gg, gf, gx][j]? = some c →
      (chunkE 6 (rows aj.length [d, aj, gno, gg, gf, gx])).bind (mapE (fun x => atE x j)) = .ok c := fun j c hc => chunk_rows hc hl rfl
  refine ⟨rfl, fun hi => toInt32_of hi, fun hs => ?_, key 0 _ rfl, key 1 _ rfl, key 2 _ rfl, key 3 _ rfl, key 4 _ rfl, key 5 _ rfl, fun hf => ⟨hf, hv⟩⟩
  unfold Small LIST.npl at hs
  simp only [rows_length, List.length_cons, List.length_nil] at hs
  exact nat32 (by omega)

/-- Accepted are arrays of the same size, also empty ones. -/
theorem C60_unresolved_accepts (hs : 6 * (aj.length : Int) < 2147483648) :
    let same := ∀ x ∈ [d, gno, gg, gf, gx], x.length = aj.length
    (same → ∃ l, UnresolvedCovLValue.make awri lm aj d gno gg gf gx = .ok l) ∧
    (¬same → UnresolvedCovLValue.make awri lm aj d gno gg gf gx = .error .exc) := by
  have hok : lvalueAOk ⟨awri, Disco.zero, lm, 0, aj.length, rows aj.length [d, aj, gno, gg, gf, gx]⟩ := by
    unfold lvalueAOk LIST.npl
    simp only [rows_length, List.length_cons, List.length_nil]
    rw [nat32 (by omega), nat32 (by omega)]
    omega
  unfold UnresolvedCovLValue.make
  simp only
  refine ⟨fun h => ?_, fun h => ?_⟩
  · rw [if_neg (not_same h)]
    exact ⟨_, verified_pos hok⟩
  · rw [if_pos (Decidable.byContradiction fun h1 => h (same_of h1))]

/-- D, AJ, GNO, GG, GF, GX. -/
theorem C60_unresolved_layout (h : (listC.checked lvalueAOk).Valid l) (hs : Small l) :
    Columns l.data 6 (toInt32 l.n2).toNat 0 [UnresolvedCovLValue.averageLevelSpacings l, UnresolvedCovLValue.spinValues l,
      UnresolvedCovLValue.averageNeutronWidths l, UnresolvedCovLValue.averageGammaWidths l, UnresolvedCovLValue.averageFissionWidths l,
      UnresolvedCovLValue.averageCompetitiveWidths l] ∧
    UnresolvedCovLValue.atomicWeightRatio l = l.c1 ∧ UnresolvedCovLValue.orbitalMomentum l = toInt32 l.l1 ∧ UnresolvedCovLValue.numberSpinValues l = toInt32 l.n2 := by
  have hok : lvalueAOk l := h.2
  unfold lvalueAOk at hok
  rw [small32 hs] at hok
  have hlen : l.data.length = 6 * (toInt32 l.n2).toNat := by omega
  have c : ∀ j < 6, ∃ xs, UnresolvedCovLValue.col j l = .ok xs ∧ IsColumn xs l.data j 6 (toInt32 l.n2).toNat := fun j hj => by
    obtain ⟨rs, h1, h2, h3⟩ := rowGetters_of (data := l.data) (k := 6) (n := (toInt32 l.n2).toNat) (k' := 6) (gs := [(j, fun c => atE c j)]) (by decide) hlen rfl
      (fun p hp => by cases List.mem_singleton.mp hp; exact ⟨hj, fun _ => rfl⟩)
    have h3 : ∀ i < (toInt32 l.n2).toNat, ∃ c, rs[i]? = some c ∧ ∃ x, atE c j = .ok x ∧ l.data[6 * i + j]? = some x := fun i hi => by
      obtain ⟨c, a, b⟩ := h3 i hi
      exact ⟨c, a, b (j, fun c => atE c j) (by simp)⟩
    refine ⟨rs.map (fun c => c.getD j Disco.zero), ?_, by rw [List.length_map, h2], fun i hi => ?_⟩
    · unfold UnresolvedCovLValue.col
      have h1 : chunkE 6 l.data = .ok rs := h1
      rw [h1]
      refine mapE_ok fun c hc => ?_
      obtain ⟨i, hi⟩ := List.mem_iff_getElem?.mp hc
      have : i < rs.length := by
        by_cases h : i < rs.length
        · exact h
        · rw [List.getElem?_eq_none (by omega)] at hi; cases hi
      obtain ⟨c', a, x, b, _⟩ := h3 i (by omega)
      rw [hi] at a
      cases a
      show atE c j = _
      unfold atE at b ⊢
      rw [List.getD_eq_getElem?_getD]
      cases hj : c[j]? with
      | none => rw [hj] at b; cases b
      | some y => rfl
    · obtain ⟨c, a, x, b, e⟩ := h3 i hi
      rw [List.getElem?_map, a, Nat.add_comm, e]
      unfold atE at b
      show some (c.getD j Disco.zero) = _
      rw [List.getD_eq_getElem?_getD]
      cases hj : c[j]? with
      | none => rw [hj] at b; cases b
      | some y => rw [hj] at b; cases b; rfl
  exact ⟨⟨c 0 (by decide), c 1 (by decide), c 2 (by decide), c 3 (by decide), c 4 (by decide), c 5 (by decide), trivial⟩, rfl, rfl, rfl⟩

end
end ENDFtk.Props

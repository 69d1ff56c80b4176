import Verif.Props.Getters8
/-
  C48, continued: the covariance components.
-/
set_option linter.unusedVariables false
set_option linter.unusedSectionVars false
set_option linter.unusedSimpArgs false
namespace ENDFtk.Props
open ENDFtk

section
variable [Disco]

theorem toInt32_id {n : Int} (h : IsInt32 n) : toInt32 n = n := toInt32_of h

theorem t0 : toInt32 0 = 0 := nat32 (n := 0) (by decide)
theorem t5 : toInt32 5 = 5 := nat32 (n := 5) (by decide)
theorem t6 : toInt32 6 = 6 := nat32 (n := 6) (by decide)
theorem t7 : toInt32 7 = 7 := nat32 (n := 7) (by decide)

/-! ### covariance pairs -/

theorem explicit_pairs {l : LIST} (hi : IsInt32 l.l2) (h : covariancePairsCheck l = .ok ()) : explicitCheck l = .ok () := by
  unfold explicitCheck
  rw [if_pos]
  · exact h
  · unfold covariancePairsCheck at h
    simp only [toInt32_id hi] at h
    split at h
    · omega
    · split at h
      · omega
      · cases h

/-- Covariance pairs given as one array: the getters return what was given, and the second array is empty. -/
theorem C48_covariancePairs {lb : Int} {es fs : List Dbl} {l : LIST} (h : CovariancePairs.make2 lb es fs = .ok l) (hi : IsInt32 lb) :
    CovariancePairs.procedure l = lb ∧ CovariancePairs.numberPairs l = es.length ∧ CovariancePairs.numberSecondPairs l = 0 ∧
    CovariancePairs.firstArrayEnergies l = .ok es ∧ (es ≠ [] → CovariancePairs.firstArrayFValues l = .ok fs) ∧
    CovariancePairs.secondArrayEnergies l = .ok [] ∧ (l.Fits → explicitC.Valid l) := by
  unfold CovariancePairs.make2 at h
  split at h
  · cases h
  rename_i hlen
  obtain ⟨rfl, hv⟩ := verified_ok h
  have hl : ∀ x ∈ [es, fs], x.length = es.length := by simp; omega
  have hd : (rows es.length [es, fs]).length = es.length * 2 := rows_length _ _
  have h0 : toInt32 0 = 0 := nat32 (n := 0) (by decide)
  have hp : CovariancePairs.numberPairs ⟨Disco.zero, Disco.zero, 0, lb, es.length, rows es.length [es, fs]⟩ = es.length := by
    unfold CovariancePairs.numberPairs LIST.npl
    simp only [hd]
    rw [show (2 : Int) = ((2 : Nat) : Int) from rfl, ← Int.ofNat_tdiv]; simp
  have hs : CovariancePairs.numberSecondPairs ⟨Disco.zero, Disco.zero, 0, lb, es.length, rows es.length [es, fs]⟩ = 0 := h0
  have ht : takeE (2 * ((es.length : Int) - 0)) (rows es.length [es, fs]) = .ok (rows es.length [es, fs]) := by
    rw [takeE_ok (by omega) (by omega), List.take_of_length_le (by omega)]
  refine ⟨toInt32_id hi, hp, hs, ?_, ?_, ?_, fun hf => ⟨hf, explicit_pairs hi hv⟩⟩
  · unfold CovariancePairs.firstArrayEnergies
    rw [hp, hs, ht]
    exact stride_rows rfl hl rfl
  · intro hne
    unfold CovariancePairs.firstArrayFValues
    rw [hp, hs, ht]
    exact col_rows (j := 1) rfl hl rfl rfl (.inl (by simpa using hne))
  · unfold CovariancePairs.secondArrayEnergies column
    rw [hp, hs, dropE_ok (by omega) (by simp only; omega), List.drop_eq_nil_of_le (by simp only; omega)]
    show strideE 2 [] = _
    rw [strideE_ok (by decide)]; simp [strideL]

/-- Asking for the values of the second array when there is none is undefined. -/
theorem C48_covariancePairs_noSecond {lb : Int} {es fs : List Dbl} {l : LIST} (h : CovariancePairs.make2 lb es fs = .ok l) :
    CovariancePairs.secondArrayFValues l = .error .ub := by
  unfold CovariancePairs.make2 at h
  split at h
  · cases h
  obtain ⟨rfl, hv⟩ := verified_ok h
  have hd : (rows es.length [es, fs]).length = es.length * 2 := rows_length _ _
  have h0 : toInt32 0 = 0 := nat32 (n := 0) (by decide)
  have hp : Int.tdiv ((es.length * 2 : Nat) : Int) 2 = es.length := by
    rw [show (2 : Int) = ((2 : Nat) : Int) from rfl, ← Int.ofNat_tdiv]; simp
  unfold CovariancePairs.secondArrayFValues CovariancePairs.numberPairs CovariancePairs.numberSecondPairs column dropE LIST.npl
  simp only [hd, h0, hp]
  rw [if_pos (by omega)]; rfl

theorem pairsCheck_iff {l : LIST} {lb lt : Int} (h1 : toInt32 l.l2 = lb) (h2 : toInt32 l.l1 = lt) (h3 : toInt32 l.npl = 2 * toInt32 l.n2) :
    covariancePairsCheck l = if ((lb = 0 ∨ lb = 1 ∨ lb = 2 ∨ lb = 8 ∨ lb = 9) ∧ lt = 0) ∨ ((lb = 3 ∨ lb = 4) ∧ 0 < lt) then .ok () else .error .exc := by
  have ho : ¬ Over (2 * toInt32 l.n2) := by
    have := isInt32_toInt32 l.npl
    rw [h3] at this
    unfold IsInt32 at this
    simp only [Over]; omega
  unfold covariancePairsCheck
  simp only [h1, h2, if_neg ho]
  repeat' split
  all_goals first | rfl | omega

/-- One array: LB 0, 1, 2, 8 or 9, and as many values as energies. -/
theorem C48_covariancePairs_accepts {lb : Int} {es fs : List Dbl} (hi : IsInt32 lb) (hs : 2 * (es.length : Int) < 2147483648) :
    let ok := (lb = 0 ∨ lb = 1 ∨ lb = 2 ∨ lb = 8 ∨ lb = 9) ∧ es.length = fs.length
    (ok → ∃ l, CovariancePairs.make2 lb es fs = .ok l) ∧ (¬ok → CovariancePairs.make2 lb es fs = .error .exc) := by
  have hd : (rows es.length [es, fs]).length = es.length * 2 := rows_length _ _
  have e := pairsCheck_iff (l := ⟨Disco.zero, Disco.zero, 0, lb, es.length, rows es.length [es, fs]⟩) (lb := lb) (lt := 0) (toInt32_id hi) (nat32 (n := 0) (by decide)) (by
    unfold LIST.npl; simp only [hd]; rw [nat32 (by omega), nat32 (by omega)]; omega)
  unfold CovariancePairs.make2
  simp only
  refine ⟨fun ⟨h1, h2⟩ => ?_, fun h => ?_⟩
  · rw [if_neg (not_not_intro h2)]
    exact ⟨_, verified_of_ok (by rw [e, if_pos (.inl ⟨h1, rfl⟩)])⟩
  · by_cases h2 : es.length = fs.length
    · rw [if_neg (not_not_intro h2)]
      exact verified_of_err (by rw [e, if_neg (by omega)])
    · rw [if_pos h2]

/-- Covariance pairs given as two arrays: the getters return both. -/
theorem C48_covariancePairs_two {lb : Int} {ek fk el fl : List Dbl} {l : LIST} (h : CovariancePairs.make4 lb ek fk el fl = .ok l) (hi : IsInt32 lb)
    (hs : (el.length : Int) < 2147483648) :
    CovariancePairs.procedure l = lb ∧ CovariancePairs.numberPairs l = ek.length + el.length ∧ CovariancePairs.numberSecondPairs l = el.length ∧
    CovariancePairs.firstArrayEnergies l = .ok ek ∧ (ek ≠ [] → CovariancePairs.firstArrayFValues l = .ok fk) ∧
    CovariancePairs.secondArrayEnergies l = .ok el ∧ (el ≠ [] → CovariancePairs.secondArrayFValues l = .ok fl) ∧ (l.Fits → explicitC.Valid l) := by
  unfold CovariancePairs.make4 at h
  split at h
  · cases h
  rename_i hlk
  split at h
  · cases h
  rename_i hll
  obtain ⟨rfl, hv⟩ := verified_ok h
  have hlk' : ∀ x ∈ [ek, fk], x.length = ek.length := by simp; omega
  have hll' : ∀ x ∈ [el, fl], x.length = el.length := by simp; omega
  have hdk : (rows ek.length [ek, fk]).length = ek.length * 2 := rows_length _ _
  have hdl : (rows el.length [el, fl]).length = el.length * 2 := rows_length _ _
  have hp : CovariancePairs.numberPairs ⟨Disco.zero, Disco.zero, el.length, lb, (ek.length + el.length : Nat), rows ek.length [ek, fk] ++ rows el.length [el, fl]⟩ = ek.length + el.length := by
    unfold CovariancePairs.numberPairs LIST.npl
    simp only [List.length_append, hdk, hdl]
    rw [show (2 : Int) = ((2 : Nat) : Int) from rfl, ← Int.ofNat_tdiv, ← Nat.add_mul]; simp
  have hn : CovariancePairs.numberSecondPairs ⟨Disco.zero, Disco.zero, el.length, lb, (ek.length + el.length : Nat), rows ek.length [ek, fk] ++ rows el.length [el, fl]⟩ = el.length := nat32 hs
  have ht : takeE (2 * ((ek.length : Int) + el.length - el.length)) (rows ek.length [ek, fk] ++ rows el.length [el, fl]) = .ok (rows ek.length [ek, fk]) :=
    takeE_append (by omega)
  refine ⟨toInt32_id hi, hp, hn, ?_, ?_, ?_, ?_, fun hf => ⟨hf, explicit_pairs hi hv⟩⟩
  · unfold CovariancePairs.firstArrayEnergies
    rw [hp, hn, ht]
    exact stride_rows rfl hlk' rfl
  · intro hne
    unfold CovariancePairs.firstArrayFValues
    rw [hp, hn, ht]
    exact col_rows (j := 1) rfl hlk' rfl rfl (.inl (by simpa using hne))
  · unfold CovariancePairs.secondArrayEnergies
    rw [hp, hn]
    exact column_rows (pre := rows ek.length [ek, fk]) (j := 0) rfl hll' (by omega) rfl (.inr rfl)
  · intro hne
    unfold CovariancePairs.secondArrayFValues
    rw [hp, hn]
    exact column_rows (pre := rows ek.length [ek, fk]) (j := 1) rfl hll' (by omega) rfl (.inl (by simpa using hne))

/-- Two arrays: LB 3 or 4 with a second array, or LB 0, 1, 2, 8 or 9 with an empty one. -/
theorem C48_covariancePairs_two_accepts {lb : Int} {ek fk el fl : List Dbl} (hi : IsInt32 lb) (hs : 2 * ((ek.length : Int) + el.length) < 2147483648) :
    let ok := ek.length = fk.length ∧ el.length = fl.length ∧
      (((lb = 3 ∨ lb = 4) ∧ el ≠ []) ∨ ((lb = 0 ∨ lb = 1 ∨ lb = 2 ∨ lb = 8 ∨ lb = 9) ∧ el = []))
    (ok → ∃ l, CovariancePairs.make4 lb ek fk el fl = .ok l) ∧ (¬ok → CovariancePairs.make4 lb ek fk el fl = .error .exc) := by
  have hdk : (rows ek.length [ek, fk]).length = ek.length * 2 := rows_length _ _
  have hdl : (rows el.length [el, fl]).length = el.length * 2 := rows_length _ _
  have e := pairsCheck_iff (l := ⟨Disco.zero, Disco.zero, el.length, lb, (ek.length + el.length : Nat), rows ek.length [ek, fk] ++ rows el.length [el, fl]⟩)
    (lb := lb) (lt := el.length) (toInt32_id hi) (nat32 (by omega)) (by
    unfold LIST.npl; simp only [List.length_append, hdk, hdl]; rw [nat32 (by omega), nat32 (by omega)]; omega)
  have hel : el = [] ↔ el.length = 0 := List.length_eq_zero_iff.symm
  unfold CovariancePairs.make4
  simp only [hel, ne_eq]
  refine ⟨fun ⟨h1, h2, h3⟩ => ?_, fun h => ?_⟩
  · rw [if_neg (not_not_intro h1), if_neg (not_not_intro h2)]
    exact ⟨_, verified_of_ok (by rw [e, if_pos (by omega)])⟩
  · by_cases h1 : ek.length = fk.length
    · by_cases h2 : el.length = fl.length
      · rw [if_neg (not_not_intro h1), if_neg (not_not_intro h2)]
        exact verified_of_err (by rw [e, if_neg (by omega)])
      · rw [if_neg (not_not_intro h1), if_pos h2]
    · rw [if_pos h1]

/-! ### square matrices -/

/-- The number of values a square matrix over `ne` energies has: the upper triangle with the diagonal if it is symmetric. -/
def squareValues (symmetric : Bool) (ne : Nat) : Int := if symmetric then (ne * (ne - 1) / 2 : Nat) else ((ne : Int) - 1) * ((ne : Int) - 1)

theorem squareSize_eq (ls : Int) (ne nv : Nat) (hn : (nv : Int) < 2147483648) (hq : (ne : Int) * ((ne : Int) - 1) < 2147483648) :
    squareSizeCheck ls ne ((ne + nv : Nat) : Int) = if (nv : Int) = squareValues (decide (ls ≠ 0)) ne then .ok () else .error .exc := by
  have hh : Int.tdiv ((ne : Int) * ((ne : Int) - 1)) 2 = (ne * (ne - 1) / 2 : Nat) := by
    cases ne with
    | zero => rfl
    | succ n =>
      have : ((n + 1 : Nat) : Int) * (((n + 1 : Nat) : Int) - 1) = (((n + 1) * (n + 1 - 1) : Nat) : Int) := by
        rw [Int.natCast_mul]; congr 1; omega
      rw [this, show (2 : Int) = ((2 : Nat) : Int) from rfl, ← Int.ofNat_tdiv]
  have e : (((ne + nv : Nat) : Int)) - ne = nv := by omega
  have hp : 0 ≤ (ne : Int) * ((ne : Int) - 1) ∧ (ne : Int) - 1 ≤ (ne : Int) * ((ne : Int) - 1) ∧
      ((ne : Int) - 1) * ((ne : Int) - 1) ≤ (ne : Int) * ((ne : Int) - 1) + 1 ∧ 0 ≤ ((ne : Int) - 1) * ((ne : Int) - 1) := by
    cases ne with
    | zero => simp
    | succ n =>
      have e : ((n + 1 : Nat) : Int) = (n : Int) + 1 := rfl
      rw [e, show (n : Int) + 1 - 1 = n by omega, Int.add_mul]
      have := Int.mul_nonneg (Int.natCast_nonneg n) (Int.natCast_nonneg n)
      omega
  have o1 : ¬ (Over (nv : Int) ∨ Over ((ne : Int) - 1)) := by simp only [Over]; omega
  have o2 : ¬ Over ((ne : Int) * ((ne : Int) - 1)) := by simp only [Over]; omega
  have o3 : ¬ Over (((ne : Int) - 1) * ((ne : Int) - 1)) := by
    simp only [Over]
    cases ne with
    | zero => decide
    | succ n =>
      have e : ((n + 1 : Nat) : Int) = (n : Int) + 1 := rfl
      rw [e, show (n : Int) + 1 - 1 = n by omega, Int.add_mul] at hq
      rw [e, show (n : Int) + 1 - 1 = n by omega]
      have := Int.mul_nonneg (Int.natCast_nonneg n) (Int.natCast_nonneg n)
      omega
  unfold squareSizeCheck squareValues
  simp only [e, hh, if_neg o1, if_neg o2, if_neg o3]
  by_cases h : ls = 0
  · subst h
    simp only [ne_eq, not_true_eq_false, decide_false, if_false, Bool.false_eq_true]
    split <;> first | rfl | (split <;> first | rfl | omega)
  · simp only [ne_eq, h, not_false_eq_true, decide_true, if_true]
    split <;> first | rfl | (split <;> first | rfl | omega)

theorem C48_squareMatrix {ls : Int} {es vs : List Dbl} {l : LIST} (h : SquareMatrix.make ls es vs = .ok l) (hi : IsInt32 ls) :
    SquareMatrix.symmetryFlag l = ls ∧ SquareMatrix.procedure l = 5 ∧ SquareMatrix.numberEnergies l = es.length ∧
    SquareMatrix.energies l = .ok es ∧ SquareMatrix.values l = .ok vs ∧ (l.Fits → explicitC.Valid l) := by
  unfold SquareMatrix.make at h
  obtain ⟨rfl, hv⟩ := verified_ok h
  refine ⟨toInt32_id hi, nat32 (n := 5) (by decide), rfl, takeE_append rfl, dropE_append rfl, fun hf => ⟨hf, ?_⟩⟩
  unfold explicitCheck
  rw [if_neg (by simp only; omega), if_pos (by rfl)]
  exact hv

theorem C48_squareMatrix_accepts {ls : Int} {es vs : List Dbl} (hi : IsInt32 ls) (hs : (es.length : Int) + vs.length < 2147483648)
    (hq : (es.length : Int) * ((es.length : Int) - 1) < 2147483648) :
    ((vs.length : Int) = squareValues (decide (ls ≠ 0)) es.length → ∃ l, SquareMatrix.make ls es vs = .ok l) ∧
    ((vs.length : Int) ≠ squareValues (decide (ls ≠ 0)) es.length → SquareMatrix.make ls es vs = .error .exc) := by
  have e : squareMatrixCheck ⟨Disco.zero, Disco.zero, ls, 5, es.length, es ++ vs⟩ =
      if (vs.length : Int) = squareValues (decide (ls ≠ 0)) es.length then .ok () else .error .exc := by
    unfold squareMatrixCheck LIST.npl
    simp only [List.length_append]
    rw [if_neg (by rw [t5]; simp), toInt32_id hi, nat32 (by omega), nat32 (by omega), squareSize_eq _ _ _ (by omega) hq]
  unfold SquareMatrix.make
  exact ⟨fun h => ⟨_, verified_of_ok (by rw [e, if_pos h])⟩, fun h => verified_of_err (by rw [e, if_neg h])⟩

/-- The matrices of file 35: the getters of the energy bounds return the bounds converted to `int`. -/
theorem C48_squareMatrix35 {e1 e2 : Dbl} {es vs : List Dbl} {l : LIST} (h : SquareMatrix.make35 e1 e2 es vs = .ok l) :
    SquareMatrix.symmetryFlag l = 1 ∧ SquareMatrix.procedure l = 7 ∧ SquareMatrix.numberEnergies l = es.length ∧
    SquareMatrix.lowestEnergy l = Disco.trunc e1 ∧ SquareMatrix.highestEnergy l = Disco.trunc e2 ∧
    SquareMatrix.energies l = .ok es ∧ SquareMatrix.values l = .ok vs ∧ (l.Fits → squareMatrix35C.Valid l) := by
  unfold SquareMatrix.make35 at h
  obtain ⟨rfl, hv⟩ := verified_ok h
  exact ⟨nat32 (n := 1) (by decide), nat32 (n := 7) (by decide), rfl, rfl, rfl, takeE_append rfl, dropE_append rfl, fun hf => ⟨hf, hv⟩⟩

theorem C48_squareMatrix35_accepts {e1 e2 : Dbl} {es vs : List Dbl} (hs : (es.length : Int) + vs.length < 2147483648)
    (hq : (es.length : Int) * ((es.length : Int) - 1) < 2147483648) :
    ((vs.length : Int) = squareValues true es.length → ∃ l, SquareMatrix.make35 e1 e2 es vs = .ok l) ∧
    ((vs.length : Int) ≠ squareValues true es.length → SquareMatrix.make35 e1 e2 es vs = .error .exc) := by
  have e : squareMatrix35Check ⟨e1, e2, 1, 7, es.length, es ++ vs⟩ = if (vs.length : Int) = squareValues true es.length then .ok () else .error .exc := by
    unfold squareMatrix35Check LIST.npl
    simp only [List.length_append]
    rw [if_neg (by rw [t7]; simp), nat32 (by omega), nat32 (by omega), squareSize_eq _ _ _ (by omega) hq]
    rfl
  unfold SquareMatrix.make35
  exact ⟨fun h => ⟨_, verified_of_ok (by rw [e, if_pos h])⟩, fun h => verified_of_err (by rw [e, if_neg h])⟩

/-! ### rectangular matrices -/

theorem nt_of {nr nc nv : Nat} (h : ((nr : Int) - 1) * ((nc : Int) - 1) = nv) : ((nr + (nc + nv) : Nat) : Int) - 1 = (nr : Int) * nc := by
  rw [Int.sub_mul, Int.mul_sub] at h; omega

/-- A rectangular matrix: the number of column energies is recovered from the size of the list, and the getters return the row energies and the values;
    the getter of the column energies returns the values as well. -/
theorem C48_rectangularMatrix {rs cs vs : List Dbl} {l : LIST} (h : RectangularMatrix.make rs cs vs = .ok l)
    (hs : (rs.length : Int) + cs.length + vs.length < 2147483648) :
    RectangularMatrix.numberRowEnergies l = rs.length ∧ RectangularMatrix.numberColumnEnergies l = cs.length ∧
    RectangularMatrix.rowEnergies l = .ok rs ∧ RectangularMatrix.columnEnergies l = .ok (cs ++ vs) ∧ RectangularMatrix.values l = .ok vs ∧
    (l.Fits → explicitC.Valid l) := by
  unfold RectangularMatrix.make at h
  split at h
  · cases h
  rename_i hp
  simp only [asInt, ne_eq, Decidable.not_not] at hp
  rw [nat32 (by omega), nat32 (by omega), nat32 (by omega)] at hp
  obtain ⟨rfl, hv⟩ := verified_ok h
  have hr : rs.length ≠ 0 := by
    intro h0
    unfold rectangularMatrixCheck at hv
    rw [if_neg (by rw [t6]; simp), if_pos (by rw [nat32 (by omega)]; omega)] at hv
    cases hv
  have hc : RectangularMatrix.numberColumnEnergies ⟨Disco.zero, Disco.zero, 0, 6, rs.length, rs ++ (cs ++ vs)⟩ = cs.length := by
    unfold RectangularMatrix.numberColumnEnergies LIST.npl
    simp only [List.length_append]
    rw [nt_of hp, ← Int.natCast_mul, ← Int.ofNat_tdiv, Nat.mul_div_cancel_left _ (by omega)]
  refine ⟨rfl, hc, takeE_append rfl, dropE_append rfl, ?_, fun hf => ⟨hf, ?_⟩⟩
  · unfold RectangularMatrix.values
    rw [if_neg (by simp only; omega), hc]
    simp only
    rw [← List.append_assoc]
    exact dropE_append (by simp)
  · unfold explicitCheck
    rw [if_neg (by simp only; omega), if_neg (by simp only; omega), if_pos (by rfl)]
    exact hv

/-- It is accepted if there are row energies and one value for each pair of intervals; no row energies at all is a division by zero. -/
theorem C48_rectangularMatrix_accepts {rs cs vs : List Dbl} (hs : (rs.length : Int) + cs.length + vs.length < 2147483648) :
    (rs ≠ [] ∧ ((rs.length : Int) - 1) * ((cs.length : Int) - 1) = vs.length → ∃ l, RectangularMatrix.make rs cs vs = .ok l) ∧
    (((rs.length : Int) - 1) * ((cs.length : Int) - 1) ≠ vs.length → RectangularMatrix.make rs cs vs = .error .exc) ∧
    (RectangularMatrix.make [] ([Disco.zero] : List Dbl) [] = .error .ub) := by
  have e1 : asInt rs.length = rs.length := nat32 (by omega)
  have e2 : asInt cs.length = cs.length := nat32 (by omega)
  have e3 : asInt vs.length = vs.length := nat32 (by omega)
  refine ⟨fun ⟨h1, h2⟩ => ?_, fun h => ?_, ?_⟩
  · have hr : rs.length ≠ 0 := by simpa using h1
    unfold RectangularMatrix.make
    rw [if_neg (by rw [e1, e2, e3]; exact not_not_intro h2)]
    refine ⟨_, verified_of_ok ?_⟩
    unfold rectangularMatrixCheck LIST.npl
    simp only [List.length_append]
    rw [if_neg (by rw [t6]; simp), nat32 (by omega), if_neg (by omega), nat32 (by omega), nt_of h2, Int.mul_tmod_right]
    rw [if_neg (by simp)]
  · unfold RectangularMatrix.make
    rw [if_pos (by rw [e1, e2, e3]; exact h)]
  · unfold RectangularMatrix.make
    have a0 : asInt (([] : List Dbl).length) = 0 := nat32 (n := 0) (by decide)
    have a1 : asInt (([Disco.zero] : List Dbl).length) = 1 := nat32 (n := 1) (by decide)
    rw [if_neg (by rw [a0, a1]; decide)]
    refine verified_of_err ?_
    unfold rectangularMatrixCheck
    simp only [List.length_nil]
    rw [if_neg (by rw [t6]; simp), if_pos (by exact t0)]

/-! ### derived covariances -/

theorem C48_derivedRedundant {e1 e2 : Dbl} {cs : List Dbl} {rs : List Int} {d : Derived} (h : DerivedRedundant.make e1 e2 cs rs = .ok d) (hn : cs ≠ [])
    (hs : (cs.length : Int) < 2147483648) :
    d.lty = 0 ∧ DerivedRedundant.lowerEnergy d = e1 ∧ DerivedRedundant.upperEnergy d = e2 ∧ DerivedRedundant.numberReactions d = cs.length ∧
    DerivedRedundant.coefficients d = .ok cs ∧ DerivedRedundant.reactions d = .ok (ofInts rs) ∧ (d.list.Fits → derivedC.Valid d) := by
  unfold DerivedRedundant.make at h
  split at h
  · cases h
  cases h
  have hl : ∀ x ∈ [cs, ofInts rs], x.length = cs.length := by simp [ofInts_length]; omega
  exact ⟨rfl, rfl, rfl, nat32 hs, stride_rows rfl hl rfl, col_rows (j := 1) rfl hl rfl rfl (.inl (by simpa using hn)), fun hf => ⟨hf, trivial⟩⟩

theorem C48_derivedRedundant_accepts {e1 e2 : Dbl} {cs : List Dbl} {rs : List Int} :
    (cs.length = rs.length → ∃ d, DerivedRedundant.make e1 e2 cs rs = .ok d) ∧ (cs.length ≠ rs.length → DerivedRedundant.make e1 e2 cs rs = .error .exc) := by
  unfold DerivedRedundant.make
  exact ⟨fun h => ⟨_, by rw [if_neg (not_not_intro h)]⟩, fun h => by rw [if_pos h]⟩

/-- LTY is stored without verification: only for 1, 2 and 3 can the printed component be read back. -/
theorem C48_derivedRatio {lty : Int} {e1 e2 : Dbl} {mats mts xmfs xlfss : Int} {es ws : List Dbl} {d : Derived}
    (h : DerivedRatio.make lty e1 e2 mats mts xmfs xlfss es ws = .ok d) (hi : IsInt32 mats ∧ IsInt32 mts) (hr : IntRange [xmfs, xlfss]) (hn : es ≠ [])
    (hs : (es.length : Int) < 2147483648) :
    DerivedRatio.procedure d = lty ∧ DerivedRatio.lowerEnergy d = e1 ∧ DerivedRatio.upperEnergy d = e2 ∧
    DerivedRatio.standardMaterialNumber d = mats ∧ DerivedRatio.standardSectionNumber d = mts ∧
    DerivedRatio.standardFileNumber d = .ok xmfs ∧ DerivedRatio.standardFinalExcitedState d = .ok xlfss ∧ DerivedRatio.numberEnergies d = es.length ∧
    DerivedRatio.energies d = .ok es ∧ DerivedRatio.weights d = .ok ws ∧ (d.list.Fits → (derivedC.Valid d ↔ lty = 1 ∨ lty = 2 ∨ lty = 3)) := by
  unfold DerivedRatio.make at h
  split at h
  · cases h
  cases h
  have hl : ∀ x ∈ [es, ws], x.length = es.length := by simp; omega
  have tr : ∀ n, IntRange [n] → Disco.trunc (Disco.ofInt n) = n := fun n hn => Disco.trunc_ofInt n (hn n (by simp)).1 (hn n (by simp)).2
  exact ⟨rfl, rfl, rfl, toInt32_id hi.1, toInt32_id hi.2, congrArg Except.ok (Disco.trunc_ofInt _ (hr _ (by simp)).1 (hr _ (by simp)).2),
    congrArg Except.ok (Disco.trunc_ofInt _ (hr _ (by simp)).1 (hr _ (by simp)).2), nat32 hs,
    column_rows (pre := [Disco.ofInt xmfs, Disco.ofInt xlfss]) (j := 0) rfl hl rfl rfl (.inr rfl),
    column_rows (pre := [Disco.ofInt xmfs, Disco.ofInt xlfss]) (j := 1) rfl hl rfl rfl (.inl (by simpa using hn)), fun hf => ⟨fun h => h.2, fun h => ⟨hf, h⟩⟩⟩

theorem C48_derivedRatio_accepts {lty : Int} {e1 e2 : Dbl} {mats mts xmfs xlfss : Int} {es ws : List Dbl} :
    (es.length = ws.length → ∃ d, DerivedRatio.make lty e1 e2 mats mts xmfs xlfss es ws = .ok d) ∧
    (es.length ≠ ws.length → DerivedRatio.make lty e1 e2 mats mts xmfs xlfss es ws = .error .exc) := by
  unfold DerivedRatio.make
  exact ⟨fun h => ⟨_, by rw [if_neg (not_not_intro h)]⟩, fun h => by rw [if_pos h]⟩

end

end ENDFtk.Props

import Verif.Section.GetterLemmas
import Verif.DiscoInstance
/-
  C48: for the components that keep their data in a LIST record, the arrays given to the constructor are the arrays returned by the getters, arrays of
  inconsistent sizes are rejected, and the getters of a component that was read return the columns of its list.

  Specification: `.ok a` on the right of a getter is the array the user gave; `IsColumn xs data off k n` says that `xs` are the `n` values
  `data[ off ]`, `data[ off + k ]`, `data[ off + 2 k ]`, ...  Integers given to a constructor are returned as `double`s (`ofInts`) or, where the
  getter converts them back, as integers (of the range of `int` and `unsigned int`).
  `Small l`: the list has less than 2^31 values (the number of values is kept in an `int` in most places).
-/
set_option linter.unusedVariables false
set_option linter.unusedSectionVars false
set_option linter.unusedSimpArgs false
namespace ENDFtk.Props
open ENDFtk

section
variable [Disco]

def Small (l : LIST) : Prop := l.npl < 2147483648

/-- The integers survive a conversion to `double` and back. -/
def IntRange (l : List Int) : Prop := ∀ n ∈ l, -(2 ^ 31) ≤ n ∧ n < 2 ^ 32

theorem col_rows {n : Nat} {cols : List (List Dbl)} {off k : Int} {j : Nat} {c : List Dbl} (hc : cols[j]? = some c)
    (hl : ∀ x ∈ cols, x.length = n) (ho : off = (j : Int)) (hk : k = cols.length) (hn : n ≠ 0 ∨ j = 0) : column off k (rows n cols) = .ok c :=
  column_rows (pre := []) hc hl (by simpa using ho) hk hn

theorem small32 {l : LIST} (h : Small l) : toInt32 l.npl = (l.data.length : Int) := by
  unfold Small LIST.npl at *
  exact toInt32_of ⟨by omega, by omega⟩

/-! ### 1/455 -/

theorem C48_decayConstants {e : Dbl} {lam alp : List Dbl} {l : LIST} (h : DecayConstants.make e lam alp = .ok l) :
    DecayConstants.incidentEnergy l = e ∧ DecayConstants.decayConstants l = .ok lam ∧ DecayConstants.abundances l = .ok alp ∧
    (Small l → DecayConstants.numberPrecursors l = lam.length) ∧ (l.Fits → Small l → decayC.Valid l) := by
  unfold DecayConstants.make at h
  split at h
  · cases h
  split at h
  · cases h
  cases h
  rename_i h0 h1
  have hl : ∀ x ∈ [lam, alp], x.length = lam.length := by simp; omega
  have hs : (rows lam.length [lam, alp]).length = lam.length * 2 := rows_length _ _
  refine ⟨rfl, stride_rows rfl hl rfl, col_rows (j := 1) rfl hl rfl rfl (.inl h0), fun hs' => ?_, fun hf hs' => ⟨hf, ?_⟩⟩
  · unfold Small LIST.npl at hs'
    simp only [DecayConstants.numberPrecursors, hs] at hs' ⊢
    rw [asInt, toInt32_of ⟨by omega, by omega⟩]; omega
  · unfold Small LIST.npl at hs'
    simp only [hs] at hs' ⊢
    rw [asInt, toInt32_of ⟨by omega, by omega⟩]; omega

theorem C48_decayConstants_accepts (e : Dbl) (lam alp : List Dbl) :
    (lam ≠ [] ∧ lam.length = alp.length → ∃ l, DecayConstants.make e lam alp = .ok l) ∧
    (¬(lam ≠ [] ∧ lam.length = alp.length) → DecayConstants.make e lam alp = .error .exc) := by
  unfold DecayConstants.make
  rw [ne_eq, ← List.length_eq_zero_iff]
  refine ⟨fun h => ⟨_, by rw [if_neg h.1, if_neg (by omega)]⟩, fun h => ?_⟩
  split
  · rfl
  · rw [if_pos (by omega)]

/-- A component that was read gives the even and the odd elements of its list. -/
theorem C48_decayConstants_columns {l : LIST} (h : decayC.Valid l) (hs : Small l) :
    ∃ lam alp, DecayConstants.decayConstants l = .ok lam ∧ DecayConstants.abundances l = .ok alp ∧
      IsColumn lam l.data 0 2 (DecayConstants.numberPrecursors l).toNat ∧ IsColumn alp l.data 1 2 (DecayConstants.numberPrecursors l).toNat := by
  have hv : ¬(asInt l.data.length = 0 ∨ asInt l.data.length % 2 ≠ 0) := h.2
  unfold Small LIST.npl at hs
  have e : asInt l.data.length = (l.data.length : Int) := toInt32_of ⟨by omega, by omega⟩
  rw [e] at hv
  obtain ⟨n, hn⟩ : ∃ n, l.data.length = 2 * n := ⟨l.data.length / 2, by omega⟩
  have en : (DecayConstants.numberPrecursors l).toNat = n := by
    unfold DecayConstants.numberPrecursors
    rw [asInt, toInt32_of ⟨by omega, by omega⟩]; omega
  rw [en]
  obtain ⟨a, a1, a2⟩ := strideE_of (k' := 2) hn (by decide) rfl
  obtain ⟨b, b1, b2⟩ := column_of (p := 0) (j := 1) (off := 1) (k' := 2) (by omega : l.data.length = 0 + 2 * n) (by decide) (.inl (by omega)) rfl rfl
  exact ⟨a, b, a1, b1, a2, b2⟩

/-! ### 2/151 -/

section
variable {awri c2 : Dbl} {lm : Int} {flag : Bool} {er aj a b c d : List Dbl} {l : LIST}

theorem resolved_make (h : ResolvedLValue.make awri c2 lm flag er aj a b c d = .ok l) :
    l = ⟨awri, c2, lm, ofBool flag, er.length, rows er.length [er, aj, a, b, c, d]⟩ ∧ (∀ x ∈ [er, aj, a, b, c, d], x.length = er.length) ∧ lvalueOk l ∧
      er.length ≠ 0 := by
  unfold ResolvedLValue.make at h
  simp only at h
  split at h
  · cases h
  · obtain ⟨rfl, hv⟩ := verified_ok h
    have hv := require_ok hv
    refine ⟨rfl, by simp; omega, hv, fun h0 => ?_⟩
    have := hv.2.1
    simp [h0, toInt32] at this

theorem resolved_accepts (hs : 6 * (er.length : Int) < 2147483648) :
    ((er ≠ [] ∧ ∀ x ∈ [aj, a, b, c, d], x.length = er.length) → ∃ l, ResolvedLValue.make awri c2 lm flag er aj a b c d = .ok l) ∧
    (¬(er ≠ [] ∧ ∀ x ∈ [aj, a, b, c, d], x.length = er.length) → ResolvedLValue.make awri c2 lm flag er aj a b c d = .error .exc) := by
  have hrl : (rows er.length [er, aj, a, b, c, d]).length = er.length * 6 := rows_length _ _
  have ok : er.length ≠ 0 ↔ lvalueOk ⟨awri, c2, lm, ofBool flag, er.length, rows er.length [er, aj, a, b, c, d]⟩ := by
    unfold lvalueOk LIST.npl
    simp only [hrl]
    rw [toInt32_of (n := ((er.length * 6 : Nat) : Int)) ⟨by omega, by omega⟩, toInt32_of ⟨by omega, by omega⟩]
    omega
  unfold ResolvedLValue.make
  rw [ne_eq, ← List.length_eq_zero_iff]
  simp only [List.forall_mem_cons, List.not_mem_nil, false_implies, implies_true, and_true]
  constructor
  · intro h
    rw [if_neg (by omega)]
    exact ⟨_, verified_pos (ok.mp h.1)⟩
  · intro h
    split
    · rfl
    · exact verified_neg fun h' => absurd (ok.mpr h') (by omega)

/-- Breit-Wigner resonances. -/
theorem C48_breitWigner (h : BreitWignerLValue.make awri c2 lm flag er aj a b c d = .ok l) :
    ResolvedLValue.atomicWeightRatio l = awri ∧ BreitWignerLValue.competitiveQValue l = c2 ∧ (IsInt32 lm → ResolvedLValue.orbitalMomentum l = lm) ∧
    BreitWignerLValue.competitiveWidthFlag l = flag ∧
    ResolvedLValue.resonanceEnergies l = .ok er ∧ ResolvedLValue.spinValues l = .ok aj ∧ BreitWignerLValue.totalWidths l = .ok a ∧
    BreitWignerLValue.neutronWidths l = .ok b ∧ BreitWignerLValue.gammaWidths l = .ok c ∧ BreitWignerLValue.fissionWidths l = .ok d ∧
    (l.Fits → lvalueC.Valid l) := by
  obtain ⟨rfl, hl, hv, hn⟩ := resolved_make h
  refine ⟨rfl, rfl, fun h => toInt32_of h, by cases flag <;> rfl, ?_, ?_, ?_, ?_, ?_, ?_, fun hf => ⟨hf, hv⟩⟩
  · exact col_rows (j := 0) rfl hl rfl rfl (.inl hn)
  · exact col_rows (j := 1) rfl hl rfl rfl (.inl hn)
  · exact col_rows (j := 2) rfl hl rfl rfl (.inl hn)
  · exact col_rows (j := 3) rfl hl rfl rfl (.inl hn)
  · exact col_rows (j := 4) rfl hl rfl rfl (.inl hn)
  · exact col_rows (j := 5) rfl hl rfl rfl (.inl hn)

/-- Reich-Moore resonances. -/
theorem C48_reichMoore (h : ReichMooreLValue.make awri c2 lm er aj a b c d = .ok l) :
    ResolvedLValue.atomicWeightRatio l = awri ∧ ReichMooreLValue.lDependentScatteringRadius l = c2 ∧ (IsInt32 lm → ResolvedLValue.orbitalMomentum l = lm) ∧
    ResolvedLValue.resonanceEnergies l = .ok er ∧ ResolvedLValue.spinValues l = .ok aj ∧ ReichMooreLValue.neutronWidths l = .ok a ∧
    ReichMooreLValue.gammaWidths l = .ok b ∧ ReichMooreLValue.firstFissionWidths l = .ok c ∧ ReichMooreLValue.secondFissionWidths l = .ok d ∧
    (l.Fits → lvalueC.Valid l) := by
  obtain ⟨rfl, hl, hv, hn⟩ := resolved_make h
  refine ⟨rfl, rfl, fun h => toInt32_of h, ?_, ?_, ?_, ?_, ?_, ?_, fun hf => ⟨hf, hv⟩⟩
  · exact col_rows (j := 0) rfl hl rfl rfl (.inl hn)
  · exact col_rows (j := 1) rfl hl rfl rfl (.inl hn)
  · exact col_rows (j := 2) rfl hl rfl rfl (.inl hn)
  · exact col_rows (j := 3) rfl hl rfl rfl (.inl hn)
  · exact col_rows (j := 4) rfl hl rfl rfl (.inl hn)
  · exact col_rows (j := 5) rfl hl rfl rfl (.inl hn)

theorem C48_breitWigner_accepts (hs : 6 * (er.length : Int) < 2147483648) :
    ((er ≠ [] ∧ ∀ x ∈ [aj, a, b, c, d], x.length = er.length) → ∃ l, BreitWignerLValue.make awri c2 lm flag er aj a b c d = .ok l) ∧
    (¬(er ≠ [] ∧ ∀ x ∈ [aj, a, b, c, d], x.length = er.length) → BreitWignerLValue.make awri c2 lm flag er aj a b c d = .error .exc) := resolved_accepts hs

theorem C48_reichMoore_accepts (hs : 6 * (er.length : Int) < 2147483648) :
    ((er ≠ [] ∧ ∀ x ∈ [aj, a, b, c, d], x.length = er.length) → ∃ l, ReichMooreLValue.make awri c2 lm er aj a b c d = .ok l) ∧
    (¬(er ≠ [] ∧ ∀ x ∈ [aj, a, b, c, d], x.length = er.length) → ReichMooreLValue.make awri c2 lm er aj a b c d = .error .exc) := resolved_accepts hs

/-- The columns of the resonances of an l value that was read: column `j` is the `j`-th value of each resonance. -/
theorem C48_resonances_columns (h : lvalueC.Valid l) (hs : Small l) {j : Nat} (hj : j < 6) :
    ∃ xs, ResolvedLValue.col j l = .ok xs ∧ IsColumn xs l.data j 6 (ResolvedLValue.numberResonances l).toNat := by
  obtain ⟨h1, h2, h3⟩ := h.2
  rw [small32 hs] at h1 h3
  obtain ⟨xs, a, b⟩ := column_of (l := l.data) (p := 0) (j := j) (k := 6) (n := (ResolvedLValue.numberResonances l).toNat) (off := j) (k' := 6)
    (by unfold ResolvedLValue.numberResonances; omega) hj (.inl (by unfold ResolvedLValue.numberResonances; omega)) (by omega) rfl
  exact ⟨xs, a, by simpa using b⟩

end

end

end ENDFtk.Props

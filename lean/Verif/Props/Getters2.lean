import Verif.Props.Getters
/-
  C48, continued: section 2/151 (unresolved resonances and R-matrix limited).
-/
set_option linter.unusedVariables false
set_option linter.unusedSectionVars false
set_option linter.unusedSimpArgs false
namespace ENDFtk.Props
open ENDFtk

section
variable [Disco]

theorem verified_require {P : LIST → Prop} [DecidablePred P] {l m : LIST} (h : verified (require P) l = .ok m) : m = l ∧ P l :=
  ⟨(verified_ok h).1, require_ok (verified_ok h).2⟩

theorem nat32 {n : Nat} (h : (n : Int) < 2147483648) : toInt32 (n : Int) = (n : Int) := toInt32_of ⟨by omega, h⟩

theorem getD_of {α : Type} {c : List α} {n i : Nat} {d : α} (h : c.length = n) (hi : i < n) : c[i]? = some (c.getD i d) := by
  rw [List.getD_eq_getElem?_getD, List.getElem?_eq_getElem (by omega)]; rfl

theorem range_getD {c : List Dbl} {n : Nat} (h : c.length = n) : (List.range n).map (fun i => c.getD i Disco.zero) = c := by
  apply List.ext_getElem?
  intro i
  rw [List.getElem?_map]
  by_cases hi : i < n
  · rw [List.getElem?_range hi, getD_of h hi]; rfl
  · rw [List.getElem?_eq_none (by simpa using hi), List.getElem?_eq_none (by omega)]; rfl

theorem chunk_rows {n : Nat} {cols : List (List Dbl)} {k : Int} {j : Nat} {c : List Dbl} (hc : cols[j]? = some c)
    (hl : ∀ x ∈ cols, x.length = n) (hk : k = cols.length) :
    (chunkE k (rows n cols)).bind (mapE (fun x => atE x j)) = .ok c := by
  obtain ⟨hj, rfl⟩ := List.getElem?_eq_some_iff.mp hc
  rw [chunkE_ok (by omega)]
  show mapE _ _ = _
  have hk' : k.toNat = cols.length := by omega
  rw [hk', rows, chunkL_flatMap (by omega) (by simp)]
  rw [show mapE (fun x => atE x j) ((List.range n).map fun i => cols.map fun c => c.getD i Disco.zero) =
    .ok (((List.range n).map fun i => cols.map fun c => c.getD i Disco.zero).map fun x => x.getD j Disco.zero) from mapE_ok ?_]
  · rw [List.map_map]
    congr 1
    conv => rhs; rw [← range_getD (hl _ (List.getElem_mem hj))]
    apply List.map_congr_left
    intro i _
    simp [hj]
  · intro x hx
    simp only [List.mem_map, List.mem_range] at hx
    obtain ⟨i, _, rfl⟩ := hx
    simp [atE, hj]

theorem trunc_ok {e : Except Err (List Dbl)} {l : List Int} (h : e = .ok (ofInts l)) (hr : IntRange l) : e.map (·.map Disco.trunc) = .ok l := by
  rw [h]; exact congrArg Except.ok (trunc_ofInts hr)

/-! ### 2/151, unresolved resonances, case A -/

theorem C48_unresolvedA {awri : Dbl} {lm : Int} {aj d : List Dbl} {amun : List Int} {gn gg : List Dbl} {l : LIST}
    (h : UnresolvedALValue.make awri lm aj d amun gn gg = .ok l) :
    UnresolvedALValue.atomicWeightRatio l = awri ∧ (IsInt32 lm → UnresolvedALValue.orbitalMomentum l = lm) ∧
    (Small l → UnresolvedALValue.numberSpinValues l = aj.length) ∧
    UnresolvedALValue.averageLevelSpacings l = .ok d ∧ UnresolvedALValue.spinValues l = .ok aj ∧
    (IntRange amun → UnresolvedALValue.neutronWidthDegreesFreedom l = .ok amun) ∧
    UnresolvedALValue.averageNeutronWidths l = .ok gn ∧ UnresolvedALValue.averageGammaWidths l = .ok gg ∧
    (l.Fits → (listC.checked lvalueAOk).Valid l) := by
  unfold UnresolvedALValue.make at h
  simp only at h
  split at h
  · cases h
  obtain ⟨rfl, hv⟩ := verified_require h
  rename_i hs
  have hl : ∀ x ∈ [d, aj, ofInts amun, gn, gg, List.replicate aj.length Disco.zero], x.length = aj.length := by simp [ofInts_length]; omega
  refine ⟨rfl, fun h => toInt32_of h, fun hs' => ?_, ?_, ?_, fun hr => ?_, ?_, ?_, fun hf => ⟨hf, hv⟩⟩
  · unfold Small LIST.npl at hs'
    simp only [rows_length] at hs'
    simp at hs'
    exact nat32 (by omega)
  · exact chunk_rows (j := 0) rfl hl rfl
  · exact chunk_rows (j := 1) rfl hl rfl
  · exact trunc_ok (chunk_rows (j := 2) rfl hl rfl) hr
  · exact chunk_rows (j := 3) rfl hl rfl
  · exact chunk_rows (j := 4) rfl hl rfl

theorem C48_unresolvedA_accepts {awri : Dbl} {lm : Int} {aj d : List Dbl} {amun : List Int} {gn gg : List Dbl} (hs : 6 * (aj.length : Int) < 2147483648) :
    (d.length = aj.length ∧ amun.length = aj.length ∧ gn.length = aj.length ∧ gg.length = aj.length →
      ∃ l, UnresolvedALValue.make awri lm aj d amun gn gg = .ok l) ∧
    (¬(d.length = aj.length ∧ amun.length = aj.length ∧ gn.length = aj.length ∧ gg.length = aj.length) →
      UnresolvedALValue.make awri lm aj d amun gn gg = .error .exc) := by
  unfold UnresolvedALValue.make
  constructor
  · intro h
    simp only
    rw [if_neg (by omega)]
    refine ⟨_, verified_pos ?_⟩
    unfold lvalueAOk LIST.npl
    simp only [rows_length]
    simp only [List.length_cons, List.length_nil]
    rw [nat32 (by omega), nat32 (by omega)]
    omega
  · intro h
    simp only
    rw [if_pos (by omega)]

/-- The columns of a component that was read. -/
theorem C48_unresolvedA_columns {l : LIST} (h : (listC.checked lvalueAOk).Valid l) (hs : Small l) {j : Nat} (hj : j < 6) :
    ∃ xs, UnresolvedALValue.col j l = .ok xs ∧ IsColumn xs l.data j 6 (UnresolvedALValue.numberSpinValues l).toNat := by
  have h1 : toInt32 l.npl = 6 * toInt32 l.n2 := h.2
  rw [small32 hs] at h1
  generalize hn : (UnresolvedALValue.numberSpinValues l).toNat = n
  have hlen : l.data.length = 6 * n := by rw [← hn]; unfold UnresolvedALValue.numberSpinValues; omega
  have hc : ∀ i, i < n → i * 6 < l.data.length := fun i hi => by omega
  refine ⟨(chunkL 6 l.data).map fun c => c.getD j Disco.zero, ?_, ?_, ?_⟩
  · unfold UnresolvedALValue.col
    rw [chunkE_ok (by decide)]
    show mapE _ (chunkL 6 l.data) = _
    refine mapE_ok fun c hc => ?_
    obtain ⟨i, hi⟩ := List.mem_iff_getElem?.mp hc
    rw [chunkL_getElem? (by decide)] at hi
    split at hi
    · cases hi
      unfold atE
      rw [getD_of (n := 6) (d := Disco.zero) (by simp; omega) hj]
    · cases hi
  · rw [List.length_map, chunkL_length]; omega
  · intro i hi
    rw [List.getElem?_map, chunkL_getElem? (by decide), if_pos (hc i hi)]
    have e : ((l.data.drop (i * 6)).take 6).getD j Disco.zero = l.data[j + 6 * i]'(by omega) := by
      rw [List.getD_eq_getElem?_getD, List.getElem?_take_of_lt hj, List.getElem?_drop, List.getElem?_eq_getElem (by omega)]
      simp only [Option.getD_some]
      congr 1; omega
    simp only [Option.map_some]
    rw [e, List.getElem?_eq_getElem]

/-! ### case C -/

theorem C48_unresolvedC {spin : Dbl} {amun amug amuf amux int : Int} {es d gn gg gf gx : List Dbl} {l : LIST}
    (h : UnresolvedCJValue.make spin amun amug amuf amux int es d gn gg gf gx = .ok l) :
    UnresolvedCJValue.spin l = spin ∧ (IsInt32 int → UnresolvedCJValue.interpolation l = int) ∧
    (IntRange [amun] → UnresolvedCJValue.neutronWidthDegreesFreedom l = .ok amun) ∧
    (IntRange [amug] → UnresolvedCJValue.gammaWidthDegreesFreedom l = .ok amug) ∧
    (IntRange [amuf] → UnresolvedCJValue.fissionWidthDegreesFreedom l = .ok amuf) ∧
    (IntRange [amux] → UnresolvedCJValue.competitiveWidthDegreesFreedom l = .ok amux) ∧
    UnresolvedCJValue.energies l = .ok es ∧ UnresolvedCJValue.averageLevelSpacings l = .ok d ∧ UnresolvedCJValue.averageNeutronWidths l = .ok gn ∧
    UnresolvedCJValue.averageGammaWidths l = .ok gg ∧ UnresolvedCJValue.averageFissionWidths l = .ok gf ∧
    UnresolvedCJValue.averageCompetitiveWidths l = .ok gx ∧ (l.Fits → jvalueC.Valid l) := by
  unfold UnresolvedCJValue.make at h
  simp only at h
  split at h
  · cases h
  obtain ⟨rfl, hv⟩ := verified_ok h
  rename_i hs
  have hl : ∀ x ∈ [es, d, gx, gn, gg, gf], x.length = es.length := by simp; omega
  have hn : es.length ≠ 0 := by
    intro h0
    have : jvalueCheck ⟨spin, Disco.zero, int, 0, (es.length : Int), [Disco.zero, Disco.zero, Disco.ofInt amux, Disco.ofInt amun, Disco.ofInt amug, Disco.ofInt amuf] ++ rows es.length [es, d, gx, gn, gg, gf]⟩ = .error .exc := by
      unfold jvalueCheck jvalueNE
      simp only [List.length_append, rows_length, h0]
      simp [toUInt32]
    rw [this] at hv; cases hv
  have tr : ∀ n, IntRange [n] → Except.map Disco.trunc (.ok (Disco.ofInt n) : Except Err Dbl) = .ok n := fun n hn => by
    have := hn n (by simp)
    exact congrArg Except.ok (Disco.trunc_ofInt n this.1 this.2)
  have c : ∀ (j : Nat) (c : List Dbl), [es, d, gx, gn, gg, gf][j]? = some c →
      UnresolvedCJValue.col j ⟨spin, Disco.zero, int, 0, (es.length : Int), [Disco.zero, Disco.zero, Disco.ofInt amux, Disco.ofInt amun, Disco.ofInt amug, Disco.ofInt amuf] ++ rows es.length [es, d, gx, gn, gg, gf]⟩ = .ok c :=
    fun j c hc => column_rows (j := j) hc hl (by simp; omega) rfl (.inl hn)
  exact ⟨rfl, fun h => toInt32_of h, tr _, tr _, tr _, tr _, c 0 _ rfl, c 1 _ rfl, c 3 _ rfl, c 4 _ rfl, c 5 _ rfl, c 2 _ rfl, fun hf => ⟨hf, hv⟩⟩

theorem C48_unresolvedC_accepts {spin : Dbl} {amun amug amuf amux int : Int} {es d gn gg gf gx : List Dbl} (hs : 6 * (es.length : Int) + 6 < 2147483648) :
    ((es ≠ [] ∧ ∀ x ∈ [d, gn, gg, gf, gx], x.length = es.length) → ∃ l, UnresolvedCJValue.make spin amun amug amuf amux int es d gn gg gf gx = .ok l) ∧
    (¬(es ≠ [] ∧ ∀ x ∈ [d, gn, gg, gf, gx], x.length = es.length) →
      UnresolvedCJValue.make spin amun amug amuf amux int es d gn gg gf gx = .error .exc) := by
  have hrl : ([Disco.zero, Disco.zero, Disco.ofInt amux, Disco.ofInt amun, Disco.ofInt amug, Disco.ofInt amuf] ++ rows es.length [es, d, gx, gn, gg, gf]).length =
      6 + es.length * 6 := by rw [List.length_append, rows_length]; rfl
  have ne : jvalueNE ⟨spin, Disco.zero, int, 0, (es.length : Int), [Disco.zero, Disco.zero, Disco.ofInt amux, Disco.ofInt amun, Disco.ofInt amug, Disco.ofInt amuf] ++ rows es.length [es, d, gx, gn, gg, gf]⟩ = es.length := by
    unfold jvalueNE
    simp only [hrl]
    rw [toUInt32_nat (by omega)]; omega
  have ck : jvalueCheck ⟨spin, Disco.zero, int, 0, (es.length : Int), [Disco.zero, Disco.zero, Disco.ofInt amux, Disco.ofInt amun, Disco.ofInt amug, Disco.ofInt amuf] ++ rows es.length [es, d, gx, gn, gg, gf]⟩ =
      if es.length = 0 then .error .exc else .ok () := by
    unfold jvalueCheck LIST.npl
    rw [ne]
    simp only [hrl]
    rw [if_neg (by omega)]
    by_cases h0 : es.length = 0
    · rw [if_pos (by omega), if_pos h0]
    · rw [if_neg (by omega), if_neg h0, if_neg]
      rw [ne_eq, Decidable.not_not]
      congr 1
  unfold UnresolvedCJValue.make verified
  rw [ne_eq, ← List.length_eq_zero_iff]
  simp only [List.forall_mem_cons, List.not_mem_nil, false_implies, implies_true, and_true, ck]
  constructor
  · intro h
    rw [if_neg (by omega), if_neg h.1]
    exact ⟨_, rfl⟩
  · intro h
    split
    · rfl
    · rw [if_pos (by omega)]

/-- The columns of a component that was read: the first six values of the list are the degrees of freedom. -/
theorem C48_unresolvedC_columns {l : LIST} (h : jvalueC.Valid l) (hs : Small l) {j : Nat} (hj : j < 6) :
    ∃ xs n, UnresolvedCJValue.col j l = .ok xs ∧ l.data.length = 6 + 6 * n ∧ n ≠ 0 ∧ IsColumn xs l.data (6 + j) 6 n := by
  have hv : jvalueCheck l = .ok () := h.2
  unfold Small LIST.npl at hs
  unfold jvalueCheck jvalueNE LIST.npl at hv
  rw [toUInt32_nat (by omega), toUInt32_nat (n := l.data.length) (by omega)] at hv
  split at hv
  · cases hv
  split at hv
  · cases hv
  split at hv
  · cases hv
  rename_i h1 h2 h3
  have h3 := Decidable.not_not.mp h3
  obtain ⟨n, hn⟩ : ∃ n, (l.data.length - 6 + 5) / 6 = n := ⟨_, rfl⟩
  rw [hn] at h2 h3
  have hlen : l.data.length = 6 + 6 * n := by
    simp only [toUInt32] at h3
    omega
  obtain ⟨xs, a, b⟩ := column_of (l := l.data) (p := 6) (j := j) (k := 6) (n := n) (off := (j + 6 : Nat)) (k' := 6)
    hlen hj (.inl (by omega)) (by omega) rfl
  exact ⟨xs, n, a, hlen, by omega, b⟩

/-! ### case B -/

theorem C48_unresolvedB {lm : Int} {spin d gn gg : Dbl} {amun amuf : Int} {gf : List Dbl} {l : LIST}
    (h : UnresolvedBJValue.make lm spin d amun amuf gn gg gf = .ok l) :
    (IsInt32 lm → UnresolvedBJValue.orbitalMomentum l = lm) ∧ (IsInt32 amuf → UnresolvedBJValue.fissionWidthDegreesFreedom l = amuf) ∧
    UnresolvedBJValue.spin l = .ok spin ∧ UnresolvedBJValue.averageLevelSpacing l = .ok d ∧
    (IntRange [amun] → UnresolvedBJValue.neutronWidthDegreesFreedom l = .ok amun) ∧ UnresolvedBJValue.averageNeutronWidth l = .ok gn ∧
    UnresolvedBJValue.averageGammaWidth l = .ok gg ∧ UnresolvedBJValue.averageFissionWidths l = .ok gf ∧ (l.Fits → jvalueBC.Valid l) := by
  unfold UnresolvedBJValue.make at h
  obtain ⟨rfl, hv⟩ := verified_ok h
  refine ⟨fun h => toInt32_of h, fun h => toInt32_of h, rfl, rfl, fun h => ?_, rfl, rfl, dropE_append rfl, fun hf => ⟨hf, hv⟩⟩
  have := h amun (by simp)
  exact congrArg Except.ok (Disco.trunc_ofInt amun this.1 this.2)

theorem C48_unresolvedB_accepts {lm : Int} {spin d gn gg : Dbl} {amun amuf : Int} {gf : List Dbl} (hs : (gf.length : Int) < 2147483648) :
    (gf ≠ [] → ∃ l, UnresolvedBJValue.make lm spin d amun amuf gn gg gf = .ok l) ∧
    (gf = [] → UnresolvedBJValue.make lm spin d amun amuf gn gg gf = .error .exc) := by
  have ck : jvalueBCheck ⟨Disco.zero, Disco.zero, lm, amuf, 0, [d, spin, Disco.ofInt amun, gn, gg, Disco.zero] ++ gf⟩ = if gf.length = 0 then .error .exc else .ok () := by
    unfold jvalueBCheck
    have e : ([d, spin, Disco.ofInt amun, gn, gg, Disco.zero] ++ gf).length = 6 + gf.length := by rw [List.length_append]; rfl
    simp only [e]
    rw [if_neg (by omega), toUInt32_nat (by omega)]
    by_cases h0 : gf.length = 0
    · rw [if_pos (by omega), if_pos h0]
    · rw [if_neg (by omega), if_neg h0]
  unfold UnresolvedBJValue.make verified
  rw [ck, ne_eq, ← List.length_eq_zero_iff]
  constructor
  · intro h; rw [if_neg h]; exact ⟨_, rfl⟩
  · intro h; rw [if_pos h]

end

end ENDFtk.Props

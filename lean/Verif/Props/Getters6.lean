import Verif.Props.Getters5
/-
  C48, continued: sections 6 and 7.
-/
set_option linter.unusedVariables false
set_option linter.unusedSectionVars false
set_option linter.unusedSimpArgs false
namespace ENDFtk.Props
open ENDFtk

section
variable [Disco]

/-! ### section 6, LAW = 1, tabulated angular distributions and thermal scattering -/

/-- Tabulated angular distributions for each secondary energy. -/
theorem C48_continuumTabulated {lang : Int} {e : Dbl} {nd : Int} {na : Nat} {es f0 : List Dbl} {cos prob : List (List Dbl)} {l : LIST}
    (h : ContinuumData.makeTabulated lang e nd na es f0 cos prob = .ok l) (hna : na % 2 = 0) :
    ContinuumData.incidentEnergy l = e ∧ ContinuumData.numberDiscreteEnergies l = nd ∧ ContinuumData.numberAngularParameters l = na ∧
    ContinuumData.numberSecondaryEnergies l = es.length ∧ ContinuumData.energies l = .ok es ∧
    (es ≠ [] → ContinuumData.totalEmissionProbabilities l = .ok f0) ∧ ContinuumData.cosines l = .ok cos ∧ ContinuumData.probabilities l = .ok prob ∧
    (l.Fits → (listC.checkedE (continuumCheck 11)).Valid l) ∧ (lang = 11 ∨ lang = 12 ∨ lang = 13 ∨ lang = 14 ∨ lang = 15) := by
  unfold ContinuumData.makeTabulated at h
  split at h
  · cases h
  split at h
  · cases h
  rename_i h1 h2
  cases hvv : verified (continuumCheck 11) ⟨Disco.zero, e, nd, na, es.length,
    ((es.zip f0).zip (cos.zip prob)).flatMap fun r => r.1.1 :: r.1.2 :: rows r.2.1.length [r.2.1, r.2.2]⟩ with
  | error er => rw [hvv] at h; cases h
  | ok m =>
    rw [hvv] at h
    obtain ⟨rfl, hv⟩ := verified_ok hvv
    change (if _ then _ else _) = _ at h
    split at h
    · rename_i hlang
      cases h
      have hr : ∀ r ∈ cos.zip prob, r.1.length = na / 2 ∧ r.2.length = na / 2 := fun r hr => by
        have a : r.1.length = na / 2 := Decidable.byContradiction fun hne => h2 ⟨r, hr, .inr (.inr hne)⟩
        have b : r.1.length = r.2.length := Decidable.byContradiction fun hne => h2 ⟨r, hr, .inr (.inl hne)⟩
        omega
      have hf : ∀ r ∈ (es.zip f0).zip (cos.zip prob), (r.1.1 :: r.1.2 :: rows r.2.1.length [r.2.1, r.2.2]).length = 2 + na := fun r hz => by
        have := (hr _ (List.of_mem_zip hz).2).1
        simp only [List.length_cons, rows_length, List.length_nil]; omega
      have hz1 : (es.zip f0).length = es.length := by rw [List.length_zip]; omega
      have hz2 : (cos.zip prob).length = es.length := by rw [List.length_zip]; omega
      have hzl : ((es.zip f0).zip (cos.zip prob)).length = es.length := by rw [List.length_zip]; omega
      have hl : contList e nd na ((es.zip f0).zip (cos.zip prob)) (fun r => r.1.1 :: r.1.2 :: rows r.2.1.length [r.2.1, r.2.2]) =
          ⟨Disco.zero, e, nd, na, es.length, ((es.zip f0).zip (cos.zip prob)).flatMap fun r => r.1.1 :: r.1.2 :: rows r.2.1.length [r.2.1, r.2.2]⟩ := by
        unfold contList; rw [hzl]
      rw [← hl] at hv ⊢
      have m1 : ((es.zip f0).zip (cos.zip prob)).map (·.1) = es.zip f0 := zip_left (by omega)
      have m2 : ((es.zip f0).zip (cos.zip prob)).map (·.2) = cos.zip prob := zip_right (by omega)
      have m11 : ((es.zip f0).zip (cos.zip prob)).map (·.1.1) = es := by
        have := congrArg (List.map (·.1)) m1
        rw [List.map_map, zip_left (by omega)] at this; exact this
      have m12 : ((es.zip f0).zip (cos.zip prob)).map (·.1.2) = f0 := by
        have := congrArg (List.map (·.2)) m1
        rw [List.map_map, zip_right (by omega)] at this; exact this
      have cell : ∀ r ∈ (es.zip f0).zip (cos.zip prob), strideL 2 (rows r.2.1.length [r.2.1, r.2.2]) = r.2.1 ∧
          strideL 2 ((rows r.2.1.length [r.2.1, r.2.2]).drop 1) = r.2.2 := fun r hz => by
        have := hr _ (List.of_mem_zip hz).2
        have hl : ∀ x ∈ [r.2.1, r.2.2], x.length = r.2.1.length := by simp; omega
        constructor
        · have a := stride_rows (k := 2) (c := r.2.1) rfl hl rfl
          rw [strideE_ok (by decide)] at a
          exact Except.ok.inj a
        · by_cases h0 : r.2.1.length = 0
          · have : r.2.2 = [] := List.length_eq_zero_iff.mp (by omega)
            rw [h0, this]; simp [rows, strideL]
          · have a := col_rows (off := 1) (k := 2) (j := 1) (c := r.2.2) rfl hl rfl rfl (.inl h0)
            unfold column at a
            rw [dropE_ok (by decide) (by rw [rows_length]; simp only [List.length_cons, List.length_nil]; omega)] at a
            change strideE 2 _ = _ at a
            rw [strideE_ok (by decide)] at a
            exact Except.ok.inj a
      refine ⟨rfl, rfl, rfl, by show (((es.zip f0).zip (cos.zip prob)).length : Int) = _; rw [hzl], ?_, fun hne => ?_, ?_, ?_, fun hf => ⟨hf, hv⟩, hlang⟩
      · rw [cont_energies (g := (·.1.1)) hf (fun _ _ => rfl), m11]
      · rw [cont_total (g1 := (·.1.2)) hf (fun _ _ => rfl), m12]
        intro h0
        rw [h0] at hzl
        exact hne (List.length_eq_zero_iff.mp hzl.symm)
      · unfold ContinuumData.cosines
        rw [cont_chunks (k := 2 + (contList e nd na ((es.zip f0).zip (cos.zip prob)) (fun r => r.1.1 :: r.1.2 :: rows r.2.1.length [r.2.1, r.2.2])).l2) hf rfl]
        show Except.ok _ = _
        rw [List.map_map]
        congr 1
        conv => rhs; rw [← zip_left (as := cos) (bs := prob) (by omega), ← m2, List.map_map]
        exact List.map_congr_left fun r hr => (cell r hr).1
      · unfold ContinuumData.probabilities
        rw [cont_chunks (k := 2 + (contList e nd na ((es.zip f0).zip (cos.zip prob)) (fun r => r.1.1 :: r.1.2 :: rows r.2.1.length [r.2.1, r.2.2])).l2) hf rfl]
        show Except.ok _ = _
        rw [List.map_map]
        congr 1
        conv => rhs; rw [← zip_right (as := cos) (bs := prob) (by omega), ← m2, List.map_map]
        exact List.map_congr_left fun r hr => (cell r hr).2
    · cases h

/-- Arrays of inconsistent sizes, unsorted cosines and an unknown interpolation are rejected. -/
theorem C48_continuumTabulated_rejects {lang : Int} {e : Dbl} {nd : Int} {na : Nat} {es f0 : List Dbl} {cos prob : List (List Dbl)}
    (h : ¬(f0.length = es.length ∧ cos.length = es.length ∧ prob.length = es.length) ∨
      (∃ (i : Nat) (c p : List Dbl), cos[i]? = some c ∧ prob[i]? = some p ∧ (¬SortedD c ∨ c.length ≠ p.length ∨ c.length ≠ na / 2))) :
    ContinuumData.makeTabulated lang e nd na es f0 cos prob = .error .exc := by
  unfold ContinuumData.makeTabulated
  split
  · rfl
  split
  · rfl
  · rename_i h1 h2
    exfalso
    rcases h with h | ⟨i, c, p, hc, hp, h⟩
    · omega
    · apply h2
      refine ⟨(c, p), List.mem_of_getElem? (i := i) ?_, ?_⟩
      · rw [List.getElem?_zip_eq_some]
        exact ⟨hc, hp⟩
      · simpa [sortedD_iff] using h

/-- Equiprobable cosines of thermal scattering. -/
theorem C48_thermalScattering (e : Dbl) (cos : List Dbl) :
    let l := ContinuumData.makeThermal e cos
    ContinuumData.incidentEnergy l = e ∧ ContinuumData.thermalEnergies l = .ok [e] ∧ ContinuumData.thermalProbabilities l = .ok [Disco.ofInt 1] ∧
    ContinuumData.thermalCosines l = .ok [cos] ∧ (l.Fits → (listC.checkedE (continuumCheck 3)).Valid l) := by
  have e1 : (ContinuumData.makeThermal e cos).data = [cos].flatMap fun c => e :: Disco.ofInt 1 :: c := by simp [ContinuumData.makeThermal]
  have hl : ∀ c ∈ [cos], (e :: Disco.ofInt 1 :: c).length = cos.length + 2 := by simp
  have hn : (ContinuumData.makeThermal e cos).n2 = ((cos.length + 2 : Nat) : Int) := by simp [ContinuumData.makeThermal]
  refine ⟨rfl, ?_, ?_, ?_, fun hf => ⟨hf, rfl⟩⟩
  · unfold ContinuumData.thermalEnergies
    rw [e1, hn]
    exact stride_flatMap (g := fun _ => e) (by omega) hl (fun _ _ => rfl) rfl
  · unfold ContinuumData.thermalProbabilities
    rw [e1, hn]
    exact column_flatMap (j := 1) (g := fun _ => Disco.ofInt 1) (by omega) hl (fun _ _ => rfl) rfl rfl (.inl (by simp))
  · unfold ContinuumData.thermalCosines
    rw [e1, hn, chunkE_ok (by omega)]
    show mapE _ (chunkL (((cos.length + 2 : Nat) : Int)).toNat _) = _
    rw [show (((cos.length + 2 : Nat) : Int)).toNat = cos.length + 2 from by omega, chunkL_flatMap (by omega) hl]
    rw [mapE_ok (g := List.drop 2)]
    · rfl
    · intro x hx
      simp only [List.map_cons, List.map_nil, List.mem_singleton] at hx
      subst hx
      exact dropE_append (n := 2) (a := [e, Disco.ofInt 1]) rfl

/-! ### section 6, LAW = 2 and 5 -/

theorem C48_twoBodyLegendre {e : Dbl} {cs : List Dbl} (hs : (cs.length : Int) < 2147483648) :
    ∃ l, TwoBodyData.makeLegendre e cs = .ok l ∧ TwoBodyData.incidentEnergy l = e ∧ TwoBodyData.coefficients l = cs ∧
      (l.Fits → (listC.checked twoBodyOk).Valid l) := by
  have hv : twoBodyOk ⟨Disco.zero, e, 0, 0, cs.length, cs⟩ := .inl ⟨rfl, rfl⟩
  exact ⟨_, verified_pos hv, rfl, rfl, fun hf => ⟨hf, hv⟩⟩

theorem C48_twoBodyTabulated {e : Dbl} {lang : Int} {cos prob : List Dbl} {l : LIST} (h : TwoBodyData.makeTabulated e lang cos prob = .ok l) (hn : cos ≠ []) :
    TwoBodyData.incidentEnergy l = e ∧ TwoBodyData.cosines l = .ok cos ∧ TwoBodyData.probabilities l = .ok prob ∧
    (IsInt32 lang → l.Fits → (listC.checked twoBodyOk).Valid l) := by
  unfold TwoBodyData.makeTabulated at h
  split at h
  · cases h
  obtain ⟨rfl, hv⟩ := verified_require h
  have hl : ∀ x ∈ [cos, prob], x.length = cos.length := by simp; omega
  refine ⟨rfl, stride_rows rfl hl rfl, col_rows (j := 1) rfl hl rfl rfl (.inl (by simpa using hn)), fun hi hf => ⟨hf, .inr ?_⟩⟩
  simp only [toInt32_of hi] at hv
  exact hv

theorem C48_twoBodyTabulated_accepts {e : Dbl} {lang : Int} {cos prob : List Dbl} (hi : IsInt32 lang) (hs : 2 * (cos.length : Int) < 2147483648) :
    ((lang = 12 ∨ lang = 14) ∧ cos.length = prob.length → ∃ l, TwoBodyData.makeTabulated e lang cos prob = .ok l) ∧
    (¬((lang = 12 ∨ lang = 14) ∧ cos.length = prob.length) → TwoBodyData.makeTabulated e lang cos prob = .error .exc) := by
  have hsz : toInt32 ((rows cos.length [cos, prob]).length : Int) = 2 * toInt32 (cos.length : Int) := by
    rw [rows_length]
    simp only [List.length_cons, List.length_nil]
    rw [nat32 (by omega), nat32 (by omega)]
    omega
  unfold TwoBodyData.makeTabulated
  constructor
  · rintro ⟨h1, h2⟩
    rw [if_neg (by omega)]
    refine ⟨_, verified_pos ⟨?_, hsz⟩⟩
    simp only [toInt32_of hi]; exact h1
  · intro h
    split
    · rfl
    · refine verified_neg fun h' => h ⟨?_, by omega⟩
      have := h'.1
      simp only [toInt32_of hi] at this; exact this

theorem C48_nuclearAmplitudes {e : Dbl} {nl : Nat} {b ar ai : List Dbl} {l : LIST} (h : ChargedData.makeAmplitude e nl b ar ai = .ok l) :
    ChargedData.incidentEnergy l = e ∧ ChargedData.scatteringCoefficients l = .ok b ∧ ChargedData.realInterferenceCoefficients l = .ok ar ∧
    ChargedData.imaginaryInterferenceCoefficients l = .ok ai ∧ (l.Fits → (listC.checked chargedOk).Valid l) := by
  unfold ChargedData.makeAmplitude at h
  split at h
  · cases h
  split at h
  · cases h
  split at h
  · cases h
  obtain ⟨rfl, hv⟩ := verified_require h
  have hl : ∀ x ∈ [ar, ai], x.length = nl + 1 := by simp; omega
  have hrl : (b ++ rows (nl + 1) [ar, ai]).length = b.length + (nl + 1) * 2 := by rw [List.length_append, rows_length]; rfl
  have e1 : ((b ++ rows (nl + 1) [ar, ai]).length : Int) - 2 * (nl : Int) - 2 = b.length := by rw [hrl]; omega
  have e2 : ((b ++ rows (nl + 1) [ar, ai]).length : Int) - 2 * (nl : Int) - 1 = b.length + (1 : Nat) := by rw [hrl]; omega
  refine ⟨rfl, ?_, ?_, ?_, fun hf => ⟨hf, hv⟩⟩
  · unfold ChargedData.scatteringCoefficients LIST.npl
    simp only [e1]
    rw [if_neg (by omega)]
    simp
  · unfold ChargedData.realInterferenceCoefficients LIST.npl
    simp only [e1]
    exact column_rows (j := 0) rfl hl (by omega) rfl (.inl (by omega))
  · unfold ChargedData.imaginaryInterferenceCoefficients LIST.npl
    simp only [e2]
    exact column_rows (j := 1) rfl hl rfl rfl (.inl (by omega))

theorem C48_nuclearAmplitudes_accepts {e : Dbl} {nl : Nat} {b ar ai : List Dbl} (hs : 4 * (nl : Int) + 3 < 2147483648) :
    let ok := ar.length = nl + 1 ∧ ai.length = nl + 1 ∧ (b.length = nl + 1 ∨ b.length = 2 * nl + 1)
    (ok → ∃ l, ChargedData.makeAmplitude e nl b ar ai = .ok l) ∧ (¬ok → ChargedData.makeAmplitude e nl b ar ai = .error .exc) := by
  intro ok
  unfold ChargedData.makeAmplitude
  constructor
  · rintro ⟨h1, h2, h3⟩
    rw [if_neg (by omega), if_neg (by omega), if_neg (by omega)]
    refine ⟨_, verified_pos (.inl ⟨rfl, ?_⟩)⟩
    have hrl : (b ++ rows (nl + 1) [ar, ai]).length = b.length + (nl + 1) * 2 := by rw [List.length_append, rows_length]; rfl
    unfold LIST.npl
    simp only [hrl]
    rw [nat32 (by omega), nat32 (by omega)]
    omega
  · intro h
    split
    · rfl
    split
    · rfl
    split
    · rfl
    · exact absurd ⟨by omega, by omega, by omega⟩ h

theorem C48_nuclearPlusInterference {e : Dbl} {ltp : Int} {cos prob : List Dbl} {l : LIST} (h : ChargedData.makeInterference e ltp cos prob = .ok l) (hn : cos ≠ []) :
    ChargedData.incidentEnergy l = e ∧ ChargedData.cosines l = .ok cos ∧ ChargedData.probabilities l = .ok prob ∧
    (IsInt32 ltp → l.Fits → (listC.checked chargedOk).Valid l) := by
  unfold ChargedData.makeInterference at h
  split at h
  · cases h
  obtain ⟨rfl, hv⟩ := verified_require h
  have hl : ∀ x ∈ [cos, prob], x.length = cos.length := by simp; omega
  refine ⟨rfl, stride_rows rfl hl rfl, col_rows (j := 1) rfl hl rfl rfl (.inl (by simpa using hn)), fun hi hf => ⟨hf, .inr (.inr ?_)⟩⟩
  simp only [toInt32_of hi] at hv
  exact hv

theorem C48_nuclearPlusInterference_accepts {e : Dbl} {ltp : Int} {cos prob : List Dbl} (hi : IsInt32 ltp) (hs : 2 * (cos.length : Int) < 2147483648) :
    ((ltp = 12 ∨ ltp = 14 ∨ ltp = 15) ∧ cos.length = prob.length → ∃ l, ChargedData.makeInterference e ltp cos prob = .ok l) ∧
    (¬((ltp = 12 ∨ ltp = 14 ∨ ltp = 15) ∧ cos.length = prob.length) → ChargedData.makeInterference e ltp cos prob = .error .exc) := by
  have hsz : toInt32 ((rows cos.length [cos, prob]).length : Int) = 2 * toInt32 (cos.length : Int) := by
    rw [rows_length]
    simp only [List.length_cons, List.length_nil]
    rw [nat32 (by omega), nat32 (by omega)]
    omega
  unfold ChargedData.makeInterference
  constructor
  · rintro ⟨h1, h2⟩
    rw [if_neg (by omega)]
    refine ⟨_, verified_pos ⟨?_, hsz⟩⟩
    simp only [toInt32_of hi]; exact h1
  · intro h
    split
    · rfl
    · refine verified_neg fun h' => h ⟨?_, by omega⟩
      have := h'.1
      simp only [toInt32_of hi] at this; exact this

end

end ENDFtk.Props

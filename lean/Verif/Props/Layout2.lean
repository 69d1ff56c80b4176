import Verif.Props.Layout
/-
  C59 for the remaining components.
-/
set_option linter.unusedVariables false
set_option linter.unusedSectionVars false
set_option linter.unusedSimpArgs false
namespace ENDFtk.Props
open ENDFtk
variable [Disco] {l : LIST}

theorem col_of {data : List Dbl} {p j k n : Nat} {off k' : Int} (hl : data.length = p + k * n) (hj : j < k) (hn : n ≠ 0 ∨ j = 0) (ho : off = (p + j : Nat)) (hk : k' = k) :
    ∃ xs, column off k' data = .ok xs ∧ IsColumn xs data (p + j) k n := column_of hl hj hn ho hk

theorem mul_succ_le {i n k : Nat} (h : i < n) : i * k + k ≤ n * k := by
  have := Nat.mul_le_mul_right k (show i + 1 ≤ n from h)
  rw [Nat.succ_mul] at this; exact this

/-! ### 1/455 -/

/-- The decay constant and the abundance of each precursor, interleaved. -/
theorem C59_decayConstants (h : decayC.Valid l) (hs : Small l) : ∃ n, l.data.length = 2 * n ∧ DecayConstants.numberPrecursors l = n ∧
    Columns l.data 2 n 0 [DecayConstants.decayConstants l, DecayConstants.abundances l] ∧ DecayConstants.incidentEnergy l = l.c2 := by
  have hv : ¬(asInt l.data.length = 0 ∨ asInt l.data.length % 2 ≠ 0) := h.2
  have hs' := hs
  unfold Small LIST.npl at hs
  have e : asInt l.data.length = (l.data.length : Int) := toInt32_of ⟨by omega, by omega⟩
  rw [e] at hv
  obtain ⟨n, hn⟩ : ∃ n, l.data.length = 2 * n := ⟨l.data.length / 2, by omega⟩
  have en : DecayConstants.numberPrecursors l = n := by
    unfold DecayConstants.numberPrecursors
    rw [asInt, toInt32_of ⟨by omega, by omega⟩]; omega
  obtain ⟨a, b, h1, h2, h3, h4⟩ := C48_decayConstants_columns h hs'
  rw [en] at h3 h4
  exact ⟨n, hn, en, ⟨⟨a, h1, h3⟩, ⟨b, h2, h4⟩, trivial⟩, rfl⟩

/-! ### 1/458 -/

theorem component_blocks {n i : Nat} (hl : l.data.length = 18 * n) (hn : n ≠ 0) (hi : i < 9) : Blocks l.data (2 * i) 18 2 n (PolynomialComponents.component i l) := by
  unfold PolynomialComponents.component
  rw [chunkE_ok (by decide)]
  obtain ⟨xs, h1, h2, h3⟩ := column_of (l := chunkL 2 l.data) (p := 0) (j := i) (k := 9) (n := n) (off := i) (k' := 9)
    (by rw [chunkL_length]; omega) hi (.inl hn) (by omega) rfl
  refine ⟨xs, h1, h2, fun m hm => ⟨?_, by omega⟩⟩
  rw [h3 m hm, chunkL_getElem? (by decide), if_pos (by omega)]
  congr 3; omega

/-- For each order of the polynomials, the nine components (with their uncertainties) in the order of the format: EFR, ENP, END, EGP, EGD, EB, ENU, ER, ET. -/
theorem C59_polynomialComponents {n : Nat} (hl : l.data.length = 18 * n) (hn : n ≠ 0) :
    Blocks l.data 0 18 2 n (PolynomialComponents.fissionFragments l) ∧ Blocks l.data 2 18 2 n (PolynomialComponents.promptNeutrons l) ∧
    Blocks l.data 4 18 2 n (PolynomialComponents.delayedNeutrons l) ∧ Blocks l.data 6 18 2 n (PolynomialComponents.promptGammas l) ∧
    Blocks l.data 8 18 2 n (PolynomialComponents.delayedGammas l) ∧ Blocks l.data 10 18 2 n (PolynomialComponents.delayedBetas l) ∧
    Blocks l.data 12 18 2 n (PolynomialComponents.neutrinos l) ∧ Blocks l.data 14 18 2 n (PolynomialComponents.totalMinusNeutrinos l) ∧
    Blocks l.data 16 18 2 n (PolynomialComponents.total l) ∧ PolynomialComponents.order l = toInt32 l.l2 :=
  ⟨component_blocks hl hn (by decide), component_blocks hl hn (by decide), component_blocks hl hn (by decide), component_blocks hl hn (by decide),
    component_blocks hl hn (by decide), component_blocks hl hn (by decide), component_blocks hl hn (by decide), component_blocks hl hn (by decide),
    component_blocks hl hn (by decide), rfl⟩

/-- The polynomial data that can be read have this size: NPLY + 1 coefficients of nine components. -/
theorem C59_polynomialComponents_size (h : Release.Valid (.poly l)) (hs : Small l) (hz : l.data ≠ []) : ∃ n, n ≠ 0 ∧ l.data.length = 18 * n ∧ PolynomialComponents.order l + 1 = n := by
  unfold Release.Valid at h
  obtain ⟨_, h1, h2, h3⟩ := h
  have hz : l.data.length ≠ 0 := by simpa using hz
  rw [small32 hs] at h2
  unfold PolynomialComponents.order
  exact ⟨l.data.length / 18, by omega, by omega, by omega⟩

/-! ### MF6 -/

section
variable {na n : Nat}

/-- E', f0, and the angular parameters of each secondary energy. -/
theorem C59_continuum (hl : l.data.length = (2 + na) * n) (h2 : l.l2 = na) (hn : n ≠ 0) :
    Columns l.data (2 + na) n 0 [ContinuumData.energies l, ContinuumData.totalEmissionProbabilities l] ∧
    Blocks l.data 1 (2 + na) (1 + na) n (ContinuumData.data l) ∧
    ContinuumData.incidentEnergy l = l.c2 ∧ ContinuumData.numberDiscreteEnergies l = l.l1 ∧ ContinuumData.numberAngularParameters l = na ∧
    ContinuumData.numberSecondaryEnergies l = l.n2 := by
  have hk : (2 + l.l2 : Int) = ((2 + na : Nat) : Int) := by rw [h2]; push_cast; rfl
  refine ⟨⟨?_, ?_, trivial⟩, ?_, rfl, rfl, h2, rfl⟩
  · unfold ContinuumData.energies
    rw [hk]; exact strideE_of hl (by omega) rfl
  · unfold ContinuumData.totalEmissionProbabilities
    rw [hk]
    have := col_of (data := l.data) (p := 0) (j := 1) (k := 2 + na) (n := n) (off := 1) (k' := ((2 + na : Nat) : Int)) (by omega) (by omega) (.inl hn) rfl rfl
    simpa using this
  · unfold ContinuumData.data
    rw [hk]
    obtain ⟨xs, e, h⟩ := blocks_of (data := l.data) (p := 0) (k := 2 + na) (n := n) (d := 1) (w := 1 + na) (k' := ((2 + na : Nat) : Int)) (p' := 0) (f := fun c => .ok c.tail)
      (by omega) (by omega) (by omega) rfl rfl (fun c hc => by
        congr 1
        rw [List.take_of_length_le (by simp; omega), List.drop_one])
    refine ⟨xs, ?_, by simpa using h⟩
    rw [dropE_ok (by omega) (by omega)] at e
    simp only [Except.bind] at e ⊢
    rw [chunkE_ok (by omega)] at e ⊢
    simp only [Except.bind] at e ⊢
    rw [mapE_ok (g := List.tail) (fun _ _ => rfl)] at e
    simpa using e

/-- Tabulated distributions (LANG 11 to 15): after E' and f0 the cosines and probabilities, interleaved. -/
theorem C59_continuumTabulated {m : Nat} (hl : l.data.length = (2 + 2 * m) * n) (h2 : l.l2 = (2 * m : Nat)) :
    (∃ cs, ContinuumData.cosines l = .ok cs ∧ cs.length = n ∧ ∀ i < n, ∃ c, cs[i]? = some c ∧ IsColumn c l.data ((2 + 2 * m) * i + 2) 2 m) ∧
    (∃ ps, ContinuumData.probabilities l = .ok ps ∧ ps.length = n ∧ ∀ i < n, ∃ p, ps[i]? = some p ∧ IsColumn p l.data ((2 + 2 * m) * i + 3) 2 m) := by
  have hk : (2 + l.l2 : Int) = ((2 + 2 * m : Nat) : Int) := by rw [h2]; push_cast; rfl
  have hlen : (chunkL (2 + 2 * m) l.data).length = n := by
    rw [chunkL_length, hl]
    have : (2 + 2 * m) * n + (2 + 2 * m) - 1 = (2 + 2 * m) * n + (2 * m + 1) := by omega
    rw [this, Nat.mul_add_div (by omega), Nat.div_eq_of_lt (by omega)]; rfl
  have key : ∀ (d i : Nat), d = 2 ∨ d = 3 → i < n → ∃ c, ((chunkL (2 + 2 * m) l.data).map (fun c => strideL 2 (c.drop d)))[i]? = some c ∧
      IsColumn c l.data ((2 + 2 * m) * i + d) 2 m := by
    intro d i hd hi
    have hm := mul_succ_le (k := 2 + 2 * m) hi
    have e1 : (2 + 2 * m) * i = i * (2 + 2 * m) := Nat.mul_comm _ _
    have e2 : (2 + 2 * m) * n = n * (2 + 2 * m) := Nat.mul_comm _ _
    rw [List.getElem?_map, chunkL_getElem? (by omega), if_pos (by omega)]
    refine ⟨_, rfl, ?_, fun j hj => ?_⟩
    · rw [strideL_length (by decide)]
      simp only [List.length_drop, List.length_take]
      omega
    · rw [strideL_getElem? (by decide), List.getElem?_drop, List.getElem?_take_of_lt (by omega), List.getElem?_drop]
      congr 1; omega
  constructor
  · refine ⟨_, ?_, ?_, fun i hi => key 2 i (.inl rfl) hi⟩
    · unfold ContinuumData.cosines
      rw [hk, chunkE_ok (by omega)]; rfl
    · rw [List.length_map, hlen]
  · refine ⟨_, ?_, ?_, fun i hi => key 3 i (.inr rfl) hi⟩
    · unfold ContinuumData.probabilities
      rw [hk, chunkE_ok (by omega)]; rfl
    · rw [List.length_map, hlen]

/-- Thermal scattering data: E', f0 and the cosines of each secondary energy; here N2 is the number of values per energy. -/
theorem C59_thermalScattering {k : Nat} (hl : l.data.length = k * n) (h2 : l.n2 = k) (hk : 2 ≤ k) (hn : n ≠ 0) :
    Columns l.data k n 0 [ContinuumData.thermalEnergies l, ContinuumData.thermalProbabilities l] ∧
    Blocks l.data 2 k (k - 2) n (ContinuumData.thermalCosines l) := by
  refine ⟨⟨?_, ?_, trivial⟩, ?_⟩
  · unfold ContinuumData.thermalEnergies
    rw [h2]; exact strideE_of hl (by omega) rfl
  · unfold ContinuumData.thermalProbabilities
    rw [h2]
    have := col_of (data := l.data) (p := 0) (j := 1) (k := k) (n := n) (off := 1) (k' := (k : Int)) (by omega) (by omega) (.inl hn) rfl rfl
    simpa using this
  · unfold ContinuumData.thermalCosines
    rw [h2]
    have := blocks_of (data := l.data) (p := 0) (k := k) (n := n) (d := 2) (w := k - 2) (k' := (k : Int)) (p' := 0) (f := dropE 2)
      (by omega) (by omega) (by omega) rfl rfl (fun c hc => by
        rw [dropE_ok (by omega) (by omega), List.take_of_length_le (by simp; omega)]; rfl)
    rw [dropE_ok (by omega) (by omega)] at this
    simpa [Except.bind] using this

/-- Two-body scattering: the cosines and probabilities, interleaved, or the Legendre coefficients. -/
theorem C59_twoBody (h : (listC.checked twoBodyOk).Valid l) (hs : Small l) (hz : l.data ≠ []) :
    TwoBodyData.incidentEnergy l = l.c2 ∧ (l.l1 = 0 → TwoBodyData.coefficients l = l.data ∧ l.data.length = (toInt32 l.n2).toNat) ∧
    (l.l1 = 12 ∨ l.l1 = 14 → Columns l.data 2 (toInt32 l.n2).toNat 0 [TwoBodyData.cosines l, TwoBodyData.probabilities l]) := by
  have hv : twoBodyOk l := h.2
  have hz : l.data.length ≠ 0 := by simpa using hz
  unfold twoBodyOk at hv
  rw [small32 hs] at hv
  refine ⟨rfl, fun h0 => ⟨rfl, by omega⟩, fun h1 => ⟨?_, ?_, trivial⟩⟩
  · exact strideE_of (by omega) (by decide) rfl
  · have := col_of (data := l.data) (p := 0) (j := 1) (k := 2) (n := (toInt32 l.n2).toNat) (off := 1) (k' := 2) (by omega) (by decide) (.inl (by omega)) rfl rfl
    simpa [TwoBodyData.probabilities] using this

/-- Nuclear amplitudes: first the scattering coefficients `b` (NL + 1 or 2 NL + 1 of them), then the real and imaginary interference coefficients, interleaved. -/
theorem C59_nuclearAmplitudes {nl nb : Nat} (hl : l.data.length = nb + 2 * (nl + 1)) (h2 : l.n2 = nl) :
    ChargedData.scatteringCoefficients l = .ok (l.data.take nb) ∧
    Columns l.data 2 (nl + 1) nb [ChargedData.realInterferenceCoefficients l, ChargedData.imaginaryInterferenceCoefficients l] ∧
    ChargedData.incidentEnergy l = l.c2 := by
  have e : (l.npl : Int) - 2 * l.n2 - 2 = nb := by unfold LIST.npl; omega
  have e' : (l.npl : Int) - 2 * l.n2 - 1 = (nb + 1 : Nat) := by omega
  refine ⟨?_, ⟨?_, ?_, trivial⟩, rfl⟩
  · unfold ChargedData.scatteringCoefficients
    rw [e, if_neg (by omega), Int.toNat_natCast]
  · unfold ChargedData.realInterferenceCoefficients
    rw [e]; exact col_of (j := 0) hl (by decide) (.inr rfl) rfl rfl
  · unfold ChargedData.imaginaryInterferenceCoefficients
    rw [e']; exact col_of (j := 1) hl (by decide) (.inl (by omega)) rfl rfl

/-- The amplitudes that can be read have such a size. -/
theorem C59_nuclearAmplitudes_size (h : (listC.checked chargedOk).Valid l) (hs : Small l) (h1 : l.l1 = 1) (h2 : l.n2 = toInt32 l.n2) (h3 : 0 ≤ l.n2) :
    ∃ nl nb : Nat, l.data.length = nb + 2 * (nl + 1) ∧ l.n2 = nl ∧ (nb = nl + 1 ∨ nb = 2 * nl + 1) := by
  have hv : chargedOk l := h.2
  unfold chargedOk at hv
  rw [small32 hs, ← h2] at hv
  refine ⟨l.n2.toNat, l.data.length - 2 * (l.n2.toNat + 1), ?_, ?_, ?_⟩ <;> omega

/-- Nuclear plus interference distributions: the cosines and probabilities, interleaved. -/
theorem C59_nuclearPlusInterference (h : (listC.checked chargedOk).Valid l) (hs : Small l) (h1 : l.l1 = 12 ∨ l.l1 = 14 ∨ l.l1 = 15) (hz : l.data ≠ []) :
    Columns l.data 2 (toInt32 l.n2).toNat 0 [ChargedData.cosines l, ChargedData.probabilities l] := by
  have hv : chargedOk l := h.2
  have hz : l.data.length ≠ 0 := by simpa using hz
  unfold chargedOk at hv
  rw [small32 hs] at hv
  refine ⟨?_, ?_, trivial⟩
  · exact strideE_of (by omega) (by decide) rfl
  · have := col_of (data := l.data) (p := 0) (j := 1) (k := 2) (n := (toInt32 l.n2).toNat) (off := 1) (k' := 2) (by omega) (by decide) (.inl (by omega)) rfl rfl
    simpa [ChargedData.probabilities] using this

end

/-! ### MF7 -/

/-- The constants B(1), B(2), ... of 7/4: for the principal scatterer M0 f0, E/k T0, A0, Emax, 0, M0; for the others the type, M1 s1, A1, 0, 0, M1, ... -/
theorem C59_scatteringLawConstants (h : constantsC.Valid l) (hs : Small l) : ∃ ns : Nat, ns ≤ 3 ∧ l.n2 = ns ∧ l.data.length = 6 * (ns + 1) ∧
    (∃ xs, ScatteringLawConstants.totalFreeCrossSections l = .ok xs ∧ xs.length = ns + 1 ∧ xs[0]? = l.data[0]? ∧ ∀ i < ns, xs[i + 1]? = l.data[6 * (i + 1) + 1]?) ∧
    Value l.data 1 (ScatteringLawConstants.epsilon l) ∧ Value l.data 3 (ScatteringLawConstants.upperEnergyLimit l) ∧
    Columns l.data 6 (ns + 1) 2 [ScatteringLawConstants.atomicWeightRatios l] ∧ Columns l.data 6 (ns + 1) 5 [ScatteringLawConstants.numberAtoms l] ∧
    Columns l.data 6 ns 6 [ScatteringLawConstants.analyticalFunctionTypes l] ∧
    ScatteringLawConstants.sabStorageType l = toInt32 l.l1 ∧ ScatteringLawConstants.numberNonPrincipalScatterers l = ns := by
  have hv : constantsCheck l = .ok () := h.2
  unfold constantsCheck at hv
  rw [small32 hs] at hv
  split at hv
  · cases hv
  split at hv
  · cases hv
  split at hv
  · cases hv
  split at hv
  · cases hv
  split at hv
  · cases hv
  rename_i h1 _ h2 h3 h4
  obtain ⟨ns, hns⟩ : ∃ ns : Nat, l.n2 = ns := ⟨l.n2.toNat, by omega⟩
  have hn3 : ns ≤ 3 := by omega
  rw [hns, toInt32_of ⟨by omega, by omega⟩] at h2
  have hl : l.data.length = 6 * (ns + 1) := by omega
  refine ⟨ns, hn3, hns, hl, ?_, value_of (by omega), value_of (by omega), ⟨?_, trivial⟩, ⟨?_, trivial⟩, ⟨?_, trivial⟩, rfl, hns⟩
  · unfold ScatteringLawConstants.totalFreeCrossSections
    have at' : ∀ i < l.data.length, atE l.data i = .ok (l.data.getD i Disco.zero) := fun i hi => by
      unfold atE; rw [List.getElem?_eq_getElem hi, List.getD_eq_getElem?_getD, List.getElem?_eq_getElem hi]; rfl
    have g' : ∀ i < l.data.length, some (l.data.getD i Disco.zero) = l.data[i]? := fun i hi => by
      rw [List.getD_eq_getElem?_getD, List.getElem?_eq_getElem hi]; rfl
    have key : ∀ is : List Nat, ScatteringLawConstants.indices (ns : Int) = .ok is → (∀ i ∈ is, i < l.data.length) → is.length = ns + 1 → is[0]? = some 0 →
        (∀ i < ns, is[i + 1]? = some (6 * (i + 1) + 1)) →
        ∃ xs, (ScatteringLawConstants.indices l.n2).bind (mapE (atE l.data)) = .ok xs ∧ xs.length = ns + 1 ∧ xs[0]? = l.data[0]? ∧
          ∀ i < ns, xs[i + 1]? = l.data[6 * (i + 1) + 1]? := by
      intro is h1 h2 h3 h4 h5
      refine ⟨is.map fun i => l.data.getD i Disco.zero, ?_, by simpa using h3, ?_, fun i hi => ?_⟩
      · rw [hns, h1]; exact mapE_ok fun i hi => at' i (h2 i hi)
      · rw [List.getElem?_map, h4]; exact g' 0 (by omega)
      · rw [List.getElem?_map, h5 i hi]; exact g' _ (by omega)
    obtain rfl | rfl | rfl | rfl : ns = 0 ∨ ns = 1 ∨ ns = 2 ∨ ns = 3 := by omega
    · exact key [0] rfl (by simp; omega) rfl rfl (by omega)
    · exact key [0, 7] rfl (by simp; omega) rfl rfl (fun i hi => by obtain rfl : i = 0 := by omega
                                                                    rfl)
    · exact key [0, 7, 13] rfl (by simp; omega) rfl rfl (fun i hi => by obtain rfl | rfl : i = 0 ∨ i = 1 := by omega
                                                                        all_goals rfl)
    · exact key [0, 7, 13, 19] rfl (by simp; omega) rfl rfl (fun i hi => by obtain rfl | rfl | rfl : i = 0 ∨ i = 1 ∨ i = 2 := by omega
                                                                            all_goals rfl)
  · have := col_of (data := l.data) (p := 0) (j := 2) (k := 6) (n := ns + 1) (off := 2) (k' := 6) (by omega) (by decide) (.inl (by omega)) rfl rfl
    simpa [ScatteringLawConstants.atomicWeightRatios] using this
  · have := col_of (data := l.data) (p := 0) (j := 5) (k := 6) (n := ns + 1) (off := 5) (k' := 6) (by omega) (by decide) (.inl (by omega)) rfl rfl
    simpa [ScatteringLawConstants.numberAtoms] using this
  · have := col_of (data := l.data) (p := 6) (j := 0) (k := 6) (n := ns) (off := 6) (k' := 6) (by omega) (by decide) (.inr rfl) rfl rfl
    simpa [ScatteringLawConstants.analyticalFunctionTypes] using this

/-- For each isotope: its identifier, its isomeric state, its abundance, its atomic weight ratio and its free cross section. -/
theorem C59_elementInformation (h : elementC.Valid l) (hs : Small l) (hz : l.data ≠ []) :
    Columns l.data 6 (toInt32 l.n2).toNat 0 [ElementInformation.isotopeIdentifiers l, ElementInformation.isomericStates l, ElementInformation.abundances l,
      ElementInformation.atomicWeightRatios l, ElementInformation.freeScatteringCrossSections l] ∧
    ElementInformation.numberAtoms l = toInt32 l.l1 ∧ ElementInformation.numberIsotopes l = toInt32 l.n2 := by
  have c := fun (j : Nat) (hj : j < 6) => C48_elementInformation_columns h hs hz hj
  exact ⟨⟨c 0 (by decide), c 1 (by decide), c 2 (by decide), c 3 (by decide), c 4 (by decide), trivial⟩, rfl, rfl⟩

/-! ### MF8 -/

/-- For each fission product: ZAFP, FPS, the yield and its uncertainty. -/
theorem C59_fissionYields (h : yieldsC.Valid l) (hs : Small l) (hz : l.data ≠ []) :
    Columns l.data 4 (toInt32 l.n2).toNat 0 [FissionYieldData.fissionProductIdentifiers l, FissionYieldData.isomericStates l] ∧
    Blocks l.data 2 4 2 (toInt32 l.n2).toNat (FissionYieldData.fissionYields l) ∧
    FissionYieldData.incidentEnergy l = l.c1 ∧ FissionYieldData.interpolationType l = toInt32 l.l1 ∧ FissionYieldData.numberFissionProducts l = toInt32 l.n2 := by
  have c := fun (j : Nat) (hj : j < 4) => C48_fissionYields_columns h hs hz hj
  refine ⟨⟨c 0 (by decide), c 1 (by decide), trivial⟩, ?_, rfl, rfl, rfl⟩
  have hv : toInt32 l.npl = toInt32 l.n2 * 4 := h.2
  rw [small32 hs] at hv
  have hz : l.data.length ≠ 0 := by simpa using hz
  obtain ⟨n, hn⟩ : ∃ n, (toInt32 l.n2).toNat = n := ⟨_, rfl⟩
  have hl : l.data.length = 4 * n := by omega
  rw [hn]
  unfold FissionYieldData.fissionYields
  rw [dropE_ok (by omega) (by omega)]
  simp only [Except.bind]
  rw [chunkE_ok (by decide)]
  simp only [Except.bind]
  rw [strideE_ok (by decide)]
  refine ⟨_, rfl, ?_, fun i hi => ⟨?_, by omega⟩⟩
  · rw [strideL_length (by decide), chunkL_length, List.length_drop]
    simp only [Int.reduceToNat]
    omega
  · simp only [Int.reduceToNat]
    rw [strideL_getElem? (by decide), chunkL_getElem? (by decide), if_pos (by simp; omega), List.drop_drop]
    congr 3; omega

/-- The half life is in C1 and C2, the energies and their uncertainties are interleaved: light particles, electromagnetic radiation, heavy particles, ... -/
theorem C59_averageDecayEnergies {n : Nat} (hl : l.data.length = 2 * n) :
    Blocks l.data 0 2 2 n (AverageDecayEnergies.decayEnergies l) ∧ AverageDecayEnergies.halfLife l = (l.c1, l.c2) ∧
    (∀ j g, [AverageDecayEnergies.lightParticle l, AverageDecayEnergies.electromagnetic l, AverageDecayEnergies.heavyParticle l][j]? = some g → j < n →
      g = .ok ((l.data.drop (2 * j)).take 2)) ∧ (Small l → AverageDecayEnergies.numberDecayEnergies l = n) := by
  have b : Blocks l.data 0 2 2 n (AverageDecayEnergies.decayEnergies l) := by
    unfold AverageDecayEnergies.decayEnergies
    rw [chunkE_ok (by decide)]
    refine ⟨_, rfl, ?_, fun i hi => ⟨?_, by omega⟩⟩
    · rw [chunkL_length]; simp only [Int.reduceToNat]; omega
    · simp only [Int.reduceToNat]
      rw [chunkL_getElem? (by decide), if_pos (by omega)]
      congr 3; omega
  refine ⟨b, rfl, fun j g hg hj => ?_, fun hs => ?_⟩
  · obtain ⟨xs, e, _, h⟩ := b
    have e1 : (AverageDecayEnergies.decayEnergies l).bind (atE · j) = .ok ((l.data.drop (2 * j)).take 2) := by
      rw [e]
      simp only [Except.bind]
      unfold atE
      rw [(h j hj).1]
      simp
    match j, hg with
    | 0, hg => cases hg; exact e1
    | 1, hg => cases hg; exact e1
    | 2, hg => cases hg; exact e1
  · unfold AverageDecayEnergies.numberDecayEnergies
    unfold Small at hs
    unfold LIST.npl at *
    rw [hl]
    rw [toInt32_of ⟨by omega, by omega⟩]; omega

/-- The decay mode with these six values. -/
def modeOf (c : List Dbl) : DecayModes.Mode :=
  ⟨c.getD 0 Disco.zero, c.getD 1 Disco.zero, (c.getD 2 Disco.zero, c.getD 3 Disco.zero), (c.getD 4 Disco.zero, c.getD 5 Disco.zero)⟩

/-- For each decay mode: RTYP, RFS, Q, dQ, BR, dBR. -/
theorem C59_decayModes {n : Nat} (hl : l.data.length = 6 * n) : (∃ ms, DecayModes.decayModes l = .ok ms ∧ ms.length = n ∧
    ∀ i < n, ∃ m, ms[i]? = some m ∧ [m.decayChain, m.finalIsomericState, m.qValue.1, m.qValue.2, m.branchingRatio.1, m.branchingRatio.2] =
      (l.data.drop (6 * i)).take 6) ∧
    DecayModes.spin l = l.c1 ∧ DecayModes.parity l = l.c2 ∧ DecayModes.numberDecayModes l = toInt32 l.n2 := by
  refine ⟨?_, rfl, rfl, rfl⟩
  have hc : ∀ c ∈ chunkL 6 l.data, c.length = 6 := by
    intro c hc
    obtain ⟨i, hi⟩ := List.mem_iff_getElem?.mp hc
    rw [chunkL_getElem? (by decide)] at hi
    split at hi
    · cases hi; simp; omega
    · cases hi
  have hn : (chunkL 6 l.data).length = n := by rw [chunkL_length]; omega
  have hg : ∀ i < n, (chunkL 6 l.data)[i]? = some ((l.data.drop (6 * i)).take 6) := fun i hi => by
    rw [chunkL_getElem? (by decide), if_pos (by omega)]
    congr 3; omega
  refine ⟨(chunkL 6 l.data).map modeOf, ?_, by rw [List.length_map, hn], fun i hi => ⟨modeOf ((l.data.drop (6 * i)).take 6), ?_, ?_⟩⟩
  · unfold DecayModes.decayModes
    rw [chunkE_ok (by decide)]
    refine mapE_ok fun c h => ?_
    match c, hc c h with
    | [a, b, c, d, e, f], _ => rfl
  · rw [List.getElem?_map, hg i hi]; rfl
  · have : ((l.data.drop (6 * i)).take 6).length = 6 := by simp; omega
    match (l.data.drop (6 * i)).take 6, this with
    | [a, b, c, d, e, f], _ => rfl

theorem returnArray_of {i : Nat} (hs : Small l) : DiscreteSpectrum.returnArray i l = if i + 1 < l.data.length then
    .ok (l.data.getD i Disco.zero, l.data.getD (i + 1) Disco.zero) else if i < l.data.length then .error .ub else .ok (Disco.zero, Disco.zero) := by
  unfold DiscreteSpectrum.returnArray
  rw [small32 hs]
  have at' : ∀ i < l.data.length, atE l.data i = .ok (l.data.getD i Disco.zero) := fun i hi => by
    unfold atE; rw [List.getElem?_eq_getElem hi, List.getD_eq_getElem?_getD, List.getElem?_eq_getElem hi]; rfl
  by_cases h1 : i + 1 < l.data.length
  · rw [if_pos (by omega), if_pos h1, at' i (by omega), at' (i + 1) h1]; rfl
  · rw [if_neg h1]
    by_cases h2 : i < l.data.length
    · rw [if_pos (by omega), if_pos h2, at' i h2]
      simp only [Except.bind]
      unfold atE
      rw [List.getElem?_eq_none (by omega)]
    · rw [if_neg (by omega), if_neg h2]

/-- RTYP, TYPE, RI, dRI, RIS, dRIS, RICC, dRICC, RICK, dRICK, RICL, dRICL; values that are not given (NT = 4 or 6) are zero.  ER and dER are in C1 and C2. -/
theorem C59_discreteSpectrum (h : discreteC.Valid l) (hs : Small l) :
    Value l.data 0 (DiscreteSpectrum.decayChain l) ∧ Value l.data 1 (DiscreteSpectrum.type l) ∧ DiscreteSpectrum.discreteEnergy l = (l.c1, l.c2) ∧
    ∀ j g, [DiscreteSpectrum.relativeIntensity l, DiscreteSpectrum.internalPairFormationCoefficient l, DiscreteSpectrum.totalInternalConversionCoefficient l,
      DiscreteSpectrum.internalConversionCoefficientKShell l, DiscreteSpectrum.internalConversionCoefficientLShell l][j]? = some g →
      g = Except.ok (l.data.getD (2 * j + 2) Disco.zero, l.data.getD (2 * j + 3) Disco.zero) := by
  have hv : toInt32 l.npl = 4 ∨ toInt32 l.npl = 6 ∨ toInt32 l.npl = 12 := h.2
  rw [small32 hs] at hv
  have key : ∀ j, DiscreteSpectrum.returnArray (2 * j + 2) l = Except.ok (l.data.getD (2 * j + 2) Disco.zero, l.data.getD (2 * j + 3) Disco.zero) := by
    intro j
    rw [returnArray_of hs]
    split
    · rfl
    · split
      · omega
      · rw [List.getD_eq_getElem?_getD, List.getD_eq_getElem?_getD, List.getElem?_eq_none (by omega), List.getElem?_eq_none (by omega)]; rfl
  refine ⟨value_of (by omega), value_of (by omega), rfl, fun j g hg => ?_⟩
  match j, hg with
  | 0, hg => cases hg; exact key 0
  | 1, hg => cases hg; exact key 1
  | 2, hg => cases hg; exact key 2
  | 3, hg => cases hg; exact key 3
  | 4, hg => cases hg; exact key 4

end ENDFtk.Props

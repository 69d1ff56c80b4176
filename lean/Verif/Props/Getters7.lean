import Verif.Props.Getters6
/-
  C48, continued: sections 7, 8, 12 and 28.
-/
set_option linter.unusedVariables false
set_option linter.unusedSectionVars false
set_option linter.unusedSimpArgs false
namespace ENDFtk.Props
open ENDFtk

section
variable [Disco]

/-! ### section 7 -/

theorem verified_of_ok {check : LIST → Except Err Unit} {l : LIST} (h : check l = .ok ()) : verified check l = .ok l := by unfold verified; rw [h]
theorem verified_of_err {check : LIST → Except Err Unit} {l : LIST} {e : Err} (h : check l = .error e) : verified check l = .error e := by
  unfold verified; rw [h]

theorem rows_succ (n : Nat) (cols : List (List Dbl)) : rows (n + 1) cols = cols.map (·.getD 0 Disco.zero) ++ rows n (cols.map (·.drop 1)) := by
  unfold rows
  rw [List.range_succ_eq_map, List.flatMap_cons, List.flatMap_map]
  congr 1
  refine flatMap_congr' fun i _ => ?_
  rw [List.map_map]
  refine List.map_congr_left fun c _ => ?_
  simp [List.getD_eq_getElem?_getD, Nat.add_comm]

theorem C48_scatteringLawConstants {lln : Int} {ns : Nat} {eps emax : Dbl} {xs awr : List Dbl} {natoms types : List Int} {l : LIST}
    (h : ScatteringLawConstants.make lln ns eps emax xs awr natoms types = .ok l) :
    (IsInt32 lln → ScatteringLawConstants.sabStorageType l = lln) ∧ ScatteringLawConstants.numberNonPrincipalScatterers l = ns ∧ ns ≤ 3 ∧
    ScatteringLawConstants.epsilon l = .ok eps ∧ ScatteringLawConstants.upperEnergyLimit l = .ok emax ∧
    ScatteringLawConstants.totalFreeCrossSections l = .ok xs ∧ ScatteringLawConstants.atomicWeightRatios l = .ok awr ∧
    ScatteringLawConstants.numberAtoms l = .ok (ofInts natoms) ∧ ScatteringLawConstants.analyticalFunctionTypes l = .ok (ofInts types) ∧
    (l.Fits → constantsC.Valid l) := by
  unfold ScatteringLawConstants.make at h
  split at h
  · cases h
  split at h
  · cases h
  split at h
  · cases h
  split at h
  · cases h
  obtain ⟨rfl, hv⟩ := verified_ok h
  rename_i h1 h2 h3 h4
  have h1 := Decidable.not_not.mp h1
  have h2 := Decidable.not_not.mp h2
  have h3 := Decidable.not_not.mp h3
  have h4 := Decidable.not_not.mp h4
  have h5 : ns ≤ 3 := by
    have hv' := hv
    unfold constantsCheck at hv'
    simp only at hv'
    by_cases a : 3 < toInt32 (ns : Int)
    · rw [if_pos a] at hv'; cases hv'
    rw [if_neg a] at hv'
    split at hv'
    · cases hv'
    split at hv'
    · cases hv'
    split at hv'
    · cases hv'
    split at hv'
    · cases hv'
    · omega
  have hl : ∀ x ∈ [ofInts types, xs.drop 1, awr.drop 1, List.replicate ns Disco.zero, List.replicate ns Disco.zero, (ofInts natoms).drop 1], x.length = ns := by
    simp [ofInts_length]; omega
  have hl' : ∀ x ∈ [xs.getD 0 Disco.zero :: ofInts types, eps :: xs.drop 1, awr, emax :: List.replicate ns Disco.zero, Disco.zero :: List.replicate ns Disco.zero,
      ofInts natoms], x.length = ns + 1 := by
    simp [ofInts_length]; omega
  have e : [xs.getD 0 Disco.zero, eps, awr.getD 0 Disco.zero, emax, Disco.zero, (ofInts natoms).getD 0 Disco.zero] ++
      rows ns [ofInts types, xs.drop 1, awr.drop 1, List.replicate ns Disco.zero, List.replicate ns Disco.zero, (ofInts natoms).drop 1] =
      rows (ns + 1) [xs.getD 0 Disco.zero :: ofInts types, eps :: xs.drop 1, awr, emax :: List.replicate ns Disco.zero,
        Disco.zero :: List.replicate ns Disco.zero, ofInts natoms] := by
    rw [rows_succ]; rfl
  refine ⟨fun h => toInt32_of h, rfl, h5, rfl, rfl, ?_, ?_, ?_, column_rows (j := 0) rfl hl rfl rfl (.inr rfl), fun hf => ⟨hf, hv⟩⟩
  · unfold ScatteringLawConstants.totalFreeCrossSections
    match ns, xs, h5, h1 with
    | 0, [x0], _, _ => rfl
    | 1, [x0, x1], _, _ => rfl
    | 2, [x0, x1, x2], _, _ => rfl
    | 3, [x0, x1, x2, x3], _, _ => rfl
  · unfold ScatteringLawConstants.atomicWeightRatios
    rw [e]
    exact col_rows (j := 2) rfl hl' rfl rfl (.inl (by omega))
  · unfold ScatteringLawConstants.numberAtoms
    rw [e]
    exact col_rows (j := 5) rfl hl' rfl rfl (.inl (by omega))

theorem constantsCheck_eq {lln : Int} {ns : Nat} {d : List Dbl} (hi : IsInt32 lln) (hs : 6 * (ns : Int) + 6 < 2147483648) (hd : d.length = 6 + ns * 6) :
    constantsCheck ⟨Disco.zero, Disco.zero, lln, 0, ns, d⟩ = if 3 < ns then .error .exc else if lln ≠ 0 ∧ lln ≠ 1 then .error .exc else .ok () := by
  have e1 : toInt32 ((6 + ns * 6 : Nat) : Int) = ((6 + ns * 6 : Nat) : Int) := nat32 (by omega)
  have e2 : toInt32 (ns : Int) = (ns : Int) := nat32 (by omega)
  unfold constantsCheck LIST.npl
  simp only [hd, toInt32_of hi, e1, e2]
  by_cases h3 : 3 < ns
  · rw [if_pos (by omega), if_pos h3]
  · have ho : ¬ Over (6 * ((ns : Int) + 1)) := by simp only [Over]; omega
    rw [if_neg (by omega), if_neg ho, if_neg (by omega), if_neg h3]
    split
    · rfl
    · rw [if_neg (by omega)]

theorem C48_scatteringLawConstants_accepts {lln : Int} {ns : Nat} {eps emax : Dbl} {xs awr : List Dbl} {natoms types : List Int} (hi : IsInt32 lln)
    (hs : 6 * (ns : Int) + 6 < 2147483648) :
    let ok := (lln = 0 ∨ lln = 1) ∧ ns ≤ 3 ∧ xs.length = ns + 1 ∧ awr.length = ns + 1 ∧ natoms.length = ns + 1 ∧ types.length = ns
    (ok → ∃ l, ScatteringLawConstants.make lln ns eps emax xs awr natoms types = .ok l) ∧
    (¬ok → ScatteringLawConstants.make lln ns eps emax xs awr natoms types = .error .exc) := by
  intro ok
  unfold ScatteringLawConstants.make
  have hd : ([xs.getD 0 Disco.zero, eps, awr.getD 0 Disco.zero, emax, Disco.zero, (ofInts natoms).getD 0 Disco.zero] ++
      rows ns [ofInts types, xs.drop 1, awr.drop 1, List.replicate ns Disco.zero, List.replicate ns Disco.zero, (ofInts natoms).drop 1]).length = 6 + ns * 6 := by
    rw [List.length_append, rows_length]; rfl
  constructor
  · rintro ⟨h0, h1, h2, h3, h4, h5⟩
    rw [if_neg (by omega), if_neg (by omega), if_neg (by omega), if_neg (by omega)]
    refine ⟨_, verified_of_ok ?_⟩
    rw [constantsCheck_eq hi hs hd, if_neg (by omega), if_neg (by omega)]
  · intro h
    split
    · rfl
    split
    · rfl
    split
    · rfl
    split
    · rfl
    · refine verified_of_err ?_
      rw [constantsCheck_eq hi hs hd]
      by_cases h3 : 3 < ns
      · rw [if_pos h3]
      · rw [if_neg h3, if_pos]
        refine Decidable.byContradiction fun h' => h ⟨by omega, by omega, by omega, by omega, by omega, by omega⟩

theorem C48_elementInformation {atoms : Int} {ids states : List Int} {ab aw xs : List Dbl} {l : LIST}
    (h : ElementInformation.make atoms ids states ab aw xs = .ok l) (hn : ids ≠ []) :
    (IsInt32 atoms → ElementInformation.numberAtoms l = atoms) ∧ (Small l → ElementInformation.numberIsotopes l = ids.length) ∧
    ElementInformation.isotopeIdentifiers l = .ok (ofInts ids) ∧ ElementInformation.isomericStates l = .ok (ofInts states) ∧
    ElementInformation.abundances l = .ok ab ∧ ElementInformation.atomicWeightRatios l = .ok aw ∧
    ElementInformation.freeScatteringCrossSections l = .ok xs ∧ (l.Fits → elementC.Valid l) := by
  unfold ElementInformation.make at h
  simp only at h
  split at h
  · cases h
  obtain ⟨rfl, hv⟩ := verified_require h
  have hn' : ids.length ≠ 0 := by simpa using hn
  have hl : ∀ x ∈ [ofInts ids, ofInts states, ab, aw, xs, List.replicate ids.length Disco.zero], x.length = ids.length := by simp [ofInts_length]; omega
  refine ⟨fun h => toInt32_of h, fun hs => ?_, col_rows (j := 0) rfl hl rfl rfl (.inl hn'), col_rows (j := 1) rfl hl rfl rfl (.inl hn'),
    col_rows (j := 2) rfl hl rfl rfl (.inl hn'), col_rows (j := 3) rfl hl rfl rfl (.inl hn'), col_rows (j := 4) rfl hl rfl rfl (.inl hn'), fun hf => ⟨hf, hv⟩⟩
  unfold Small LIST.npl at hs
  simp only [rows_length, List.length_cons, List.length_nil] at hs
  exact nat32 (by omega)

theorem C48_elementInformation_accepts {atoms : Int} {ids states : List Int} {ab aw xs : List Dbl} (hs : 6 * (ids.length : Int) < 2147483648) :
    let ok := states.length = ids.length ∧ ∀ x ∈ [ab, aw, xs], x.length = ids.length
    (ok → ∃ l, ElementInformation.make atoms ids states ab aw xs = .ok l) ∧ (¬ok → ElementInformation.make atoms ids states ab aw xs = .error .exc) := by
  unfold ElementInformation.make
  simp only [List.forall_mem_cons, List.not_mem_nil, false_implies, implies_true, and_true]
  constructor
  · intro h
    rw [if_neg (by omega)]
    refine ⟨_, verified_pos ?_⟩
    unfold elementOk LIST.npl
    simp only [rows_length, List.length_cons, List.length_nil]
    rw [nat32 (by omega), nat32 (by omega)]
    omega
  · intro h
    rw [if_pos (by omega)]

theorem C48_elementInformation_columns {l : LIST} (h : elementC.Valid l) (hs : Small l) (hn : l.data ≠ []) {j : Nat} (hj : j < 6) :
    ∃ xs, ElementInformation.col j l = .ok xs ∧ IsColumn xs l.data j 6 (ElementInformation.numberIsotopes l).toNat := by
  have h1 : toInt32 l.npl = toInt32 l.n2 * 6 := h.2
  rw [small32 hs] at h1
  have : l.data.length ≠ 0 := by simpa using hn
  obtain ⟨xs, a, b⟩ := column_of (l := l.data) (p := 0) (j := j) (k := 6) (n := (ElementInformation.numberIsotopes l).toNat) (off := j) (k' := 6)
    (by unfold ElementInformation.numberIsotopes; omega) hj (.inl (by unfold ElementInformation.numberIsotopes; omega)) (by omega) rfl
  exact ⟨xs, a, by simpa using b⟩

/-! ### section 8 -/

theorem C48_fissionYields {ids states : List Int} {ys : List (Dbl × Dbl)} {e : Dbl} {int : Int} {l : LIST}
    (h : FissionYieldData.make ids states ys e int = .ok l) (hn : ids ≠ []) :
    FissionYieldData.incidentEnergy l = e ∧ (IsInt32 int → FissionYieldData.interpolationType l = int) ∧
    (Small l → FissionYieldData.numberFissionProducts l = ids.length) ∧
    FissionYieldData.fissionProductIdentifiers l = .ok (ofInts ids) ∧ FissionYieldData.isomericStates l = .ok (ofInts states) ∧
    FissionYieldData.fissionYields l = .ok (pairsOf ys) ∧ (l.Fits → yieldsC.Valid l) := by
  unfold FissionYieldData.make at h
  simp only at h
  split at h
  · cases h
  obtain ⟨rfl, hv⟩ := verified_require h
  rename_i hs0
  have hn' : ids.length ≠ 0 := by simpa using hn
  have hl : ∀ x ∈ [ofInts ids, ofInts states, ys.map (·.1), ys.map (·.2)], x.length = ids.length := by simp [ofInts_length]; omega
  refine ⟨rfl, fun h => toInt32_of h, fun hs => ?_, col_rows (j := 0) rfl hl rfl rfl (.inl hn'), col_rows (j := 1) rfl hl rfl rfl (.inl hn'), ?_,
    fun hf => ⟨hf, hv⟩⟩
  · unfold Small LIST.npl at hs
    simp only [rows_length, List.length_cons, List.length_nil] at hs
    exact nat32 (by omega)
  · -- the chunks of two after the first two values, every second of them
    unfold FissionYieldData.fissionYields
    simp only
    have hrl : (rows ids.length [ofInts ids, ofInts states, ys.map (·.1), ys.map (·.2)]).length = ids.length * 4 := rows_length _ _
    rw [dropE_ok (by decide) (by rw [hrl]; omega)]
    simp only [Except.bind]
    rw [chunkE_ok (by decide)]
    show strideE 2 (chunkL 2 _) = _
    rw [strideE_ok (by decide)]
    congr 1
    apply List.ext_getElem?
    intro i
    rw [strideL_getElem? (by decide), chunkL_getElem? (by decide)]
    have e2 : (2 : Int).toNat = 2 := rfl
    rw [e2]
    have hys : ys.length = ids.length := by omega
    by_cases hi : i < ids.length
    · rw [if_pos (by rw [List.length_drop, hrl]; omega)]
      unfold pairsOf
      rw [List.getElem?_map, List.getElem?_eq_getElem (by omega)]
      simp only [Option.map_some, Option.some.injEq]
      apply List.ext_getElem?
      intro j
      by_cases hj : j < 2
      · rw [List.getElem?_take_of_lt hj, List.getElem?_drop, List.getElem?_drop]
        have e3 : 2 + (i * 2 * 2 + j) = i * [ofInts ids, ofInts states, ys.map (·.1), ys.map (·.2)].length + (j + 2) := by
          simp only [List.length_cons, List.length_nil]; omega
        rw [e3, rows_getElem? (by simp only [List.length_cons, List.length_nil]; omega), if_pos hi]
        match j, hj with
        | 0, _ => simp [hys, hi]
        | 1, _ => simp [hys, hi]
      · rw [List.getElem?_eq_none (by rw [List.length_take]; omega), List.getElem?_eq_none (by simp only [List.length_cons, List.length_nil]; omega)]
    · rw [if_neg (by rw [List.length_drop, hrl]; omega), List.getElem?_eq_none (by simp [pairsOf]; omega)]

theorem C48_fissionYields_accepts {ids states : List Int} {ys : List (Dbl × Dbl)} {e : Dbl} {int : Int} (hs : 4 * (ids.length : Int) < 2147483648) :
    let ok := states.length = ids.length ∧ ys.length = ids.length
    (ok → ∃ l, FissionYieldData.make ids states ys e int = .ok l) ∧ (¬ok → FissionYieldData.make ids states ys e int = .error .exc) := by
  unfold FissionYieldData.make
  simp only
  constructor
  · intro h
    rw [if_neg (by omega)]
    refine ⟨_, verified_pos ?_⟩
    unfold yieldsOk LIST.npl
    simp only [rows_length, List.length_cons, List.length_nil]
    rw [nat32 (by omega), nat32 (by omega)]
    omega
  · intro h
    rw [if_pos (by omega)]

theorem C48_fissionYields_columns {l : LIST} (h : yieldsC.Valid l) (hs : Small l) (hn : l.data ≠ []) {j : Nat} (hj : j < 4) :
    ∃ xs, FissionYieldData.col j l = .ok xs ∧ IsColumn xs l.data j 4 (FissionYieldData.numberFissionProducts l).toNat := by
  have h1 : toInt32 l.npl = toInt32 l.n2 * 4 := h.2
  rw [small32 hs] at h1
  have : l.data.length ≠ 0 := by simpa using hn
  obtain ⟨xs, a, b⟩ := column_of (l := l.data) (p := 0) (j := j) (k := 4) (n := (FissionYieldData.numberFissionProducts l).toNat) (off := j) (k' := 4)
    (by unfold FissionYieldData.numberFissionProducts; omega) hj (.inl (by unfold FissionYieldData.numberFissionProducts; omega)) (by omega) rfl
  exact ⟨xs, a, by simpa using b⟩

/-- Fission yields without fission products are accepted; `isomericStates` and `fissionYields` are then undefined. -/
theorem C48_fissionYields_empty (e : Dbl) (int : Int) :
    ∃ l, FissionYieldData.make [] [] [] e int = .ok l ∧ FissionYieldData.isomericStates l = .error .ub ∧ FissionYieldData.fissionYields l = .error .ub := by
  refine ⟨⟨e, Disco.zero, int, 0, 0, []⟩, ?_, rfl, rfl⟩
  obtain ⟨l, h⟩ := (C48_fissionYields_accepts (ids := []) (states := []) (ys := []) (e := e) (int := int) (by decide)).1 ⟨rfl, rfl⟩
  have := h
  unfold FissionYieldData.make at this
  simp at this
  obtain ⟨rfl, _⟩ := verified_ok this
  rw [h]; rfl

/-- Half life and average decay energies. -/
theorem C48_averageDecayEnergies {hl : Dbl × Dbl} {es : List (Dbl × Dbl)} {l : LIST} (h : AverageDecayEnergies.make hl es = .ok l) :
    AverageDecayEnergies.halfLife l = hl ∧ AverageDecayEnergies.decayEnergies l = .ok (pairsOf es) ∧
    (∀ p, es[0]? = some p → AverageDecayEnergies.lightParticle l = .ok [p.1, p.2]) ∧
    (∀ p, es[1]? = some p → AverageDecayEnergies.electromagnetic l = .ok [p.1, p.2]) ∧
    (∀ p, es[2]? = some p → AverageDecayEnergies.heavyParticle l = .ok [p.1, p.2]) ∧ (l.Fits → decayEnergiesC.Valid l) := by
  unfold AverageDecayEnergies.make at h
  obtain ⟨rfl, hv⟩ := verified_require h
  have e : AverageDecayEnergies.decayEnergies ⟨hl.1, hl.2, 0, 0, 0, es.flatMap fun p => [p.1, p.2]⟩ = .ok (pairsOf es) := by
    unfold AverageDecayEnergies.decayEnergies
    rw [chunkE_ok (by decide)]
    show Except.ok (chunkL 2 _) = _
    rw [chunkL_flatMap (k := 2) (by decide) (fun _ _ => rfl)]; rfl
  have at' : ∀ (i : Nat) p, es[i]? = some p → atE (pairsOf es) i = .ok [p.1, p.2] := fun i p hp => by
    unfold atE pairsOf; rw [List.getElem?_map, hp]; rfl
  refine ⟨rfl, e, fun p hp => ?_, fun p hp => ?_, fun p hp => ?_, fun hf => ⟨hf, hv⟩⟩
  · unfold AverageDecayEnergies.lightParticle; rw [e]; exact at' 0 p hp
  · unfold AverageDecayEnergies.electromagnetic; rw [e]; exact at' 1 p hp
  · unfold AverageDecayEnergies.heavyParticle; rw [e]; exact at' 2 p hp

/-- Three or seventeen energies are required. -/
theorem C48_averageDecayEnergies_accepts {hl : Dbl × Dbl} {es : List (Dbl × Dbl)} (hs : 2 * (es.length : Int) < 2147483648) :
    (es.length = 3 ∨ es.length = 17 → ∃ l, AverageDecayEnergies.make hl es = .ok l ∧ AverageDecayEnergies.numberDecayEnergies l = es.length) ∧
    (¬(es.length = 3 ∨ es.length = 17) → AverageDecayEnergies.make hl es = .error .exc) := by
  have hlen : (es.flatMap fun p => [p.1, p.2]).length = es.length * 2 := flatMap_length (by simp)
  have e : ∀ c1 c2, toInt32 (((⟨c1, c2, 0, 0, 0, es.flatMap fun p => [p.1, p.2]⟩ : LIST).npl : Int) / 2) = es.length := fun c1 c2 => by
    unfold LIST.npl
    simp only [hlen]
    rw [toInt32_of ⟨by omega, by omega⟩]; omega
  unfold AverageDecayEnergies.make
  constructor
  · intro h
    refine ⟨_, verified_pos ?_, e _ _⟩
    unfold decayEnergiesOk
    rw [e]; omega
  · intro h
    apply verified_neg
    unfold decayEnergiesOk
    rw [e]; omega

theorem modes_of (c1 c2 : Dbl) (l1 l2 n2 : Int) (ms : List DecayModes.Mode) : DecayModes.decayModes ⟨c1, c2, l1, l2, n2,
    ms.flatMap fun m => [m.decayChain, m.finalIsomericState, m.qValue.1, m.qValue.2, m.branchingRatio.1, m.branchingRatio.2]⟩ = .ok ms := by
  unfold DecayModes.decayModes
  rw [chunkE_ok (by decide)]
  show mapE _ (chunkL 6 _) = _
  rw [chunkL_flatMap (k := 6) (by decide) (fun _ _ => rfl)]
  induction ms with
  | nil => rfl
  | cons m l ih => simp only [List.map_cons, mapE] at ih ⊢; rw [ih]

theorem C48_decayModes {spin parity : Dbl} {ms : List DecayModes.Mode} {l : LIST} (h : DecayModes.make spin parity ms = .ok l) :
    DecayModes.spin l = spin ∧ DecayModes.parity l = parity ∧ (Small l → DecayModes.numberDecayModes l = ms.length) ∧ DecayModes.decayModes l = .ok ms ∧
    (l.Fits → decayModesC.Valid l) := by
  unfold DecayModes.make at h
  obtain ⟨rfl, hv⟩ := verified_require h
  refine ⟨rfl, rfl, fun hs => ?_, ?_, fun hf => ⟨hf, hv⟩⟩
  · unfold Small LIST.npl at hs
    simp only at hs
    rw [flatMap_length (k := 6) (fun _ _ => rfl)] at hs
    exact nat32 (by omega)
  · exact modes_of _ _ _ _ _ ms

/-- The decay modes of a radioactive nuclide are accepted; without modes the other constructor is needed. -/
theorem C48_decayModes_accepts {spin parity : Dbl} {ms : List DecayModes.Mode} (hs : 6 * (ms.length : Int) < 2147483648) :
    (ms ≠ [] → ∃ l, DecayModes.make spin parity ms = .ok l) ∧ (ms = [] → DecayModes.make spin parity ms = .error .exc) := by
  have hlen : (ms.flatMap fun m => [m.decayChain, m.finalIsomericState, m.qValue.1, m.qValue.2, m.branchingRatio.1, m.branchingRatio.2]).length = ms.length * 6 :=
    flatMap_length (fun _ _ => rfl)
  have key : decayModesOk ⟨spin, parity, 0, 0, ms.length, ms.flatMap fun m => [m.decayChain, m.finalIsomericState, m.qValue.1, m.qValue.2, m.branchingRatio.1, m.branchingRatio.2]⟩ ↔
      ms.length ≠ 0 := by
    unfold decayModesOk LIST.npl
    simp only [hlen]
    rw [nat32 (by omega), nat32 (by omega)]
    split <;> omega
  unfold DecayModes.make
  constructor
  · intro h; exact ⟨_, verified_pos (key.mpr (by simpa using h))⟩
  · intro h; exact verified_neg fun h' => key.mp h' (by simp [h])

/-- A stable nuclide has no decay modes, but `decayModes()` returns one (of zeros). -/
theorem C48_decayModes_stable (spin parity : Dbl) :
    ∃ l, DecayModes.makeStable spin parity = .ok l ∧ DecayModes.spin l = spin ∧ DecayModes.parity l = parity ∧ DecayModes.numberDecayModes l = 0 ∧
      DecayModes.decayModes l = .ok [⟨Disco.zero, Disco.zero, (Disco.zero, Disco.zero), (Disco.zero, Disco.zero)⟩] ∧ (l.Fits → decayModesC.Valid l) := by
  have hv : decayModesOk ⟨spin, parity, 0, 0, 0, List.replicate 6 Disco.zero⟩ := by
    unfold decayModesOk LIST.npl
    rw [if_pos (toInt32_of (n := 0) ⟨by decide, by decide⟩)]
    exact toInt32_of (n := 6) ⟨by decide, by decide⟩
  exact ⟨_, verified_pos hv, rfl, rfl, toInt32_of (n := 0) ⟨by decide, by decide⟩,
    modes_of spin parity 0 0 0 [⟨Disco.zero, Disco.zero, (Disco.zero, Disco.zero), (Disco.zero, Disco.zero)⟩], fun hf => ⟨hf, hv⟩⟩

end

end ENDFtk.Props

import Verif.Props.Getters9
/-
  C59: the getters of the components that keep their data in a LIST record read the values that the ENDF-6 format has at these places.

  Specification: the fields of the record are C1, C2, L1, L2, N1 = NPL, N2 and the values of the list (`l.c1` ... `l.data`).
  `Columns data k n j gs`: the entries of the list have `k` values, there are `n` of them, and the getters `gs` return the values `j`, `j + 1`, ... of all entries
  (`j` counts from the beginning of the list).
-/
set_option linter.unusedVariables false
set_option linter.unusedSectionVars false
set_option linter.unusedSimpArgs false
namespace ENDFtk.Props
open ENDFtk
variable [Disco]

def Columns (data : List Dbl) (k n : Nat) : Nat → List (Except Err (List Dbl)) → Prop
  | _, [] => True
  | j, g :: gs => (∃ xs, g = .ok xs ∧ IsColumn xs data j k n) ∧ Columns data k n (j + 1) gs

/-- The same for a getter that converts the values to integers. -/
def IntColumn (data : List Dbl) (k n : Nat) (j : Nat) (g : Except Err (List Int)) : Prop :=
  ∃ xs, g = .ok (xs.map Disco.trunc) ∧ IsColumn xs data j k n

/-- The getter returns `n` arrays of `w` values: those from `off`, `off + k`, `off + 2 k`, ... on. -/
def Blocks (data : List Dbl) (off k w n : Nat) (g : Except Err (List (List Dbl))) : Prop :=
  ∃ xss, g = .ok xss ∧ xss.length = n ∧ ∀ i < n, xss[i]? = some ((data.drop (off + k * i)).take w) ∧ off + k * i + w ≤ data.length

/-- The getter returns value `j` of the list. -/
def Value (data : List Dbl) (j : Nat) (g : Except Err Dbl) : Prop := ∃ x, g = .ok x ∧ data[j]? = some x

/-- The getter returns value `j` of the list as an integer. -/
def IntValue (data : List Dbl) (j : Nat) (g : Except Err Int) : Prop := ∃ x, g = .ok (Disco.trunc x) ∧ data[j]? = some x

theorem value_of {data : List Dbl} {j : Nat} (h : j < data.length) : Value data j (atE data j) :=
  ⟨data[j], by unfold atE; rw [List.getElem?_eq_getElem h], List.getElem?_eq_getElem h⟩

theorem intValue_of {data : List Dbl} {j : Nat} (h : j < data.length) : IntValue data j ((atE data j).map Disco.trunc) :=
  ⟨data[j], by unfold atE; rw [List.getElem?_eq_getElem h]; rfl, List.getElem?_eq_getElem h⟩

theorem intColumn_of {data : List Dbl} {k n j : Nat} {g : Except Err (List Dbl)} (h : ∃ xs, g = .ok xs ∧ IsColumn xs data j k n) :
    IntColumn data k n j (g.map (·.map Disco.trunc)) := by
  obtain ⟨xs, rfl, h⟩ := h
  exact ⟨xs, rfl, h⟩

/-- a part of each chunk -/
theorem blocks_of {data : List Dbl} {p k n d w : Nat} (hk : 0 < k) (hl : data.length = p + k * n) (hw : d + w ≤ k) {k' p' : Int} (hk' : k' = k) (hp' : p' = p)
    {f : List Dbl → Except Err (List Dbl)} (hf : ∀ c : List Dbl, c.length = k → f c = .ok ((c.drop d).take w)) :
    Blocks data (p + d) k w n ((dropE p' data).bind fun x => (chunkE k' x).bind (mapE f)) := by
  subst hk' hp'
  refine ⟨(chunkL k (data.drop p)).map (fun c => (c.drop d).take w), ?_, ?_, ?_⟩
  · rw [dropE_ok (by omega) (by omega)]
    simp only [Except.bind]
    rw [chunkE_ok (by omega)]
    refine mapE_ok fun c hc => hf c ?_
    obtain ⟨i, hi⟩ := List.mem_iff_getElem?.mp hc
    rw [Int.toNat_natCast, Int.toNat_natCast, chunkL_getElem? hk] at hi
    split at hi
    · cases hi
      rename_i hlt
      simp only [List.length_drop, hl] at hlt
      have hi : i < n := by
        by_cases h : i < n
        · exact h
        · have : n * k ≤ i * k := Nat.mul_le_mul_right _ (by omega)
          have : k * n = n * k := Nat.mul_comm _ _
          omega
      have : (i + 1) * k ≤ n * k := Nat.mul_le_mul_right _ (by omega)
      have e : (i + 1) * k = i * k + k := Nat.succ_mul _ _
      have e2 : k * n = n * k := Nat.mul_comm _ _
      simp only [List.length_take, List.length_drop, hl]; omega
    · cases hi
  · rw [List.length_map, chunkL_length, List.length_drop, hl]
    have : p + k * n - p + k - 1 = k * n + (k - 1) := by omega
    rw [this, Nat.mul_add_div hk, Nat.div_eq_of_lt (by omega)]; rfl
  · intro i hi
    have h1 : (i + 1) * k ≤ n * k := Nat.mul_le_mul_right _ (by omega)
    have e : (i + 1) * k = i * k + k := Nat.succ_mul _ _
    have e2 : k * n = n * k := Nat.mul_comm _ _
    have e3 : k * i = i * k := Nat.mul_comm _ _
    refine ⟨?_, by omega⟩
    rw [List.getElem?_map, chunkL_getElem? hk, if_pos (by simp only [List.length_drop, hl]; omega)]
    simp only [Option.map_some, Option.some.injEq]
    rw [List.drop_take, List.take_take, List.drop_drop, List.drop_drop]
    congr 1
    · omega
    · congr 1; omega

/-! ### 2/151 -/

section
variable {l : LIST}

/-- ER, AJ, GT, GN, GG, GF. -/
theorem C59_breitWigner (h : lvalueC.Valid l) (hs : Small l) :
    Columns l.data 6 (toInt32 l.n2).toNat 0 [ResolvedLValue.resonanceEnergies l, ResolvedLValue.spinValues l, BreitWignerLValue.totalWidths l,
      BreitWignerLValue.neutronWidths l, BreitWignerLValue.gammaWidths l, BreitWignerLValue.fissionWidths l] ∧
    ResolvedLValue.atomicWeightRatio l = l.c1 ∧ BreitWignerLValue.competitiveQValue l = l.c2 ∧ ResolvedLValue.orbitalMomentum l = toInt32 l.l1 ∧
    (BreitWignerLValue.competitiveWidthFlag l = true ↔ l.l2 ≠ 0) ∧ ResolvedLValue.numberResonances l = toInt32 l.n2 := by
  have c := fun (j : Nat) (hj : j < 6) => C48_resonances_columns h hs hj
  exact ⟨⟨c 0 (by decide), c 1 (by decide), c 2 (by decide), c 3 (by decide), c 4 (by decide), c 5 (by decide), trivial⟩, rfl, rfl, rfl,
    by simp [BreitWignerLValue.competitiveWidthFlag], rfl⟩

/-- ER, AJ, GN, GG, GFA, GFB. -/
theorem C59_reichMoore (h : lvalueC.Valid l) (hs : Small l) :
    Columns l.data 6 (toInt32 l.n2).toNat 0 [ResolvedLValue.resonanceEnergies l, ResolvedLValue.spinValues l, ReichMooreLValue.neutronWidths l,
      ReichMooreLValue.gammaWidths l, ReichMooreLValue.firstFissionWidths l, ReichMooreLValue.secondFissionWidths l] ∧
    ResolvedLValue.atomicWeightRatio l = l.c1 ∧ ReichMooreLValue.lDependentScatteringRadius l = l.c2 ∧ ResolvedLValue.orbitalMomentum l = toInt32 l.l1 ∧
    ResolvedLValue.numberResonances l = toInt32 l.n2 := by
  have c := fun (j : Nat) (hj : j < 6) => C48_resonances_columns h hs hj
  exact ⟨⟨c 0 (by decide), c 1 (by decide), c 2 (by decide), c 3 (by decide), c 4 (by decide), c 5 (by decide), trivial⟩, rfl, rfl, rfl, rfl⟩

/-- D, AJ, AMUN, GN0, GG, 0. -/
theorem C59_unresolvedA (h : (listC.checked lvalueAOk).Valid l) (hs : Small l) :
    Columns l.data 6 (toInt32 l.n2).toNat 0 [UnresolvedALValue.averageLevelSpacings l, UnresolvedALValue.spinValues l] ∧
    IntColumn l.data 6 (toInt32 l.n2).toNat 2 (UnresolvedALValue.neutronWidthDegreesFreedom l) ∧
    Columns l.data 6 (toInt32 l.n2).toNat 3 [UnresolvedALValue.averageNeutronWidths l, UnresolvedALValue.averageGammaWidths l] ∧
    UnresolvedALValue.atomicWeightRatio l = l.c1 ∧ UnresolvedALValue.orbitalMomentum l = toInt32 l.l1 ∧ UnresolvedALValue.numberSpinValues l = toInt32 l.n2 := by
  have c := fun (j : Nat) (hj : j < 6) => C48_unresolvedA_columns h hs hj
  exact ⟨⟨c 0 (by decide), c 1 (by decide), trivial⟩, intColumn_of (c 2 (by decide)), ⟨c 3 (by decide), c 4 (by decide), trivial⟩, rfl, rfl, rfl⟩

/-- After 0, 0, AMUX, AMUN, AMUG, AMUF: ES, D, GX, GN0, GG, GF. -/
theorem C59_unresolvedC (h : jvalueC.Valid l) (hs : Small l) : ∃ n ≠ 0, l.data.length = 6 + 6 * n ∧
    Columns l.data 6 n 6 [UnresolvedCJValue.energies l, UnresolvedCJValue.averageLevelSpacings l, UnresolvedCJValue.averageCompetitiveWidths l,
      UnresolvedCJValue.averageNeutronWidths l, UnresolvedCJValue.averageGammaWidths l, UnresolvedCJValue.averageFissionWidths l] ∧
    IntValue l.data 2 (UnresolvedCJValue.competitiveWidthDegreesFreedom l) ∧ IntValue l.data 3 (UnresolvedCJValue.neutronWidthDegreesFreedom l) ∧
    IntValue l.data 4 (UnresolvedCJValue.gammaWidthDegreesFreedom l) ∧ IntValue l.data 5 (UnresolvedCJValue.fissionWidthDegreesFreedom l) ∧
    UnresolvedCJValue.spin l = l.c1 ∧ UnresolvedCJValue.interpolation l = toInt32 l.l1 := by
  obtain ⟨xs, n, a, hlen, hn, b⟩ := C48_unresolvedC_columns h hs (j := 0) (by decide)
  have c : ∀ j < 6, ∃ xs, UnresolvedCJValue.col j l = .ok xs ∧ IsColumn xs l.data (6 + j) 6 n := fun j hj => by
    obtain ⟨ys, m, a', hlen', _, b'⟩ := C48_unresolvedC_columns h hs hj
    obtain rfl : m = n := by omega
    exact ⟨ys, a', b'⟩
  exact ⟨n, hn, hlen, ⟨c 0 (by decide), c 1 (by decide), c 2 (by decide), c 3 (by decide), c 4 (by decide), c 5 (by decide), trivial⟩,
    intValue_of (by omega), intValue_of (by omega), intValue_of (by omega), intValue_of (by omega), rfl, rfl⟩

/-- D, AJ, AMUN, GN0, GG, 0, and then the fission widths. -/
theorem C59_unresolvedB (h : jvalueBC.Valid l) : 6 ≤ l.data.length ∧ Value l.data 0 (UnresolvedBJValue.averageLevelSpacing l) ∧
    Value l.data 1 (UnresolvedBJValue.spin l) ∧ IntValue l.data 2 (UnresolvedBJValue.neutronWidthDegreesFreedom l) ∧
    Value l.data 3 (UnresolvedBJValue.averageNeutronWidth l) ∧ Value l.data 4 (UnresolvedBJValue.averageGammaWidth l) ∧
    UnresolvedBJValue.averageFissionWidths l = .ok (l.data.drop 6) ∧
    UnresolvedBJValue.orbitalMomentum l = toInt32 l.l1 ∧ UnresolvedBJValue.fissionWidthDegreesFreedom l = toInt32 l.l2 := by
  have hv : jvalueBCheck l = .ok () := h.2
  unfold jvalueBCheck at hv
  split at hv
  · cases hv
  rename_i h6
  exact ⟨by omega, value_of (by omega), value_of (by omega), intValue_of (by omega), value_of (by omega), value_of (by omega),
    dropE_ok (by omega) (by omega), rfl, rfl⟩

/-- MA, MB, ZA, ZB, IA, IB, Q, PNT, SHF, MT, PA, PB. -/
theorem C59_particlePairs (h : particlePairsC.Valid l) (hs : Small l) :
    Columns l.data 12 (toInt32 l.l1).toNat 0 [ParticlePairs.massParticleA l, ParticlePairs.massParticleB l, ParticlePairs.chargeParticleA l,
      ParticlePairs.chargeParticleB l, ParticlePairs.spinParticleA l, ParticlePairs.spinParticleB l, ParticlePairs.qValues l] ∧
    IntColumn l.data 12 (toInt32 l.l1).toNat 7 (ParticlePairs.penetrabilityFlag l) ∧ IntColumn l.data 12 (toInt32 l.l1).toNat 8 (ParticlePairs.shiftFactorFlag l) ∧
    IntColumn l.data 12 (toInt32 l.l1).toNat 9 (ParticlePairs.reactionNumbers l) ∧
    Columns l.data 12 (toInt32 l.l1).toNat 10 [ParticlePairs.parityParticleA l, ParticlePairs.parityParticleB l] ∧
    ParticlePairs.numberParticlePairs l = toInt32 l.l1 := by
  have c : ∀ j < 12, ∃ xs, ParticlePairs.col j l = .ok xs ∧ IsColumn xs l.data j 12 (toInt32 l.l1).toNat := fun j hj => by
    obtain ⟨xs, a, b, e⟩ := C48_particlePairs_columns h hs hj
    exact ⟨xs, a, by rw [← e]; exact b⟩
  obtain ⟨_, _, _, e⟩ := C48_particlePairs_columns h hs (j := 0) (by decide)
  exact ⟨⟨c 0 (by decide), c 1 (by decide), c 2 (by decide), c 3 (by decide), c 4 (by decide), c 5 (by decide), c 6 (by decide), trivial⟩,
    intColumn_of (c 7 (by decide)), intColumn_of (c 8 (by decide)), intColumn_of (c 9 (by decide)), ⟨c 10 (by decide), c 11 (by decide), trivial⟩, e⟩

/-- PPI, L, SCH, BND, APE, APT. -/
theorem C59_resonanceChannels (h : channelsC.Valid l) (hs : Small l) :
    IntColumn l.data 6 (toInt32 l.n2).toNat 0 (ResonanceChannels.particlePairNumbers l) ∧
    IntColumn l.data 6 (toInt32 l.n2).toNat 1 (ResonanceChannels.orbitalMomentumValues l) ∧
    Columns l.data 6 (toInt32 l.n2).toNat 2 [ResonanceChannels.channelSpinValues l, ResonanceChannels.boundaryConditionValues l,
      ResonanceChannels.effectiveChannelRadii l, ResonanceChannels.trueChannelRadii l] ∧
    ResonanceChannels.spin l = l.c1 ∧ ResonanceChannels.parity l = l.c2 ∧ ResonanceChannels.numberBackgroundChannels l = l.l1 ∧
    ResonanceChannels.phaseShiftOption l = l.l2 ∧ ResonanceChannels.numberChannels l = toInt32 l.n2 := by
  have c : ∀ j < 6, ∃ xs, ResonanceChannels.col j l = .ok xs ∧ IsColumn xs l.data j 6 (toInt32 l.n2).toNat := fun j hj => by
    obtain ⟨xs, a, b, e⟩ := C48_resonanceChannels_columns h hs hj
    exact ⟨xs, a, by rw [← e]; exact b⟩
  obtain ⟨_, _, _, e⟩ := C48_resonanceChannels_columns h hs (j := 0) (by decide)
  have hv : channelsOk l := h.2
  have e0 : l.data.length = 6 * (toInt32 l.n2).toNat := by
    obtain ⟨h1, h2, h3⟩ := hv
    rw [small32 hs] at h3; omega
  exact ⟨intColumn_of (strideE_of e0 (by decide) rfl), intColumn_of (c 1 (by decide)),
    ⟨c 2 (by decide), c 3 (by decide), c 4 (by decide), c 5 (by decide), trivial⟩, rfl, rfl, rfl, rfl, e⟩

/-- The parameters of a resonance take a whole number of lines, the same for all resonances: first the energy, then the parameters
    (with what fills the last line). -/
theorem C59_resonanceParameters {w n : Nat} (hn : n ≠ 0) (hl : l.data.length = 6 * w * n) (hw : w ≠ 0) (hl2 : l.l2 = n) :
    Columns l.data (6 * w) n 0 [ResonanceParameters.resonanceEnergies l] ∧ Blocks l.data 1 (6 * w) (6 * w - 1) n (ResonanceParameters.resonanceParameters l) ∧
    ResonanceParameters.numberResonances l = n ∧ ResonanceParameters.numberLines l = w * n := by
  have ew : ResonanceParameters.width l = .ok ((6 * w : Nat) : Int) := by
    unfold ResonanceParameters.width LIST.npl
    rw [if_neg (by omega), hl, hl2]
    congr 1
    have : ((6 * w * n : Nat) : Int).tdiv 6 = ((w * n : Nat) : Int) := by
      rw [Int.tdiv_eq_ediv_of_nonneg (by omega), Nat.mul_assoc]; omega
    rw [this]
    have : ((w * n : Nat) : Int).tdiv (n : Int) = w := by
      rw [Int.tdiv_eq_ediv_of_nonneg (by omega), Int.natCast_mul]
      exact Int.mul_ediv_cancel _ (by omega)
    rw [this]; omega
  have hlines : ResonanceParameters.numberLines l = w * n := by
    unfold ResonanceParameters.numberLines LIST.npl
    rw [hl, Int.tdiv_eq_ediv_of_nonneg (by omega), Nat.mul_assoc]
    have : ((6 * (w * n) : Nat) : Int) / 6 = ((w * n : Nat) : Int) := by omega
    rw [this]; push_cast; rfl
  refine ⟨⟨?_, trivial⟩, ?_, hl2, hlines⟩
  · unfold ResonanceParameters.resonanceEnergies
    rw [ew]
    exact strideE_of hl (by omega) rfl
  · have := blocks_of (data := l.data) (p := 0) (k := 6 * w) (n := n) (d := 1) (w := 6 * w - 1) (k' := ((6 * w : Nat) : Int)) (p' := 0) (f := dropE 1)
      (by omega) (by omega) (by omega) rfl rfl (fun c hc => by
        rw [dropE_ok (by omega) (by omega), List.take_of_length_le (by simp; omega)]; rfl)
    unfold ResonanceParameters.resonanceParameters
    rw [ew]
    rw [dropE_ok (by omega) (by omega)] at this
    simpa [Except.bind] using this

/-! ### 2/152 -/

theorem reaction_blocks {p q s k n : Nat} (hl : l.data.length = s + (1 + s * q) * n) (hq : p < q) (hs : s ≠ 0) (h1 : toUInt32 l.l1 = q)
    (h2 : toUInt32 l.l2 = s) : Blocks l.data (s + (1 + s * p)) (1 + s * q) s n (DilutionTables.reaction p l) := by
  have hsq : s * (p + 1) ≤ s * q := Nat.mul_le_mul_left _ hq
  have e : s * (p + 1) = s * p + s := Nat.mul_succ _ _
  unfold DilutionTables.reaction
  simp only [h1, h2]
  refine blocks_of (d := 1 + s * p) (w := s) (by omega) hl (by omega) (by push_cast; rfl) rfl fun c hc => ?_
  rw [dropE_ok (by omega) (by omega)]
  simp only [Except.bind]
  rw [chunkE_ok (by omega)]
  simp only [Int.toNat_natCast]
  unfold atE
  rw [chunkL_getElem? (by omega), if_pos (by simp [Nat.mul_comm p s]; omega)]
  simp only [List.drop_drop]
  congr 2
  rw [Nat.mul_comm p s]
  simp

/-- The background cross sections, and then for each energy: the energy, and for each of the five reactions (total, elastic, fission, capture,
    current weighted total) as many values as there are background cross sections. -/
theorem C59_dilutionTables {s n : Nat} (h : dilutionC.Valid l) (hsm : Small l) (h1 : toInt32 l.l1 = 5) (h2 : toInt32 l.l2 = s) (h3 : toInt32 l.n2 = n) (hs : s ≠ 0) :
    DilutionTables.dilutions l = .ok (l.data.take s) ∧ s ≤ l.data.length ∧
    Columns l.data (1 + s * 5) n s [DilutionTables.energies l] ∧
    Blocks l.data (s + (1 + s * 0)) (1 + s * 5) s n (DilutionTables.total l) ∧ Blocks l.data (s + (1 + s * 1)) (1 + s * 5) s n (DilutionTables.elastic l) ∧
    Blocks l.data (s + (1 + s * 2)) (1 + s * 5) s n (DilutionTables.fission l) ∧ Blocks l.data (s + (1 + s * 3)) (1 + s * 5) s n (DilutionTables.capture l) ∧
    Blocks l.data (s + (1 + s * 4)) (1 + s * 5) s n (DilutionTables.currentWeightedTotal l) ∧
    DilutionTables.temperature l = l.c1 ∧ DilutionTables.numberReactions l = 5 ∧ DilutionTables.numberDilutions l = s ∧ DilutionTables.numberEnergies l = n := by
  have hv : dilutionSizeOk l := h.2
  unfold dilutionSizeOk at hv
  rw [small32 hsm, h1, h2, h3] at hv
  have hv := hv.2
  have hl : l.data.length = s + (1 + s * 5) * n := by
    have : ((l.data.length : Nat) : Int) = ((s + (1 + s * 5) * n : Nat) : Int) := by
      rw [hv]; push_cast
      have : (1 + (s : Int) * 5) = 5 * s + 1 := by omega
      rw [this]; omega
    exact_mod_cast this
  have u1 : toUInt32 l.l1 = (5 : Nat) := by unfold toInt32 at h1; unfold toUInt32; omega
  have u2 : toUInt32 l.l2 = s := by unfold toInt32 at h2; unfold toUInt32; omega
  refine ⟨?_, by omega, ⟨?_, trivial⟩, reaction_blocks (k := 0) hl (by decide) hs u1 u2, reaction_blocks (k := 0) hl (by decide) hs u1 u2,
    reaction_blocks (k := 0) hl (by decide) hs u1 u2, reaction_blocks (k := 0) hl (by decide) hs u1 u2, reaction_blocks (k := 0) hl (by decide) hs u1 u2,
    rfl, h1, h2, h3⟩
  · unfold DilutionTables.dilutions
    rw [h2, takeE_ok (by omega) (by omega), Int.toNat_natCast]
  · unfold DilutionTables.energies
    rw [h2]
    exact column_of (p := s) (j := 0) (k := 1 + s * 5) (n := n) hl (by omega) (.inr rfl) rfl (by push_cast; rfl)

end

end ENDFtk.Props

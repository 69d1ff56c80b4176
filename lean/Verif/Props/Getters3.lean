import Verif.Props.Getters2
/-
  C48, continued: R-matrix limited parameters and section 2/152.
-/
set_option linter.unusedVariables false
set_option linter.unusedSectionVars false
set_option linter.unusedSimpArgs false
namespace ENDFtk.Props
open ENDFtk

section
variable [Disco]

/-! ### particle pairs -/

theorem C48_particlePairs {ma mb za zb ia ib pa pb q : List Dbl} {pnt shf mt : List Int} {l : LIST}
    (h : ParticlePairs.make ma mb za zb ia ib pa pb q pnt shf mt = .ok l) :
    (Small l → ParticlePairs.numberParticlePairs l = ma.length) ∧
    ParticlePairs.massParticleA l = .ok ma ∧ ParticlePairs.massParticleB l = .ok mb ∧ ParticlePairs.chargeParticleA l = .ok za ∧
    ParticlePairs.chargeParticleB l = .ok zb ∧ ParticlePairs.spinParticleA l = .ok ia ∧ ParticlePairs.spinParticleB l = .ok ib ∧
    ParticlePairs.parityParticleA l = .ok pa ∧ ParticlePairs.parityParticleB l = .ok pb ∧ ParticlePairs.qValues l = .ok q ∧
    (IntRange pnt → ParticlePairs.penetrabilityFlag l = .ok pnt) ∧ (IntRange shf → ParticlePairs.shiftFactorFlag l = .ok shf) ∧
    (IntRange mt → ParticlePairs.reactionNumbers l = .ok mt) ∧ (l.Fits → particlePairsC.Valid l) := by
  unfold ParticlePairs.make at h
  simp only at h
  split at h
  · cases h
  obtain ⟨rfl, hv⟩ := verified_require h
  rename_i hs
  have hn : ma.length ≠ 0 := by
    intro h0
    have := hv.2.1
    simp [h0, toInt32] at this
  have hl : ∀ x ∈ [ma, mb, za, zb, ia, ib, q, ofInts pnt, ofInts shf, ofInts mt, pa, pb], x.length = ma.length := by simp [ofInts_length]; omega
  refine ⟨fun hs' => ?_, col_rows (j := 0) rfl hl rfl rfl (.inl hn), col_rows (j := 1) rfl hl rfl rfl (.inl hn), col_rows (j := 2) rfl hl rfl rfl (.inl hn),
    col_rows (j := 3) rfl hl rfl rfl (.inl hn), col_rows (j := 4) rfl hl rfl rfl (.inl hn), col_rows (j := 5) rfl hl rfl rfl (.inl hn),
    col_rows (j := 10) rfl hl rfl rfl (.inl hn), col_rows (j := 11) rfl hl rfl rfl (.inl hn), col_rows (j := 6) rfl hl rfl rfl (.inl hn),
    trunc_ok (col_rows (j := 7) rfl hl rfl rfl (.inl hn)), trunc_ok (col_rows (j := 8) rfl hl rfl rfl (.inl hn)),
    trunc_ok (col_rows (j := 9) rfl hl rfl rfl (.inl hn)), fun hf => ⟨hf, hv⟩⟩
  have hrl : (rows ma.length [ma, mb, za, zb, ia, ib, q, ofInts pnt, ofInts shf, ofInts mt, pa, pb]).length = ma.length * 12 := rows_length _ _
  unfold Small LIST.npl at hs'
  unfold ParticlePairs.numberParticlePairs
  simp only [hrl] at hs' ⊢
  rw [toUInt32_nat (by omega)]
  omega

theorem C48_particlePairs_accepts {ma mb za zb ia ib pa pb q : List Dbl} {pnt shf mt : List Int} (hs : 12 * (ma.length : Int) < 2147483648) :
    let ok := ma ≠ [] ∧ (∀ x ∈ [mb, za, zb, ia, ib, pa, pb, q], x.length = ma.length) ∧ ∀ x ∈ [pnt, shf, mt], x.length = ma.length
    (ok → ∃ l, ParticlePairs.make ma mb za zb ia ib pa pb q pnt shf mt = .ok l) ∧
    (¬ok → ParticlePairs.make ma mb za zb ia ib pa pb q pnt shf mt = .error .exc) := by
  have hrl : (rows ma.length [ma, mb, za, zb, ia, ib, q, ofInts pnt, ofInts shf, ofInts mt, pa, pb]).length = ma.length * 12 := rows_length _ _
  have ok : ma.length ≠ 0 ↔ particlePairsOk ⟨Disco.zero, Disco.zero, ma.length, 0, 2 * ma.length,
      rows ma.length [ma, mb, za, zb, ia, ib, q, ofInts pnt, ofInts shf, ofInts mt, pa, pb]⟩ := by
    unfold particlePairsOk LIST.npl
    simp only [hrl]
    rw [nat32 (by omega), nat32 (by omega)]
    omega
  unfold ParticlePairs.make
  rw [ne_eq, ← List.length_eq_zero_iff]
  simp only [List.forall_mem_cons, List.not_mem_nil, false_implies, implies_true, and_true]
  constructor
  · intro h
    rw [if_neg (by omega)]
    exact ⟨_, verified_pos (ok.mp h.1)⟩
  · intro h
    split
    · rfl
    · exact verified_neg fun h' => absurd (ok.mpr h') (by omega)

/-- The columns of particle pairs that were read. -/
theorem C48_particlePairs_columns {l : LIST} (h : particlePairsC.Valid l) (hs : Small l) {j : Nat} (hj : j < 12) :
    ∃ xs, ParticlePairs.col j l = .ok xs ∧ IsColumn xs l.data j 12 (ParticlePairs.numberParticlePairs l).toNat ∧
      ParticlePairs.numberParticlePairs l = toInt32 l.l1 := by
  obtain ⟨h1, h2, h3⟩ := h.2
  rw [small32 hs] at h1 h3
  unfold Small LIST.npl at hs
  have e : ParticlePairs.numberParticlePairs l = toInt32 l.l1 := by
    unfold ParticlePairs.numberParticlePairs
    rw [toUInt32_nat (by omega)]; omega
  rw [e]
  obtain ⟨xs, a, b⟩ := column_of (l := l.data) (p := 0) (j := j) (k := 12) (n := (toInt32 l.l1).toNat) (off := j) (k' := 12)
    (by omega) hj (.inl (by omega)) (by omega) rfl
  exact ⟨xs, a, by simpa using b, rfl⟩

/-! ### resonance channels -/

theorem C48_resonanceChannels {spin parity : Dbl} {ppi lm : List Int} {s b apt ape : List Dbl} {kbk kps : Int} {l : LIST}
    (h : ResonanceChannels.make spin parity ppi lm s b apt ape kbk kps = .ok l) :
    ResonanceChannels.spin l = spin ∧ ResonanceChannels.parity l = parity ∧ ResonanceChannels.numberBackgroundChannels l = kbk ∧
    ResonanceChannels.phaseShiftOption l = kps ∧ (Small l → ResonanceChannels.numberChannels l = lm.length) ∧
    (IntRange ppi → ResonanceChannels.particlePairNumbers l = .ok ppi) ∧ (IntRange lm → ResonanceChannels.orbitalMomentumValues l = .ok lm) ∧
    ResonanceChannels.channelSpinValues l = .ok s ∧ ResonanceChannels.boundaryConditionValues l = .ok b ∧
    ResonanceChannels.trueChannelRadii l = .ok apt ∧ ResonanceChannels.effectiveChannelRadii l = .ok ape ∧ (l.Fits → channelsC.Valid l) := by
  unfold ResonanceChannels.make at h
  simp only at h
  split at h
  · cases h
  obtain ⟨rfl, hv⟩ := verified_require h
  rename_i hs
  have hn : lm.length ≠ 0 := by
    intro h0
    have := hv.2.1
    simp [h0, toInt32] at this
  have hl : ∀ x ∈ [ofInts ppi, ofInts lm, s, b, ape, apt], x.length = lm.length := by simp [ofInts_length]; omega
  refine ⟨rfl, rfl, rfl, rfl, fun hs' => ?_, trunc_ok (stride_rows rfl hl rfl), trunc_ok (col_rows (j := 1) rfl hl rfl rfl (.inl hn)),
    col_rows (j := 2) rfl hl rfl rfl (.inl hn), col_rows (j := 3) rfl hl rfl rfl (.inl hn), col_rows (j := 5) rfl hl rfl rfl (.inl hn),
    col_rows (j := 4) rfl hl rfl rfl (.inl hn), fun hf => ⟨hf, hv⟩⟩
  have hrl : (rows lm.length [ofInts ppi, ofInts lm, s, b, ape, apt]).length = lm.length * 6 := rows_length _ _
  unfold Small LIST.npl at hs'
  unfold ResonanceChannels.numberChannels
  simp only [hrl] at hs' ⊢
  rw [toUInt32_nat (by omega)]
  omega

/-- The constructor with one array of radii gives it as both radii. -/
theorem C48_resonanceChannels_one_radius {spin parity : Dbl} {ppi lm : List Int} {s b ap : List Dbl} {kbk kps : Int} :
    ResonanceChannels.make1 spin parity ppi lm s b ap kbk kps = ResonanceChannels.make spin parity ppi lm s b ap ap kbk kps := rfl

theorem C48_resonanceChannels_accepts {spin parity : Dbl} {ppi lm : List Int} {s b apt ape : List Dbl} {kbk kps : Int}
    (hs : 6 * (lm.length : Int) < 2147483648) :
    let ok := lm ≠ [] ∧ ppi.length = lm.length ∧ ∀ x ∈ [s, b, apt, ape], x.length = lm.length
    (ok → ∃ l, ResonanceChannels.make spin parity ppi lm s b apt ape kbk kps = .ok l) ∧
    (¬ok → ResonanceChannels.make spin parity ppi lm s b apt ape kbk kps = .error .exc) := by
  have hrl : (rows lm.length [ofInts ppi, ofInts lm, s, b, ape, apt]).length = lm.length * 6 := rows_length _ _
  have ok : lm.length ≠ 0 ↔ channelsOk ⟨spin, parity, kbk, kps, lm.length, rows lm.length [ofInts ppi, ofInts lm, s, b, ape, apt]⟩ := by
    unfold channelsOk LIST.npl
    simp only [hrl]
    rw [nat32 (by omega), nat32 (by omega)]
    omega
  unfold ResonanceChannels.make
  rw [ne_eq, ← List.length_eq_zero_iff]
  simp only [List.forall_mem_cons, List.not_mem_nil, false_implies, implies_true, and_true]
  constructor
  · intro h
    rw [if_neg (by omega)]
    exact ⟨_, verified_pos (ok.mp h.1)⟩
  · intro h
    split
    · rfl
    · exact verified_neg fun h' => absurd (ok.mpr h') (by omega)

/-- The columns of channels that were read. -/
theorem C48_resonanceChannels_columns {l : LIST} (h : channelsC.Valid l) (hs : Small l) {j : Nat} (hj : j < 6) :
    ∃ xs, ResonanceChannels.col j l = .ok xs ∧ IsColumn xs l.data j 6 (ResonanceChannels.numberChannels l).toNat ∧
      ResonanceChannels.numberChannels l = toInt32 l.n2 := by
  obtain ⟨h1, h2, h3⟩ := h.2
  rw [small32 hs] at h1 h3
  unfold Small LIST.npl at hs
  have e : ResonanceChannels.numberChannels l = toInt32 l.n2 := by
    unfold ResonanceChannels.numberChannels
    rw [toUInt32_nat (by omega)]; omega
  rw [e]
  obtain ⟨xs, a, b⟩ := column_of (l := l.data) (p := 0) (j := j) (k := 6) (n := (toInt32 l.n2).toNat) (off := j) (k' := 6)
    (by omega) hj (.inl (by omega)) (by omega) rfl
  exact ⟨xs, a, by simpa using b, rfl⟩

/-! ### resonance parameters -/

/-- the number of zeros that complete a row of `1 + nch` values to a multiple of six -/
theorem padding_spec (nch : Nat) : ResonanceParameters.padding nch < 6 ∧ (1 + nch + ResonanceParameters.padding nch) % 6 = 0 := by
  unfold ResonanceParameters.padding; omega

theorem zip_left {α β : Type} {as : List α} {bs : List β} (h : as.length = bs.length) : (as.zip bs).map (·.1) = as := List.map_fst_zip (by omega)
theorem zip_right {α β : Type} {as : List α} {bs : List β} (h : as.length = bs.length) : (as.zip bs).map (·.2) = bs := List.map_snd_zip (by omega)

theorem stride_flatMap {α β : Type} {f : α → List β} {g : α → β} {k : Nat} {k' : Int} {l : List α} (hk : 0 < k) (h : ∀ a ∈ l, (f a).length = k)
    (hg : ∀ a ∈ l, (f a)[0]? = some (g a)) (hk' : k' = k) : strideE k' (l.flatMap f) = .ok (l.map g) := by
  rw [strideE_ok (by omega)]
  congr 1
  apply List.ext_getElem?
  intro i
  rw [strideL_getElem? (by omega)]
  have := flatMap_getElem? (i := i) h hk
  have e : i * k'.toNat = i * k + 0 := by subst hk'; simp
  rw [e, this, List.getElem?_map]
  by_cases hi : i < l.length
  · rw [List.getElem?_eq_getElem hi]
    simpa using hg _ (List.getElem_mem hi)
  · rw [List.getElem?_eq_none (by omega)]; rfl

/-- The energies are returned; each array of parameters is returned followed by the zeros that complete a line. -/
theorem C48_resonanceParameters {er : List Dbl} {gam : List (List Dbl)} {l : LIST} (h : ResonanceParameters.make er gam = .ok l) :
    ∃ pad < 6, ResonanceParameters.numberResonances l = er.length ∧ ResonanceParameters.resonanceEnergies l = .ok er ∧
      ResonanceParameters.resonanceParameters l = .ok (gam.map (· ++ List.replicate pad Disco.zero)) ∧
      (∀ g ∈ gam, (1 + g.length + pad) % 6 = 0) ∧ (l.Fits → rmlParametersC.Valid l) := by
  unfold ResonanceParameters.make at h
  simp only at h
  split at h
  · cases h
  split at h
  · cases h
  split at h
  · cases h
  obtain ⟨rfl, hv⟩ := verified_require h
  rename_i h1 h2 h3
  generalize (gam.headD []).length = nch at *
  obtain ⟨hp1, hp2⟩ := padding_spec nch
  generalize ResonanceParameters.padding nch = pad at *
  have hg : ∀ g ∈ gam, g.length = nch := fun g hg => Decidable.byContradiction fun hne => h3 ⟨g, hg, hne⟩
  have hfl : ∀ r ∈ er.zip gam, (r.1 :: r.2 ++ List.replicate pad Disco.zero).length = 1 + nch + pad := fun r hr => by
    have := hg r.2 (List.of_mem_zip hr).2
    simp [this]; omega
  have hlen : ((er.zip gam).flatMap fun r => r.1 :: r.2 ++ List.replicate pad Disco.zero).length = er.length * (1 + nch + pad) := by
    rw [flatMap_length hfl, List.length_zip]; congr 1; omega
  obtain ⟨w, hw⟩ : ∃ w, 1 + nch + pad = 6 * w := ⟨(1 + nch + pad) / 6, by omega⟩
  have hw0 : 0 < w := by omega
  have hwd : ResonanceParameters.width ⟨Disco.zero, Disco.zero, 0, (er.length : Int), ((er.length * (1 + nch + pad) / 6 : Nat) : Int),
      (er.zip gam).flatMap fun r => r.1 :: r.2 ++ List.replicate pad Disco.zero⟩ = .ok ((6 * w : Nat) : Int) := by
    unfold ResonanceParameters.width LIST.npl
    simp only [hlen, hw]
    rw [if_neg (by omega)]
    congr 1
    have e1 : er.length * (6 * w) = 6 * (er.length * w) := by rw [← Nat.mul_assoc, ← Nat.mul_assoc, Nat.mul_comm er.length 6]
    rw [e1]
    have e2 : Int.tdiv ((6 * (er.length * w) : Nat) : Int) ((6 : Nat) : Int) = ((er.length * w : Nat) : Int) := by
      rw [← Int.ofNat_tdiv, Nat.mul_div_cancel_left _ (by decide)]
    show Int.tdiv (Int.tdiv _ ((6 : Nat) : Int)) _ * _ = _
    rw [e2, ← Int.ofNat_tdiv, Nat.mul_div_cancel_left _ (by omega)]
    omega
  refine ⟨pad, hp1, rfl, ?_, ?_, fun g hgm => by rw [hg g hgm]; exact hp2, fun hf => ⟨hf, hv⟩⟩
  · unfold ResonanceParameters.resonanceEnergies
    rw [hwd]
    show strideE _ _ = _
    rw [stride_flatMap (g := (·.1)) (k := 6 * w) (by omega) (by rw [← hw]; exact hfl) (fun _ _ => rfl) rfl, zip_left (by omega)]
  · unfold ResonanceParameters.resonanceParameters
    rw [hwd]
    show (chunkE _ _).bind _ = _
    rw [chunkE_ok (by omega)]
    show mapE _ _ = _
    have e : (((6 * w : Nat) : Int)).toNat = 6 * w := by omega
    rw [e, chunkL_flatMap (by omega) (by rw [← hw]; exact hfl)]
    rw [mapE_ok (g := List.tail) ?_]
    · rw [List.map_map]
      congr 1
      conv => rhs; rw [← zip_right (as := er) (bs := gam) (by omega), List.map_map]
      rfl
    · intro x hx
      obtain ⟨r, _, rfl⟩ := List.mem_map.mp hx
      exact dropE_append (a := [r.1]) rfl

theorem C48_resonanceParameters_accepts {er : List Dbl} {gam : List (List Dbl)} {nch : Nat} (hs : (er.length : Int) * (nch + 6) < 2147483648)
    (hn : ∀ g ∈ gam, g.length ≤ nch) :
    (er ≠ [] ∧ gam.length = er.length ∧ (∀ g ∈ gam, ∀ g' ∈ gam, g.length = g'.length) → ∃ l, ResonanceParameters.make er gam = .ok l) ∧
    (¬(er ≠ [] ∧ gam.length = er.length ∧ ∀ g ∈ gam, ∀ g' ∈ gam, g.length = g'.length) → ResonanceParameters.make er gam = .error .exc) := by
  unfold ResonanceParameters.make
  rw [ne_eq, ← List.length_eq_zero_iff]
  constructor
  · rintro ⟨h1, h2, h3⟩
    simp only
    rw [if_neg (by omega), if_neg h1]
    cases gam with
    | nil => simp at h2; omega
    | cons g gam =>
      generalize hm : ((g :: gam).headD []).length = m
      have hm : g.length = m := hm
      rw [if_neg (by rintro ⟨p, hp, hne⟩; exact hne ((h3 p hp g (by simp)).trans hm))]
      refine ⟨_, verified_pos ?_⟩
      obtain ⟨hp1, hp2⟩ := padding_spec m
      generalize ResonanceParameters.padding m = pad at *
      have hlen : ((er.zip (g :: gam)).flatMap fun r => r.1 :: r.2 ++ List.replicate pad Disco.zero).length = er.length * (1 + m + pad) := by
        rw [flatMap_length (k := 1 + m + pad), List.length_zip]
        · congr 1; omega
        · intro r hr
          have := (h3 r.2 (List.of_mem_zip hr).2 g (by simp)).trans hm
          simp [this]; omega
      obtain ⟨w, hw⟩ : ∃ w, 1 + m + pad = 6 * w := ⟨(1 + m + pad) / 6, by omega⟩
      have hle : 1 + m + pad ≤ nch + 6 := by have := hn g (by simp); omega
      have hle' : er.length * (1 + m + pad) ≤ er.length * (nch + 6) := Nat.mul_le_mul_left _ hle
      have hb : ((er.length * (nch + 6) : Nat) : Int) < 2147483648 := by simpa using hs
      unfold rmlParametersOk LIST.npl
      simp only [hlen]
      rw [nat32 (by omega), hw]
      have e1 : er.length * (6 * w) = 6 * (er.length * w) := by rw [← Nat.mul_assoc, ← Nat.mul_assoc, Nat.mul_comm er.length 6]
      have : 0 < er.length * w := Nat.mul_pos (by omega) (by omega)
      rw [e1]
      constructor
      · omega
      · show Int.tmod _ ((6 : Nat) : Int) = _
        rw [← Int.ofNat_tmod]; omega
  · intro h
    simp only
    split
    · rfl
    split
    · rfl
    split
    · rfl
    · rename_i h1 h2 h3
      exfalso
      refine h ⟨h2, by omega, fun g hg g' hg' => ?_⟩
      have a := Decidable.byContradiction fun hne => h3 ⟨g, hg, hne⟩
      have b := Decidable.byContradiction fun hne => h3 ⟨g', hg', hne⟩
      omega

end

end ENDFtk.Props

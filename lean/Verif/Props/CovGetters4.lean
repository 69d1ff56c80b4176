import Verif.Props.CovGetters3
/-
  C60: R-matrix limited covariances.
-/
set_option linter.unusedVariables false
set_option linter.unusedSectionVars false
set_option linter.unusedSimpArgs false
namespace ENDFtk.Props
open ENDFtk
variable [Disco]

/-! ### particle pairs -/

section
variable {njsx : Int} {ma mb za zb ia ib pa pb q : List Dbl} {pnt shf mt : List Int} {l : LIST}

/-- the constructor is the one of 2/151 with another L2 -/
theorem compactPairs_eq : CompactParticlePairs.make njsx ma mb za zb ia ib pa pb q pnt shf mt =
    (ParticlePairs.make ma mb za zb ia ib pa pb q pnt shf mt).map (fun l => { l with l2 := njsx }) := by
  unfold CompactParticlePairs.make ParticlePairs.make
  simp only
  have e : (∃ n ∈ [mb.length, za.length, zb.length, ia.length, ib.length, q.length, pnt.length, shf.length, mt.length, pa.length, pb.length], n ≠ ma.length) ↔
      (mb.length ≠ ma.length ∨ za.length ≠ ma.length ∨ zb.length ≠ ma.length ∨ ia.length ≠ ma.length ∨ ib.length ≠ ma.length ∨ q.length ≠ ma.length ∨
      pnt.length ≠ ma.length ∨ shf.length ≠ ma.length ∨ mt.length ≠ ma.length ∨ pa.length ≠ ma.length ∨ pb.length ≠ ma.length) := by
    simp only [List.mem_cons, List.not_mem_nil, or_false, exists_eq_or_imp, exists_eq_left]
  simp only [e]
  split
  · rfl
  · by_cases hv : particlePairsOk ⟨Disco.zero, Disco.zero, (ma.length : Int), 0, 2 * (ma.length : Int),
      rows ma.length [ma, mb, za, zb, ia, ib, q, ofInts pnt, ofInts shf, ofInts mt, pa, pb]⟩
    · rw [verified_pos hv]
      exact verified_pos hv
    · rw [verified_neg hv]
      exact verified_neg hv

theorem C60_compactParticlePairs (h : CompactParticlePairs.make njsx ma mb za zb ia ib pa pb q pnt shf mt = .ok l) :
    (IsInt32 njsx → CompactParticlePairs.numberSpinGroups l = njsx) ∧ (Small l → ParticlePairs.numberParticlePairs l = ma.length) ∧
    ParticlePairs.massParticleA l = .ok ma ∧ ParticlePairs.massParticleB l = .ok mb ∧ ParticlePairs.chargeParticleA l = .ok za ∧
    ParticlePairs.chargeParticleB l = .ok zb ∧ ParticlePairs.spinParticleA l = .ok ia ∧ ParticlePairs.spinParticleB l = .ok ib ∧
    ParticlePairs.parityParticleA l = .ok pa ∧ ParticlePairs.parityParticleB l = .ok pb ∧ ParticlePairs.qValues l = .ok q ∧
    (IntRange pnt → ParticlePairs.penetrabilityFlag l = .ok pnt) ∧ (IntRange shf → ParticlePairs.shiftFactorFlag l = .ok shf) ∧
    (IntRange mt → ParticlePairs.reactionNumbers l = .ok mt) ∧ (l.Fits → particlePairsC.Valid l) := by
  rw [compactPairs_eq] at h
  cases hm : ParticlePairs.make ma mb za zb ia ib pa pb q pnt shf mt with
  | error e => rw [hm] at h; cases h
  | ok m =>
    rw [hm] at h
    cases h
    have hv : particlePairsOk m := by
      unfold ParticlePairs.make at hm
      simp only at hm
      split at hm
      · cases hm
      · obtain ⟨rfl, hv⟩ := verified_require hm
        exact hv
    obtain ⟨a0, a1, a2, a3, a4, a5, a6, a7, a8, a9, a10, a11, a12, a13⟩ := C48_particlePairs hm
    exact ⟨fun hi => toInt32_of hi, a0, a1, a2, a3, a4, a5, a6, a7, a8, a9, a10, a11, a12, fun hf => ⟨hf, hv⟩⟩

theorem C60_compactParticlePairs_accepts (hs : 12 * (ma.length : Int) < 2147483648) :
    let ok := ma ≠ [] ∧ (∀ x ∈ [mb, za, zb, ia, ib, pa, pb, q], x.length = ma.length) ∧ ∀ x ∈ [pnt, shf, mt], x.length = ma.length
    (ok → ∃ l, CompactParticlePairs.make njsx ma mb za zb ia ib pa pb q pnt shf mt = .ok l) ∧
    (¬ok → CompactParticlePairs.make njsx ma mb za zb ia ib pa pb q pnt shf mt = .error .exc) := by
  have := C48_particlePairs_accepts (mb := mb) (za := za) (zb := zb) (ia := ia) (ib := ib) (pa := pa) (pb := pb) (q := q) (pnt := pnt) (shf := shf) (mt := mt) hs
  refine ⟨fun h => ?_, fun h => ?_⟩
  · obtain ⟨m, hm⟩ := this.1 h
    exact ⟨_, by rw [compactPairs_eq, hm]; rfl⟩
  · rw [compactPairs_eq, this.2 h]; rfl

end

/-! ### resonance parameters (LCOMP = 1) -/

/-- the padding of a line of parameters is the number of zeros that completes it -/
theorem C60_shortRangeParameters {er : List Dbl} {gam : List (List Dbl)} {l : LIST} (h : ShortRangeParameters.make er gam = .ok l) :
    ShortRangeParameters.numberResonances l = er.length ∧ ShortRangeParameters.resonanceEnergies l = .ok er ∧
      ShortRangeParameters.resonanceParameters l = .ok gam ∧ (∀ g ∈ gam, ShortRangeParameters.numberChannels l = g.length) ∧
      (l.Fits → rmlParametersC.Valid l) := by
  unfold ShortRangeParameters.make at h
  simp only at h
  split at h
  · cases h
  split at h
  · cases h
  split at h
  · cases h
  obtain ⟨rfl, hv⟩ := verified_require h
  rename_i h1 h2 h3
  generalize (gam.headD []).length = nch at *
  obtain ⟨hp1, hp2⟩ := padding_spec nch
  generalize ResonanceParameters.padding nch = pad at *
  have hg : ∀ g ∈ gam, g.length = nch := fun g hg => Decidable.byContradiction fun hne => h3 ⟨g, hg, hne⟩
  have hfl : ∀ r ∈ er.zip gam, (r.1 :: r.2 ++ List.replicate pad Disco.zero).length = 1 + nch + pad := fun r hr => by
    have := hg r.2 (List.of_mem_zip hr).2
    simp [this]; omega
  have hlen : ((er.zip gam).flatMap fun r => r.1 :: r.2 ++ List.replicate pad Disco.zero).length = er.length * (1 + nch + pad) := by
    rw [flatMap_length hfl, List.length_zip]; congr 1; omega
  obtain ⟨w, hw⟩ : ∃ w, 1 + nch + pad = 6 * w := ⟨(1 + nch + pad) / 6, by omega⟩
  have hw0 : 0 < w := by omega
  have hwd : ResonanceParameters.width ⟨Disco.zero, Disco.zero, (nch : Int), (er.length : Int), ((er.length * (1 + nch + pad) / 6 : Nat) : Int),
      (er.zip gam).flatMap fun r => r.1 :: r.2 ++ List.replicate pad Disco.zero⟩ = .ok ((6 * w : Nat) : Int) := by
    unfold ResonanceParameters.width LIST.npl
    simp only [hlen, hw]
    rw [if_neg (by omega)]
    congr 1
    have e1 : er.length * (6 * w) = 6 * (er.length * w) := by rw [← Nat.mul_assoc, ← Nat.mul_assoc, Nat.mul_comm er.length 6]
    rw [e1]
    have e2 : Int.tdiv ((6 * (er.length * w) : Nat) : Int) ((6 : Nat) : Int) = ((er.length * w : Nat) : Int) := by
      rw [← Int.ofNat_tdiv, Nat.mul_div_cancel_left _ (by decide)]
    show Int.tdiv (Int.tdiv _ ((6 : Nat) : Int)) _ * _ = _
    rw [e2, ← Int.ofNat_tdiv, Nat.mul_div_cancel_left _ (by omega)]
    omega
  refine ⟨rfl, ?_, ?_, fun g hgm => by rw [hg g hgm]; rfl, fun hf => ⟨hf, hv⟩⟩
  · unfold ShortRangeParameters.resonanceEnergies
    rw [hwd]
    show strideE _ _ = _
    rw [stride_flatMap (g := (·.1)) (k := 6 * w) (by omega) (by rw [← hw]; exact hfl) (fun _ _ => rfl) rfl, zip_left (by omega)]
  · unfold ShortRangeParameters.resonanceParameters
    rw [hwd]
    show (chunkE _ _).bind _ = _
    rw [chunkE_ok (by omega)]
    show mapE _ _ = _
    have e : (((6 * w : Nat) : Int)).toNat = 6 * w := by omega
    rw [e, chunkL_flatMap (by omega) (by rw [← hw]; exact hfl)]
    rw [mapE_ok (g := fun c => (c.drop 1).take nch) ?_]
    · rw [List.map_map]
      congr 1
      conv => rhs; rw [← zip_right (as := er) (bs := gam) (by omega)]
      apply List.map_congr_left
      intro r hr
      have := hg r.2 (List.of_mem_zip hr).2
      show ((r.1 :: r.2 ++ List.replicate pad Disco.zero).drop 1).take nch = r.2
      simp [← this]
    · intro x hx
      obtain ⟨r, hr, rfl⟩ := List.mem_map.mp hx
      have := hg r.2 (List.of_mem_zip hr).2
      have e1 : dropE 1 (r.1 :: r.2 ++ List.replicate pad Disco.zero) = .ok (r.2 ++ List.replicate pad Disco.zero) := dropE_append (a := [r.1]) rfl
      rw [e1]
      show takeE (nch : Int) (r.2 ++ List.replicate pad Disco.zero) = _
      rw [takeE_append (by omega)]
      simp [← this]

/-- Accepted are arrays of parameters of the same size, one for each energy. -/
theorem C60_shortRangeParameters_accepts {er : List Dbl} {gam : List (List Dbl)} {nch : Nat} (hs : (er.length : Int) * (nch + 6) < 2147483648)
    (hn : ∀ g ∈ gam, g.length ≤ nch) :
    (er ≠ [] ∧ gam.length = er.length ∧ (∀ g ∈ gam, ∀ g' ∈ gam, g.length = g'.length) → ∃ l, ShortRangeParameters.make er gam = .ok l) ∧
    (¬(er ≠ [] ∧ gam.length = er.length ∧ ∀ g ∈ gam, ∀ g' ∈ gam, g.length = g'.length) → ShortRangeParameters.make er gam = .error .exc) := by
  have e : ShortRangeParameters.make er gam = (ResonanceParameters.make er gam).map (fun l => { l with l1 := (gam.headD []).length }) := by
    unfold ShortRangeParameters.make ResonanceParameters.make
    simp only
    split
    · rfl
    split
    · rfl
    split
    · rfl
    · generalize ((er.zip gam).flatMap fun r => r.1 :: r.2 ++ List.replicate (ResonanceParameters.padding (gam.headD []).length) Disco.zero) = data
      generalize ((er.length * (1 + (gam.headD []).length + ResonanceParameters.padding (gam.headD []).length) / 6 : Nat) : Int) = nx
      by_cases hv : rmlParametersOk ⟨Disco.zero, Disco.zero, 0, (er.length : Int), nx, data⟩
      · rw [verified_pos hv]
        exact verified_pos hv
      · rw [verified_neg hv]
        exact verified_neg hv
  have := C48_resonanceParameters_accepts hs hn
  refine ⟨fun h => ?_, fun h => ?_⟩
  · obtain ⟨m, hm⟩ := this.1 h
    exact ⟨_, by rw [e, hm]; rfl⟩
  · rw [e, this.2 h]; rfl

/-- The parameters of a record that was read: for each resonance the energy and NCH parameters, at the beginning of a line; NCH is the L1 of the record.
    If it is larger than the number of values of a resonance, or if there is no resonance, the getters read out of bounds or divide by zero. -/
theorem C60_shortRangeParameters_layout {l : LIST} {w n : Nat} :
    (l.data.length = 6 * w * n → w ≠ 0 → n ≠ 0 → l.l2 = n →
      Columns l.data (6 * w) n 0 [ShortRangeParameters.resonanceEnergies l] ∧
      (∀ m : Nat, l.l1 = m → m < 6 * w → Blocks l.data 1 (6 * w) m n (ShortRangeParameters.resonanceParameters l)) ∧
      (∀ m : Nat, l.l1 = m → 6 * w ≤ m → ShortRangeParameters.resonanceParameters l = .error .ub) ∧
      ShortRangeParameters.numberChannels l = l.l1 ∧ ShortRangeParameters.numberResonances l = n ∧ ShortRangeParameters.numberLines l = w * n) ∧
    (l.l2 = 0 → ShortRangeParameters.resonanceEnergies l = .error .ub ∧ ShortRangeParameters.resonanceParameters l = .error .ub) := by
  refine ⟨fun hl hw hn hl2 => ?_, fun h0 => ?_⟩
  · obtain ⟨a, b, c, d⟩ := C59_resonanceParameters hn hl hw hl2
    have ew : ResonanceParameters.width l = .ok ((6 * w : Nat) : Int) := by
      unfold ResonanceParameters.width LIST.npl
      rw [if_neg (by omega), hl, hl2]
      congr 1
      have : ((6 * w * n : Nat) : Int).tdiv 6 = ((w * n : Nat) : Int) := by
        rw [Int.tdiv_eq_ediv_of_nonneg (by omega), Nat.mul_assoc]; omega
      rw [this]
      have : ((w * n : Nat) : Int).tdiv (n : Int) = w := by
        rw [Int.tdiv_eq_ediv_of_nonneg (by omega), Int.natCast_mul]
        exact Int.mul_ediv_cancel _ (by omega)
      rw [this]; omega
    refine ⟨a, fun m hm hlt => ?_, fun m hm hle => ?_, rfl, hl2, d⟩
    · have := blocks_of (data := l.data) (p := 0) (k := 6 * w) (n := n) (d := 1) (w := m) (k' := ((6 * w : Nat) : Int)) (p' := 0)
        (f := fun c => (dropE 1 c).bind (takeE (ShortRangeParameters.numberChannels l)))
        (by omega) (by omega) (by omega) rfl rfl (fun c hc => by
          rw [dropE_ok (by omega) (by omega)]
          show takeE _ _ = _
          unfold ShortRangeParameters.numberChannels
          rw [hm, takeE_ok (by omega) (by simp; omega)]
          rfl)
      unfold ShortRangeParameters.resonanceParameters
      rw [ew]
      rw [dropE_ok (by omega) (by omega)] at this
      simpa [Except.bind] using this
    · unfold ShortRangeParameters.resonanceParameters
      rw [ew]
      show (chunkE _ _).bind _ = _
      rw [chunkE_ok (by omega)]
      show mapE _ (chunkL (((6 * w : Nat) : Int)).toNat l.data) = _
      rw [Int.toNat_natCast]
      have h0 : (chunkL (6 * w) l.data)[0]? = some ((l.data.drop (0 * (6 * w))).take (6 * w)) := by
        have : 0 < 6 * w * n := Nat.mul_pos (by omega) (by omega)
        rw [chunkL_getElem? (by omega), if_pos (by omega)]
      cases hc : chunkL (6 * w) l.data with
      | nil => rw [hc] at h0; cases h0
      | cons c cs =>
        rw [hc] at h0
        have h0 : c = (l.data.drop (0 * (6 * w))).take (6 * w) := by simpa using h0
        have hcl : c.length ≤ 6 * w := by rw [h0, List.length_take]; omega
        unfold mapE
        have : (dropE 1 c).bind (takeE (ShortRangeParameters.numberChannels l)) = .error .ub := by
          unfold dropE
          split
          · rfl
          · show takeE _ _ = _
            unfold takeE ShortRangeParameters.numberChannels
            rw [hm, if_pos]
            simp only [List.length_drop]
            omega
        rw [this]
  · have : ResonanceParameters.width l = .error .ub := by unfold ResonanceParameters.width; rw [if_pos h0]
    unfold ShortRangeParameters.resonanceEnergies ShortRangeParameters.resonanceParameters
    rw [this]
    exact ⟨rfl, rfl⟩

end ENDFtk.Props

import Verif.Section.Build6
import Verif.Props.Build4
import Verif.Props.Build5
import Verif.Props.ResCov
/-
  C61, part 6: the covariances of resonance parameters (MF32 MT151).
-/
set_option linter.unusedVariables false
set_option linter.unusedSectionVars false
set_option linter.unusedSimpArgs false
namespace ENDFtk
namespace Props
variable [Disco] [CorrOps]

/-! ### components -/

theorem limited_ok {x : LIST} (h : Make.LimitedBuilt x) : limitedLValueOk x := by
  obtain ⟨_, _, _, _, _, _, _, _, _, _, _, _, _, _, _, _, _, _, _, h⟩ := h
  unfold LimitedBreitWignerLValue.make at h
  simp only at h
  split at h
  · cases h
  split at h
  · cases h
  obtain ⟨rfl, hv⟩ := built_list h
  exact hv

theorem shortBlock_ok {mpar : Int} {energies spins c1 c2 c3 c4 values : List Dbl} {x : LIST} (h : ShortRangeBlock.make mpar energies spins c1 c2 c3 c4 values = .ok x) :
    shortRangeOk x := by
  unfold ShortRangeBlock.make at h
  simp only at h
  split at h
  · cases h
  obtain ⟨rfl, hv⟩ := built_list h
  exact hv

theorem shortBw_ok {x : LIST} (h : Make.ShortBwBuilt x) : shortRangeOk x := by
  obtain ⟨_, _, _, _, _, _, _, _, h⟩ := h
  exact shortBlock_ok h
theorem shortRm_ok {x : LIST} (h : Make.ShortRmBuilt x) : shortRangeOk x := by
  obtain ⟨_, _, _, _, _, _, _, _, h⟩ := h
  exact shortBlock_ok h

theorem triangle_ok {mpar : Int} {values : List Dbl} {x : LIST} (h : TriangularMatrix.make mpar values = .ok x) : triangleOk x := by
  unfold TriangularMatrix.make at h
  obtain ⟨rfl, hv⟩ := built_list h
  exact hv

theorem shortParameters_ok {energies : List Dbl} {parameters : List (List Dbl)} {x : LIST} (h : ShortRangeParameters.make energies parameters = .ok x) : rmlParametersOk x := by
  unfold ShortRangeParameters.make at h
  simp only at h
  split at h
  · cases h
  split at h
  · cases h
  split at h
  · cases h
  obtain ⟨rfl, hv⟩ := built_list h
  exact hv

theorem long_ok {l : LIST} (h : Make.LongBuilt l) (hr : l.l2 = 0 ∨ l.l2 = 1 ∨ l.l2 = 2 ∨ l.l2 = 5) : longRangeCheck l = .ok () := by
  have pairs : ∀ {l : LIST}, covariancePairsCheck l = .ok () → (l.l2 = 0 ∨ l.l2 = 1 ∨ l.l2 = 2 ∨ l.l2 = 5) → longRangeCheck l = .ok () := by
    intro l h hr
    unfold longRangeCheck
    by_cases h5 : l.l2 = 5
    · exfalso
      unfold covariancePairsCheck at h
      rw [h5, toInt32_of (show IsInt32 5 by decide)] at h
      simp at h
    · rw [if_pos (by omega)]; exact h
  cases h with
  | pairs hl h =>
    unfold CovariancePairs.make2 at h
    split at h
    · cases h
    obtain ⟨rfl, hv⟩ := verified_ok h
    exact pairs hv hr
  | pairs4 hl h =>
    unfold CovariancePairs.make4 at h
    split at h
    · cases h
    split at h
    · cases h
    obtain ⟨rfl, hv⟩ := verified_ok h
    exact pairs hv hr
  | square h =>
    unfold SquareMatrix.make at h
    obtain ⟨rfl, hv⟩ := verified_ok h
    unfold longRangeCheck
    rw [if_neg (by simp), if_pos (by simp)]
    exact hv

theorem compactBw_ok {x : LIST} (h : Make.CompactBwBuilt x) : compactOk x := by
  obtain ⟨_, _, _, _, _, _, _, _, _, _, _, _, _, h⟩ := h
  unfold CompactBreitWignerUncertainties.make at h
  simp only at h
  split at h
  · cases h
  obtain ⟨rfl, hv⟩ := built_list h
  exact hv

theorem compactRm_ok {x : LIST} (h : Make.CompactRmBuilt x) : compactOk x := by
  obtain ⟨_, _, _, _, _, _, _, _, _, _, _, _, _, h⟩ := h
  unfold CompactReichMooreUncertainties.make at h
  simp only at h
  split at h
  · cases h
  obtain ⟨rfl, hv⟩ := built_list h
  exact hv

theorem compactChannels_ok {x : LIST} (h : Make.CompactChannelsBuilt x) : channelsOk x := by
  cases h with
  | two h => exact channels_ok (.two h)
  | one h => exact channels_ok (.one h)

theorem compactParameters_ok {energies denergies : List Dbl} {parameters dparameters : List (List Dbl)} {x : LIST}
    (h : CompactParameters.make energies parameters denergies dparameters = .ok x) : compactRmlParametersOk x := by
  unfold CompactParameters.make at h
  simp only at h
  split at h
  · cases h
  split at h
  · cases h
  split at h
  · cases h
  obtain ⟨rfl, hv⟩ := built_list h
  exact hv

theorem compactRml_valid {x : LIST × List (LIST × LIST)} (h : Make.CompactRmlBuilt x) (h1 : x.1.Ints) (h2 : IsInt32 x.1.l2)
    (h3 : SeqInts (fun g : LIST × LIST => g.1.Ints ∧ g.2.Ints) x.2) (h4 : x.1.l2 = x.2.length) : compactRmlC.Valid x := by
  obtain ⟨pairs, groups, hp, hg, hx⟩ := h
  unfold Make.compactRmlUncertainties at hx
  split at hx
  · rename_i hc
    cases hx
    refine ⟨⟨⟨list_fits h1, ?_⟩, ?_, fun g hgm => ?_⟩, hc⟩
    · obtain ⟨_, _, _, _, _, _, _, _, _, _, _, _, _, hq⟩ := hp
      unfold CompactParticlePairs.make at hq
      simp only at hq
      split at hq
      · cases hq
      obtain ⟨rfl, hv⟩ := built_list hq
      exact hv
    · simp only at h2 h4 ⊢
      rw [toInt32_of h2, toInt32_of h2, h4]
    · obtain ⟨g1, _, _, _, _, g2⟩ := hg g hgm
      obtain ⟨i1, i2⟩ := h3.2 g hgm
      exact ⟨⟨list_fits i1, compactChannels_ok g1⟩, list_fits i2, compactParameters_ok g2⟩
  · cases hx

/-! ### parameters -/

theorem dap_valid {dap : Option LIST} (hi : ∀ d, dap = some d → d.Ints) : ∀ d, dap = some d → dapListC.Valid d := fun d hd => list_fits (hi d hd)

theorem toUInt32_of' {n : Int} (h : 0 ≤ n ∧ n < 4294967296) : toUInt32 n = n := by unfold toUInt32; omega

theorem count32 {α : Type} {l : List α} (h : (l.length : Int) < 2147483648) : toInt32 (asInt l.length) = l.length := by
  rw [asInt, toInt32_toInt32, toInt32_nat h]

theorem general_sound {δ α : Type} {dap : Comp δ} {short : Comp α} {spi ap awri : Dbl} {nls : Int} {o : Option δ} {xs : List α} {ls : List LIST}
    (hn : 0 ≤ nls ∧ nls < 4294967296) (ho : ∀ d, o = some d → dap.Valid d) (hx : (xs.length : Int) < 2147483648) (hs : ∀ x ∈ xs, short.Valid x)
    (hl : (ls.length : Int) < 2147483648) (hv : ∀ l ∈ ls, longRangeC.Valid l) : (generalC dap short).Valid ((spi, ap, nls), o, awri, xs, ls) := by
  refine ⟨⟨fits0, by show fits 11 1; decide, fits_uint' hn, fits_ofBool _⟩, ?_, optC_isSome ho, ⟨fits0, fits0, fits_toInt32 _, fits_toInt32 _⟩, rfl,
    ⟨count32 hx, hs⟩, count32 hl, hv⟩
  show (spi, ap, toUInt32 nls) = (spi, ap, nls)
  rw [toUInt32_of' hn]

/-- Parameters that were made by the constructors, whose matrix can be printed, and which satisfy what the constructors do not verify, are sound. -/
theorem covParams_sound {p : CovParams} (h : Make.CovParamsBuilt p) (hi : Make.CovParamsInts p) (hr : Make.CovReadable p) (hm : ∀ m, matrixOf p = some m → Faithful m) :
    p.Sound := by
  cases h with
  | limitedSingle hl h =>
    unfold Make.limitedSingle at h
    split at h
    · rename_i hc
      cases h
      exact ⟨⟨fits0, fits0, fits_toInt32 _, fits_ofBool _⟩, rfl, ⟨optC_isSome (fun _ _ => trivial), count32 hi.1, fun l hl' => ⟨list_fits (hi.2 l hl'), limited_ok (hl l hl')⟩⟩, hc⟩
    · cases h
  | limitedMulti hl h =>
    unfold Make.limitedMulti at h
    split at h
    · rename_i hc
      cases h
      exact ⟨⟨fits0, fits0, fits_toInt32 _, fits_ofBool _⟩, rfl, ⟨optC_isSome (fun _ _ => trivial), count32 hi.1, fun l hl' => ⟨list_fits (hi.2 l hl'), limited_ok (hl l hl')⟩⟩, hc⟩
    · cases h
  | generalSingle hn hs hl =>
    exact general_sound hn (fun _ _ => trivial) hi.1.1 (fun l hl' => ⟨list_fits (hi.1.2 l hl'), shortBw_ok (hs l hl')⟩) hi.2.1
      (fun l hl' => ⟨list_fits (hi.2.2 l hl'), long_ok (hl l hl') (hr l hl')⟩)
  | generalMulti hn hs hl =>
    exact general_sound hn (fun _ _ => trivial) hi.1.1 (fun l hl' => ⟨list_fits (hi.1.2 l hl'), shortBw_ok (hs l hl')⟩) hi.2.1
      (fun l hl' => ⟨list_fits (hi.2.2 l hl'), long_ok (hl l hl') (hr l hl')⟩)
  | generalReichMoore hn hd hs hl =>
    exact general_sound hn (dap_valid hi.1) hi.2.1.1 (fun l hl' => ⟨list_fits (hi.2.1.2 l hl'), shortRm_ok (hs l hl')⟩) hi.2.2.1
      (fun l hl' => ⟨list_fits (hi.2.2.2 l hl'), long_ok (hl l hl') (hr l hl')⟩)
  | generalRml hs =>
    refine general_sound ⟨by omega, by omega⟩ (fun _ h => by cases h) hi.1 (fun b hb => ?_) (by simp) (fun l hl' => by cases hl')
    obtain ⟨i1, i2⟩ := hi.2 b hb
    obtain ⟨s1, _, s2⟩ := hs b hb
    refine ⟨⟨fits_toInt32 _, fits0, fits0, fits0⟩, rfl, ⟨count32 i1.1, fun l hl' => ?_⟩, list_fits i2, triangle_ok s2⟩
    obtain ⟨_, _, s3⟩ := s1 l hl'
    exact ⟨list_fits (i1.2 l hl'), shortParameters_ok s3⟩
  | compactSingle hp _ => exact ⟨fits0, fits0, fun _ _ => trivial, ⟨list_fits hi, compactBw_ok hp⟩, hm _ rfl⟩
  | compactMulti hp _ => exact ⟨fits0, fits0, fun _ _ => trivial, ⟨list_fits hi, compactBw_ok hp⟩, hm _ rfl⟩
  | compactReichMoore hd hp _ => exact ⟨fits_ofBool _, fits0, dap_valid hi.1, ⟨list_fits hi.2, compactRm_ok hp⟩, hm _ rfl⟩
  | compactRml hd hp _ =>
    refine ⟨fits_ofBool _, fits_uint' (toUInt32_range _), fun d h => ?_, compactRml_valid hp hi.1 hi.2.1 hi.2.2 hr.2, hm _ rfl⟩
    have := hr.1
    simp only [Make.compactRml] at this h
    rw [this] at h; cases h
  | unresolved hl h =>
    refine ⟨⟨fits0, fits0, fits_toInt32 _, fits0⟩, rfl, ⟨count32 hi.1.1, fun l hl' => ⟨list_fits (hi.1.2 l hl'), ?_⟩⟩, list_fits hi.2, triangle_ok h⟩
    obtain ⟨_, _, _, _, _, _, _, _, hq⟩ := hl l hl'
    unfold UnresolvedCovLValue.make at hq
    simp only at hq
    split at hq
    · cases hq
    obtain ⟨rfl, hv⟩ := built_list hq
    exact hv

/-! ### ranges -/

/-- The constructor of the resonance range accepts NAPS 0 and 1 without covariances of the scattering radius, and NAPS 0 to 2 with them, which the R-matrix limited parameters
    (LRF = 7) must not have; it throws otherwise. -/
theorem C61_covRange {el eh : Dbl} {naps : Int} {parameters : CovParams} {radius : Option (Unit × List LIST)} :
    let ok := match radius with
      | none => naps = 0 ∨ naps = 1
      | some _ => (naps = 0 ∨ naps = 1 ∨ naps = 2) ∧ parameters.type ≠ .generalRML ∧ parameters.type ≠ .compactRML
    (ok → Make.covRange el eh naps parameters radius = .ok ⟨el, eh, naps, parameters, radius⟩) ∧
    (¬ok → Make.covRange el eh naps parameters radius = .error .exc) := by
  unfold Make.covRange
  cases radius with
  | none =>
    have : covOptionsOk (Option.isSome (none : Option (Unit × List LIST))) naps parameters.type.lru parameters.type.lrf ↔ naps = 0 ∨ naps = 1 := by
      unfold covOptionsOk; simp; omega
    exact ⟨fun h => if_pos (this.mpr h), fun h => if_neg (fun h' => h (this.mp h'))⟩
  | some r =>
    have : covOptionsOk (some r).isSome naps parameters.type.lru parameters.type.lrf ↔
        (naps = 0 ∨ naps = 1 ∨ naps = 2) ∧ parameters.type ≠ .generalRML ∧ parameters.type ≠ .compactRML := by
      have e : (parameters.type.lru ≠ 0 ∧ ¬(parameters.type.lru = 1 ∧ parameters.type.lrf = 7)) ↔ (parameters.type ≠ .generalRML ∧ parameters.type ≠ .compactRML) := by
        cases parameters.type <;> decide
      unfold covOptionsOk
      simp only [Option.isSome_some, Bool.true_eq_false, false_implies, true_and, forall_const]
      rw [e]
      constructor
      · rintro ⟨h1, h2⟩
        exact ⟨by omega, h2⟩
      · rintro ⟨h1, h2⟩
        exact ⟨by omega, h2⟩
    exact ⟨fun h => if_pos (this.mpr h), fun h => if_neg (fun h' => h (this.mp h'))⟩

theorem covRange_sound {r : CovRange} (h : Make.CovRangeBuilt r) (hi : Make.CovRangeInts r) (hr : Make.CovReadable r.parameters)
    (hm : ∀ m, matrixOf r.parameters = some m → Faithful m) : r.Sound := by
  obtain ⟨el, eh, naps, parameters, radius, hp, hd, h⟩ := h
  unfold Make.covRange at h
  split at h
  · rename_i ho
    cases h
    refine ⟨⟨?_, fun x hx => ?_, ho⟩, covParams_sound hp hi.1 hr hm⟩
    · have h1 := ho.1
      have h2 := ho.2.1
      simp only at h1 h2 ⊢
      cases hc : radius.isSome
      · have := h1 hc; exact ⟨by omega, by omega⟩
      · have := h2 hc; exact ⟨by omega, by omega⟩
    · obtain ⟨data, d1, rfl⟩ := hd x hx
      have hs := hi.2 _ hx
      exact ⟨⟨fits0, fits0, fits0, fits_toInt32 _⟩, rfl, count32 hs.1, fun l hl => explicit_valid (d1 l hl) (hs.2 l hl)⟩
  · cases h

/-! ### the section -/

theorem mf32_sound {za : Int} {awr : Dbl} {isotopes : List CovIsotope} {s : Sect (List CovIsotope)}
    (hb : ∀ x ∈ isotopes, ∀ r ∈ x.ranges, Make.CovRangeBuilt r) (h : Make.mf32mt151 za awr isotopes = .ok s)
    (hr : ∀ x ∈ isotopes, ∀ r ∈ x.ranges, Make.CovReadable r.parameters) (hm : ∀ m ∈ matrices s, Faithful m) (h1 : IsInt32 za)
    (hi : SeqInts (fun x => SeqInts Make.CovRangeInts x.ranges) isotopes) : ResCov.SectSound s := by
  obtain ⟨hd, e1, e2, e3, hz, ha, _⟩ := build_ok h
  have hd' : 1 ≤ asInt isotopes.length ∧ isotopes = s.data := by
    by_cases hc : 1 ≤ asInt isotopes.length
    · rw [if_pos hc] at hd
      exact ⟨hc, Except.ok.inj hd⟩
    · rw [if_neg hc] at hd; cases hd
  have e : s = ⟨za, awr, 151, isotopes⟩ := by
    obtain ⟨_, hdd⟩ := hd'
    cases s
    simp only at e1 e2 e3 hdd
    simp only [mf32mt151, Option.getD] at e3
    subst e1 e2 e3 hdd; rfl
  subst e
  refine ⟨hz, h1, ha, rfl, hi.1, ?_, fun x hx => ⟨(hi.2 x hx).1, fun r hr' => ?_⟩⟩
  · have := seq_count hi.1
    have := hd'.1
    show 1 ≤ isotopes.length
    omega
  · refine covRange_sound (hb x hx r hr') ((hi.2 x hx).2 r hr') (hr x hx r hr') fun m hm' => hm m ?_
    simp only [matrices, List.mem_flatMap]
    exact ⟨x, hx, r, hr', by rw [hm']; simp⟩

/-- Covariances of resonance parameters (MF32 MT151): the section has the isotopes that were given.  It can be written and read back, with the correlations of the compact
    matrices rounded to NDIGIT digits, if these matrices can be printed (NDIGIT is not 3, the numbers fit and in each row the columns increase) and with what the constructors
    do not verify: C61_cov_long_range, C61_cov_spin_groups, C61_cov_rml_radius, C56_ndigit3, C56_unsorted.  Hence the name. -/
theorem C61_mf32mt151_partial {za : Int} {awr : Dbl} {isotopes : List CovIsotope} {s : Sect (List CovIsotope)}
    (hb : ∀ x ∈ isotopes, ∀ r ∈ x.ranges, Make.CovRangeBuilt r) (h : Make.mf32mt151 za awr isotopes = .ok s) :
    s = ⟨za, awr, 151, isotopes⟩ ∧
    ((∀ x ∈ isotopes, ∀ r ∈ x.ranges, Make.CovReadable r.parameters) → (∀ m ∈ matrices s, Faithful m) → IsInt32 za →
      SeqInts (fun x => SeqInts Make.CovRangeInts x.ranges) isotopes → Reps (mf32mt151.realsSect s) → ∀ mat : Int, 1 ≤ mat → mat ≤ 9999 →
      ∃ txt, mf32mt151.print s mat 32 = .ok txt ∧ ∀ rest line,
        mf32mt151.parse ⟨txt ++ rest, line⟩ = .ok (roundedSect s, ⟨rest, line + (mf32mt151.NC s + 1 + rangeCount s : Nat)⟩)) := by
  obtain ⟨hd, e1, e2, e3, hz, ha, _⟩ := build_ok h
  have hd' : 1 ≤ asInt isotopes.length ∧ isotopes = s.data := by
    by_cases hc : 1 ≤ asInt isotopes.length
    · rw [if_pos hc] at hd
      exact ⟨hc, Except.ok.inj hd⟩
    · rw [if_neg hc] at hd; cases hd
  have e : s = ⟨za, awr, 151, isotopes⟩ := by
    obtain ⟨_, hdd⟩ := hd'
    cases s
    simp only at e1 e2 e3 hdd
    simp only [mf32mt151, Option.getD] at e3
    subst e1 e2 e3 hdd; rfl
  exact ⟨e, fun hr hm h1 hi hreps mat m1 m2 => ResCov.sect_rounded (mf32_sound hb h hr hm h1 hi) hreps m1 (by simp [fits]; omega)⟩

/-- If every correlation is one that NDIGIT digits can say, nothing is rounded. -/
theorem C61_mf32mt151_exact {s : Sect (List CovIsotope)} (hm : ∀ m ∈ matrices s, Faithful m ∧ m.Exact) : roundedSect s = s := by
  have hmat : ∀ m ∈ matrices s, m.rounded = m := by
    intro m hmm
    obtain ⟨h1, h2⟩ := hm m hmm
    have := CorrMatrix.remaining_exact h1.1.range.1 h1.1.range.2 h2
    unfold CorrMatrix.rounded
    rw [show (m.elems.filter (fun e => corrTo m.ndigit e.2.2 != 0)).map (fun e => (e.1, e.2.1, corrOf m.ndigit (corrTo m.ndigit e.2.2))) = m.elems from this]
  have hp : ∀ i ∈ s.data, ∀ r ∈ i.ranges, r.parameters.rounded = r.parameters := by
    intro i hi r hr
    have hin : ∀ m, matrixOf r.parameters = some m → m.rounded = m := fun m hq => hmat m (by
      simp only [matrices, List.mem_flatMap]
      exact ⟨i, hi, r, hr, by rw [hq]; simp⟩)
    cases hq : r.parameters with
    | mk k x =>
      rw [hq] at hin
      cases k
      case compactSLBW => obtain ⟨a, b, c, m⟩ := x; show CovParams.mk .compactSLBW (a, b, c, m.rounded) = _; rw [hin m rfl]
      case compactMLBW => obtain ⟨a, b, c, m⟩ := x; show CovParams.mk .compactMLBW (a, b, c, m.rounded) = _; rw [hin m rfl]
      case compactRM => obtain ⟨a, b, c, m⟩ := x; show CovParams.mk .compactRM (a, b, c, m.rounded) = _; rw [hin m rfl]
      case compactRML => obtain ⟨a, b, c, m⟩ := x; show CovParams.mk .compactRML (a, b, c, m.rounded) = _; rw [hin m rfl]
      all_goals rfl
  have hi : s.data.map CovIsotope.rounded = s.data := by
    refine (List.map_congr_left fun i hi => ?_).trans (List.map_id _)
    show ({ i with ranges := i.ranges.map CovRange.rounded } : CovIsotope) = i
    have : i.ranges.map CovRange.rounded = i.ranges := by
      refine (List.map_congr_left fun r hr => ?_).trans (List.map_id _)
      show ({ r with parameters := r.parameters.rounded } : CovRange) = r
      rw [hp i hi r hr]
    rw [this]
  show ({ s with data := s.data.map CovIsotope.rounded } : Sect (List CovIsotope)) = s
  rw [hi]

/-- The section prints `NC()` lines of 80 columns with its numbers, and SEND. -/
theorem C61_mf32mt151_lines_partial {za : Int} {awr : Dbl} {isotopes : List CovIsotope} {s : Sect (List CovIsotope)}
    (hb : ∀ x ∈ isotopes, ∀ r ∈ x.ranges, Make.CovRangeBuilt r) (h : Make.mf32mt151 za awr isotopes = .ok s)
    (hr : ∀ x ∈ isotopes, ∀ r ∈ x.ranges, Make.CovReadable r.parameters) (hm : ∀ m ∈ matrices s, Faithful m) (hz : IsInt32 za)
    (hi : SeqInts (fun x => SeqInts Make.CovRangeInts x.ranges) isotopes) {mat : Int} (h1 : 1 ≤ mat) (h2 : mat ≤ 9999) :
    ∃ ls, mf32mt151.print s mat 32 = .ok (unlines (ls ++ [endRecord ⟨mat, 32, 0⟩])) ∧ ls.length = mf32mt151.NC s ∧ ∀ l ∈ ls, CanonicalLine ⟨mat, 32, 151⟩ l := by
  have e := (C61_mf32mt151_partial hb h).1
  have hs : ResCov.SectSound s := mf32_sound hb h hr hm hz hi
  have := ResCov.sect_canonSound hs h1 (show fits 4 mat by simp [fits]; omega)
  rw [show s.mt = 151 from hs.2.2.2.1] at this
  exact this

/-- No isotopes: the constructor throws. -/
theorem C61_mf32mt151_empty (za : Int) (awr : Dbl) : Make.mf32mt151 za awr [] = .error .exc := by
  have hc : ¬(1 ≤ asInt ([] : List CovIsotope).length) := by
    rw [show asInt ([] : List CovIsotope).length = 0 from toInt32_of ⟨by simp, by simp⟩]; decide
  cases h : Make.mf32mt151 za awr [] with
  | error e =>
    unfold Make.mf32mt151 SecDef.build at h
    rw [if_neg hc] at h
    split at h
    · rename_i hb
      unfold checkBase at hb
      split at hb
      · cases hb; cases h; rfl
      split at hb
      · cases hb; cases h; rfl
      simp [mf32mt151] at hb
    · cases h; rfl
  | ok s =>
    obtain ⟨hd, _⟩ := build_ok h
    rw [if_neg hc] at hd; cases hd

/-- One isotope, with the ZA of the section and abundance 1: accepted for a valid ZA and AWR. -/
theorem C61_mf32mt151_ranges {za : Int} {awr : Dbl} {lfw : Bool} {ranges : List CovRange} :
    (1 ≤ za → Disco.ltD awr Disco.zero = false → Make.mf32mt151Ranges za awr lfw ranges = .ok ⟨za, awr, 151, [⟨Disco.ofInt za, Disco.ofInt 1, lfw, ranges⟩]⟩) ∧
    (¬(1 ≤ za ∧ Disco.ltD awr Disco.zero = false) → Make.mf32mt151Ranges za awr lfw ranges = .error .exc) := by
  unfold Make.mf32mt151Ranges Make.mf32mt151
  rw [if_pos (by rw [show asInt [Make.covIsotope (Disco.ofInt za) (Disco.ofInt 1) lfw ranges].length = 1 from toInt32_of ⟨by simp, by simp⟩]; decide)]
  constructor
  · intro h1 h2
    exact build_accepts ⟨h1, h2, fun h => by cases h⟩
  · intro h
    unfold SecDef.build
    have : checkBase za awr (if mf32mt151.fixedMT.isSome = true then none else some 151) = .error .exc := by
      unfold checkBase
      split
      · rfl
      split
      · rfl
      · rename_i h1 h2
        exact absurd ⟨by omega, by simpa using h2⟩ h
    rw [this]

end Props
end ENDFtk

import Verif.Section.Build4
import Verif.Props.Build2
import Verif.Props.Getters7
/-
  C61, part 4: section 152 of file 2, files 31, 33, 34, 35 and 40.
-/
set_option linter.unusedVariables false
set_option linter.unusedSectionVars false
set_option linter.unusedSimpArgs false
namespace ENDFtk
namespace Props
variable [Disco]

/-! ### MF2 MT152 -/

theorem dilution_ok {temperature : Dbl} {dilutions energies : List Dbl} {total elastic fission capture cwTotal : List (List Dbl)} {l : LIST}
    (h : DilutionTables.make temperature dilutions energies total elastic fission capture cwTotal = .ok l) :
    dilutionSizeOk l ∧ l.c1 = temperature ∧ l.l1 = 5 ∧ l.l2 = dilutions.length ∧ l.n2 = energies.length := by
  unfold DilutionTables.make at h
  simp only at h
  split at h
  · cases h
  split at h
  · cases h
  obtain ⟨rfl, hq⟩ := verified_require h
  exact ⟨hq, rfl, rfl, rfl, rfl⟩

theorem dilution1_ok {temperature : Dbl} {energies total elastic fission capture cwTotal : List Dbl} {l : LIST}
    (h : DilutionTables.make1 temperature energies total elastic fission capture cwTotal = .ok l) :
    dilutionSizeOk l ∧ l.c1 = temperature ∧ l.l1 = 5 ∧ l.l2 = 1 ∧ l.n2 = energies.length := by
  unfold DilutionTables.make1 at h
  simp only at h
  split at h
  · cases h
  obtain ⟨rfl, hq⟩ := verified_require h
  exact ⟨hq, rfl, rfl, rfl, rfl⟩

/-- Unresolved cross sections (MF2 MT152): what the constructor makes has the flag, the interpolation type and the table of the arrays (whose getters C48 describes). -/
theorem C61_mf2mt152 {za : Int} {awr : Dbl} {lssf : Bool} {interpolation : Int} {temperature : Dbl} {dilutions energies : List Dbl}
    {total elastic fission capture cwTotal : List (List Dbl)} {s : Sect Dilution}
    (h : Make.mf2mt152 za awr lssf interpolation temperature dilutions energies total elastic fission capture cwTotal = .ok s) :
    (∃ l, DilutionTables.make temperature dilutions energies total elastic fission capture cwTotal = .ok l ∧ s = ⟨za, awr, 152, ⟨lssf, interpolation, l⟩⟩) ∧
    (IsInt32 za → IsInt32 interpolation → s.data.data.Ints → ReadsBack .mf2mt152 s) := by
  have h' := h
  obtain ⟨hd, e1, e2, e3, _⟩ := build_ok h
  obtain ⟨l, hl, hd⟩ := bind_eq hd
  have e : s = ⟨za, awr, 152, ⟨lssf, interpolation, l⟩⟩ := by
    cases s; simp only at e1 e2 e3; simp only [mf2mt152, Option.getD] at e3; cases hd; subst e1 e2 e3; rfl
  refine ⟨⟨l, hl, e⟩, fun hz hi hj => built_round (T := .mf2mt152) h' hz (by omega) ?_ trivial⟩
  subst e
  exact ⟨hi, list_fits hj, (dilution_ok hl).1⟩

/-- The same for a single dilution. -/
theorem C61_mf2mt152_single {za : Int} {awr : Dbl} {lssf : Bool} {interpolation : Int} {temperature : Dbl} {energies total elastic fission capture cwTotal : List Dbl}
    {s : Sect Dilution} (h : Make.mf2mt152Single za awr lssf interpolation temperature energies total elastic fission capture cwTotal = .ok s) :
    (∃ l, DilutionTables.make1 temperature energies total elastic fission capture cwTotal = .ok l ∧ s = ⟨za, awr, 152, ⟨lssf, interpolation, l⟩⟩) ∧
    (IsInt32 za → IsInt32 interpolation → s.data.data.Ints → ReadsBack .mf2mt152 s) := by
  have h' := h
  obtain ⟨hd, e1, e2, e3, _⟩ := build_ok h
  obtain ⟨l, hl, hd⟩ := bind_eq hd
  have e : s = ⟨za, awr, 152, ⟨lssf, interpolation, l⟩⟩ := by
    cases s; simp only at e1 e2 e3; simp only [mf2mt152, Option.getD] at e3; cases hd; subst e1 e2 e3; rfl
  refine ⟨⟨l, hl, e⟩, fun hz hi hj => built_round (T := .mf2mt152) h' hz (by omega) ?_ trivial⟩
  subst e
  exact ⟨hi, list_fits hj, (dilution1_ok hl).1⟩

/-! ### components of the covariance files -/

theorem pairs_explicit {l : LIST} (hl : IsInt32 l.l2) (h : covariancePairsCheck l = .ok ()) : explicitCheck l = .ok () := by
  unfold explicitCheck
  rw [if_pos ?_]
  · exact h
  · unfold covariancePairsCheck at h
    simp only at h
    rw [toInt32_of hl] at h
    apply Decidable.byContradiction
    intro hn
    simp only [not_or] at hn
    obtain ⟨n1, n2, n3, n4, n5, n6, n7⟩ := hn
    rw [if_neg (by simp [n1, n2, n3, n6, n7]), if_neg (by simp [n4, n5])] at h
    cases h

theorem square_explicit {l : LIST} (hl : l.l2 = 5) (h : squareMatrixCheck l = .ok ()) : explicitCheck l = .ok () := by
  unfold explicitCheck
  rw [if_neg (by omega), if_pos hl]
  exact h

theorem rectangular_explicit {l : LIST} (hl : l.l2 = 6) (h : rectangularMatrixCheck l = .ok ()) : explicitCheck l = .ok () := by
  unfold explicitCheck
  rw [if_neg (by omega), if_neg (by omega), if_pos hl]
  exact h

theorem explicit_valid {l : LIST} (h : Make.ExplicitBuilt l) (hi : l.Ints) : explicitC.Valid l := by
  refine ⟨list_fits hi, ?_⟩
  cases h with
  | pairs hl h =>
    unfold CovariancePairs.make2 at h
    split at h
    · cases h
    obtain ⟨rfl, hv⟩ := verified_ok h
    exact pairs_explicit hl hv
  | pairs4 hl h =>
    unfold CovariancePairs.make4 at h
    split at h
    · cases h
    split at h
    · cases h
    obtain ⟨rfl, hv⟩ := verified_ok h
    exact pairs_explicit hl hv
  | square h =>
    obtain ⟨rfl, hv⟩ := verified_ok h
    exact square_explicit rfl hv
  | rectangular h =>
    unfold RectangularMatrix.make at h
    split at h
    · cases h
    obtain ⟨rfl, hv⟩ := verified_ok h
    exact rectangular_explicit rfl hv

theorem derived_valid {d : Derived} (h : Make.DerivedBuilt d) (hi : d.list.Ints) : derivedC.Valid d := by
  refine ⟨list_fits hi, ?_⟩
  cases h with
  | redundant h =>
    unfold DerivedRedundant.make at h
    split at h
    · cases h
    cases h
    trivial
  | ratio hl h =>
    unfold DerivedRatio.make at h
    split at h
    · cases h
    cases h
    exact hl

theorem reactionBlock_valid {b : ReactionBlock} (h : Make.ReactionBuilt b) (hi : Make.ReactionInts b) : reactionBlockC.Valid b := by
  obtain ⟨i1, i2, i3, i4, i5, i6⟩ := hi
  exact ⟨i1, i2, i3, i4, i5.1, i6.1, fun x hx => derived_valid (h.1 x hx) (i5.2 x hx), fun x hx => explicit_valid (h.2 x hx) (i6.2 x hx)⟩

/-! ### MF31 and MF33 -/

/-- Covariances of fission neutron multiplicities (MF31). -/
theorem C61_mf31 {mt za : Int} {awr : Dbl} {reactions : List ReactionBlock} {s : Sect (List ReactionBlock)} (hb : ∀ x ∈ reactions, Make.ReactionBuilt x)
    (h : Make.mf31 mt za awr reactions = .ok s) :
    s = ⟨za, awr, mt, reactions⟩ ∧ (IsInt32 za → mt ≤ 999 → SeqInts Make.ReactionInts reactions → ReadsBack .mf31 s) := by
  have e : s = ⟨za, awr, mt, reactions⟩ := build_eq h
  refine ⟨e, fun hz hm hi => built_round (T := .mf31) h hz hm ?_ trivial⟩
  subst e
  exact ⟨hi.1, fun x hx => reactionBlock_valid (hb x hx) (hi.2 x hx)⟩

/-- Covariances of cross sections (MF33). -/
theorem C61_mf33 {mt za : Int} {awr : Dbl} {reactions : List ReactionBlock} {s : Sect (Int × List ReactionBlock)} (hb : ∀ x ∈ reactions, Make.ReactionBuilt x)
    (h : Make.mf33 mt za awr reactions = .ok s) :
    s = ⟨za, awr, mt, (0, reactions)⟩ ∧ (IsInt32 za → mt ≤ 999 → SeqInts Make.ReactionInts reactions → ReadsBack .mf33 s) := by
  have e : s = ⟨za, awr, mt, (0, reactions)⟩ := build_eq h
  refine ⟨e, fun hz hm hi => built_round (T := .mf33) h hz hm ?_ trivial⟩
  subst e
  exact ⟨show IsInt32 0 by decide, hi.1, fun x hx => reactionBlock_valid (hb x hx) (hi.2 x hx)⟩

/-- A component of a lumped reaction (MF33). -/
theorem C61_mf33_lumped {mt za : Int} {awr : Dbl} {mtl : Int} {s : Sect (Int × List ReactionBlock)} (h : Make.mf33Lumped mt za awr mtl = .ok s) :
    s = ⟨za, awr, mt, (mtl, [])⟩ ∧ (IsInt32 za → mt ≤ 999 → IsInt32 mtl → ReadsBack .mf33 s) := by
  have e : s = ⟨za, awr, mt, (mtl, [])⟩ := build_eq h
  refine ⟨e, fun hz hm hi => built_round (T := .mf33) h hz hm ?_ trivial⟩
  subst e
  exact ⟨hi, by simp, fun x hx => by cases hx⟩

/-! ### MF34 -/

/-- A reaction block of file 34 is made exactly if the number of Legendre blocks is NL (NL + 1) / 2 with NL1 = NL (for MT1 = MT) or NL NL1; if the product
    that is computed does not fit an `int`, the behaviour is undefined. -/
theorem C61_reactionBlock34 {mt mt1 nl nl1 : Int} {blocks : List LegendreBlock} (hn : (blocks.length : Int) < 2147483648) :
    let ok := (mt = mt1 → nl = nl1 ∧ (nl * (nl + 1)) / 2 = blocks.length) ∧ (mt ≠ mt1 → nl * nl1 = blocks.length)
    let overflow := (mt = mt1 ∧ nl = nl1 ∧ 2147483648 ≤ nl * (nl + 1)) ∨ (mt ≠ mt1 ∧ (2147483648 ≤ nl * nl1 ∨ nl * nl1 < -2147483648))
    (overflow → Make.reactionBlock34 mt mt1 nl nl1 blocks = .error .ub) ∧
    (ok → ¬overflow → Make.reactionBlock34 mt mt1 nl nl1 blocks = .ok ⟨mt1, nl, nl1, blocks⟩) ∧
    (¬ok → ¬overflow → Make.reactionBlock34 mt mt1 nl nl1 blocks = .error .exc) := by
  have hnn : 0 ≤ nl * (nl + 1) := by
    by_cases h : 0 ≤ nl
    · exact Int.mul_nonneg h (by omega)
    · exact Int.mul_nonneg_of_nonpos_of_nonpos (by omega) (by omega)
  have hs : asInt blocks.length = blocks.length := (seq_count hn).symm ▸ rfl
  have kov : legendreSizeOv nl nl1 (mt == mt1) ↔
      (mt = mt1 ∧ nl = nl1 ∧ 2147483648 ≤ nl * (nl + 1)) ∨ (mt ≠ mt1 ∧ (2147483648 ≤ nl * nl1 ∨ nl * nl1 < -2147483648)) := by
    unfold legendreSizeOv Over
    by_cases hm : mt = mt1
    · rw [if_pos (by simpa using hm)]; omega
    · rw [if_neg (by simpa using hm)]; omega
  have key : legendreSizeOk nl nl1 (asInt blocks.length) (mt == mt1) = true ↔
      ((mt = mt1 → nl = nl1 ∧ (nl * (nl + 1)) / 2 = blocks.length) ∧ (mt ≠ mt1 → nl * nl1 = blocks.length)) ∧
      ¬((mt = mt1 ∧ nl = nl1 ∧ 2147483648 ≤ nl * (nl + 1)) ∨ (mt ≠ mt1 ∧ (2147483648 ≤ nl * nl1 ∨ nl * nl1 < -2147483648))) := by
    unfold legendreSizeOk
    rw [hs, Int.tdiv_eq_ediv_of_nonneg hnn]
    by_cases hm : mt = mt1
    · simp only [hm, beq_self_eq_true, if_true, Over]
      simp only [Bool.and_eq_true, beq_iff_eq, Bool.not_eq_true', decide_eq_false_iff_not]
      simp
      omega
    · simp [hm]
      omega
  dsimp only
  unfold Make.reactionBlock34
  refine ⟨fun ov => ?_, fun ok ov => ?_, fun ok ov => ?_⟩
  · rw [if_neg (fun h => (key.mp h).2 ov), if_pos (kov.mpr ov)]
  · rw [if_pos (key.mpr ⟨ok, ov⟩)]
  · rw [if_neg (fun h => ok (key.mp h).1), if_neg (fun h => ov (kov.mp h))]

theorem legendreBlock_valid {b : LegendreBlock} (h : ∀ l ∈ b.data, Make.ExplicitBuilt l) (hi : Make.LegendreBlockInts b) : legendreBlockC.Valid b :=
  ⟨hi.1, hi.2.1, hi.2.2.1, hi.2.2.2.1, fun x hx => explicit_valid (h x hx) (hi.2.2.2.2 x hx)⟩

/-- Covariances of angular distributions (MF34), if the blocks were made for the MT number of the section (the constructor of the section does not compare it). -/
theorem C61_mf34_partial {mt za : Int} {awr : Dbl} {ltt : Int} {reactions : List ReactionBlock34} {s : Sect (Int × List ReactionBlock34)}
    (h : Make.mf34 mt za awr ltt reactions = .ok s) :
    s = ⟨za, awr, mt, (ltt, reactions)⟩ ∧
    ((∀ x ∈ reactions, Make.Reaction34Built mt x) → IsInt32 za → mt ≤ 999 → IsInt32 ltt → SeqInts Make.Reaction34Ints reactions → ReadsBack .mf34 s) := by
  have e : s = ⟨za, awr, mt, (ltt, reactions)⟩ := build_eq h
  refine ⟨e, fun hb hz hm hl hi => built_round (T := .mf34) h hz hm ?_ ?_⟩
  · subst e
    refine ⟨hl, hi.1, fun x hx => ?_⟩
    obtain ⟨i1, i2, i3, i4⟩ := hi.2 x hx
    obtain ⟨_, _, _, bl, hd, hq⟩ := hb x hx
    unfold Make.reactionBlock34 at hq
    split at hq
    · cases hq
      exact ⟨i1, i2, i3, i4.1, fun y hy => legendreBlock_valid (hd y hy) (i4.2 y hy)⟩
    · cases hq
  · subst e
    intro x hx
    have hn := (hi.2 x hx).2.2.2.1
    obtain ⟨_, _, _, bl, hd, hq⟩ := hb x hx
    unfold Make.reactionBlock34 at hq
    split at hq
    · rename_i hk
      cases hq
      rw [← seq_count hn] at hk
      exact hk
    · cases hq

/-! ### MF35 -/

/-- Covariances of energy distributions (MF35). -/
theorem C61_mf35 {mt za : Int} {awr : Dbl} {blocks : List LIST} {s : Sect (List LIST)}
    (hb : ∀ x ∈ blocks, ∃ e1 e2 energies values, SquareMatrix.make35 e1 e2 energies values = .ok x) (h : Make.mf35 mt za awr blocks = .ok s) :
    s = ⟨za, awr, mt, blocks⟩ ∧ (IsInt32 za → mt ≤ 999 → SeqInts LIST.Ints blocks → ReadsBack .mf35 s) := by
  have e : s = ⟨za, awr, mt, blocks⟩ := build_eq h
  refine ⟨e, fun hz hm hi => built_round (T := .mf35) h hz hm ?_ trivial⟩
  subst e
  refine ⟨hi.1, fun x hx => ⟨list_fits (hi.2 x hx), ?_⟩⟩
  obtain ⟨_, _, _, _, hq⟩ := hb x hx
  obtain ⟨rfl, hv⟩ := verified_ok hq
  exact hv

/-! ### MF40 -/

/-- Covariances of the production of radioactive nuclei (MF40). -/
theorem C61_mf40 {mt za : Int} {awr : Dbl} {lis : Int} {blocks : List LevelBlock} {s : Sect (Int × List LevelBlock)}
    (hb : ∀ x ∈ blocks, ∀ r ∈ x.reactions, Make.ReactionBuilt r) (h : Make.mf40 mt za awr lis blocks = .ok s) :
    s = ⟨za, awr, mt, (lis, blocks)⟩ ∧ (IsInt32 za → mt ≤ 999 → IsInt32 lis → SeqInts Make.LevelInts blocks → ReadsBack .mf40 s) := by
  have e : s = ⟨za, awr, mt, (lis, blocks)⟩ := build_eq h
  refine ⟨e, fun hz hm hl hi => built_round (T := .mf40) h hz hm ?_ trivial⟩
  subst e
  refine ⟨hl, hi.1, fun x hx => ?_⟩
  obtain ⟨i1, i2, i3⟩ := hi.2 x hx
  exact ⟨i1, i2, i3.1, fun y hy => reactionBlock_valid (hb x hx y hy) (i3.2 y hy)⟩

end Props
end ENDFtk

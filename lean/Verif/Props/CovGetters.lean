import Verif.Section.Getters32
import Verif.Props.Layout3
/-
  C60: the components of section 32/151 that keep their data in a LIST record: the arrays given to the constructor are the arrays returned by the getters,
  arrays of inconsistent sizes are rejected, and the getters of a component that was read return the values the ENDF-6 format has at these places
  (for 32/151 what C48 and C59 say for the other sections); `resonances()` gives the same values row by row.

  Specification: see Props/Getters.lean (`.ok a` on the right of a getter: the array given), Props/Layout.lean (`Columns`, `Blocks`, `Value`) and
  `RowGetters data k n g gs`: `g` returns `n` rows, and the getter with number `j` of row `i` returns value `k i + j` of the list.
-/
set_option linter.unusedVariables false
set_option linter.unusedSectionVars false
set_option linter.unusedSimpArgs false
namespace ENDFtk.Props
open ENDFtk
variable [Disco]

def RowGetters (data : List Dbl) (k n : Nat) (g : Except Err (List (List Dbl))) (gs : List (Nat × (List Dbl → Except Err Dbl))) : Prop :=
  ∃ rows, g = .ok rows ∧ rows.length = n ∧ ∀ i < n, ∃ c, rows[i]? = some c ∧ ∀ p ∈ gs, ∃ x, p.2 c = .ok x ∧ data[k * i + p.1]? = some x

/-! ### auxiliary facts -/

theorem rowGetters_of {data : List Dbl} {k n : Nat} {k' : Int} {gs : List (Nat × (List Dbl → Except Err Dbl))} (hk : 0 < k) (hl : data.length = k * n) (hk' : k' = k)
    (hg : ∀ p ∈ gs, p.1 < k ∧ ∀ c, p.2 c = atE c p.1) : RowGetters data k n (resonanceRows k' data) gs := by
  subst hk'
  have hlen : (chunkL k data).length = n := by
    rw [chunkL_length, hl]
    have : k * n + k - 1 = k * n + (k - 1) := by omega
    rw [this, Nat.mul_add_div hk, Nat.div_eq_of_lt (by omega)]; rfl
  refine ⟨chunkL k data, chunkE_ok (by omega), hlen, fun i hi => ?_⟩
  have h1 := mul_succ_le (k := k) hi
  have e1 : k * i = i * k := Nat.mul_comm _ _
  have e2 : k * n = n * k := Nat.mul_comm _ _
  have hsz : i * k + k ≤ data.length := by
    have : (i + 1) * k = i * k + k := Nat.succ_mul _ _
    have : (i + 1) * k ≤ n * k := Nat.mul_le_mul_right _ hi
    omega
  refine ⟨(data.drop (i * k)).take k, ?_, fun p hp => ?_⟩
  · rw [chunkL_getElem? hk, if_pos (by omega)]
  · obtain ⟨h2, h3⟩ := hg p hp
    refine ⟨data[k * i + p.1]'(by omega), ?_, List.getElem?_eq_getElem _⟩
    rw [h3]; unfold atE
    rw [List.getElem?_take_of_lt h2, List.getElem?_drop, List.getElem?_eq_getElem (by omega)]
    simp only [e1]

/-- only the first `n` elements of each array are used -/
theorem rows_congr {n : Nat} {cols cols' : List (List Dbl)} (h : cols.length = cols'.length)
    (hc : ∀ (j i : Nat) (a b : List Dbl), cols[j]? = some a → cols'[j]? = some b → i < n → a.getD i Disco.zero = b.getD i Disco.zero) :
    rows n cols = rows n cols' := by
  unfold rows
  rw [List.flatMap_def, List.flatMap_def]
  congr 1
  apply List.map_congr_left
  intro i hi
  have hi : i < n := by simpa using hi
  apply List.ext_getElem (by simp [h])
  intro j h1 h2
  simp only [List.getElem_map]
  exact hc j i _ _ (List.getElem?_eq_getElem (by simpa using h1)) (List.getElem?_eq_getElem (by simpa using h2)) hi

theorem getD_take {l : List Dbl} {n i : Nat} (h : i < n) : (l.take n).getD i Disco.zero = l.getD i Disco.zero := by
  rw [List.getD_eq_getElem?_getD, List.getD_eq_getElem?_getD, List.getElem?_take_of_lt h]

theorem same_of {α : Type} {L : List (List α)} {n : Nat} (h : ¬∃ c ∈ L, c.length ≠ n) : ∀ c ∈ L, c.length = n :=
  fun c hc => Decidable.byContradiction fun h' => h ⟨c, hc, h'⟩
theorem not_same {α : Type} {L : List (List α)} {n : Nat} (h : ∀ c ∈ L, c.length = n) : ¬∃ c ∈ L, c.length ≠ n :=
  fun ⟨c, hc, h'⟩ => h' (h c hc)

/-! ### LCOMP = 0 -/

section
variable {awri : Dbl} {lm : Int} {er aj gt gn gg gf de2 dn2 dndg dg2 dndf dgdf df2 djdn djdg djdf dj2 : List Dbl} {l : LIST}

theorem limited_rows {n : Nat} :
    rows n [er, aj, gt, gn, gg, gf, de2, dn2, dndg, dg2, dndf, dgdf, df2, djdn, djdg, djdf, dj2, List.replicate n Disco.zero] =
    rows n [er, aj, gt, gn, gg, gf, de2, dn2, dndg, dg2, dndf, dgdf, df2, djdn, djdg, djdf.take n, dj2, List.replicate n Disco.zero] := by
  unfold rows
  rw [List.flatMap_def, List.flatMap_def]
  congr 1
  apply List.map_congr_left
  intro i hi
  have hi : i < n := by simpa using hi
  simp only [List.map_cons, List.map_nil, getD_take hi]

/-- The arrays of a resonance: those given to the constructor.  Of DJDF, whose size is not verified, the first ones are returned. -/
theorem C60_limited (h : LimitedBreitWignerLValue.make awri lm er aj gt gn gg gf de2 dn2 dndg dg2 dndf dgdf df2 djdn djdg djdf dj2 = .ok l) :
    LimitedBreitWignerLValue.atomicWeightRatio l = awri ∧ (IsInt32 lm → LimitedBreitWignerLValue.orbitalMomentum l = lm) ∧
    (Small l → LimitedBreitWignerLValue.numberResonances l = er.length) ∧
    LimitedBreitWignerLValue.resonanceEnergies l = .ok er ∧ LimitedBreitWignerLValue.spinValues l = .ok aj ∧ LimitedBreitWignerLValue.totalWidths l = .ok gt ∧
    LimitedBreitWignerLValue.neutronWidths l = .ok gn ∧ LimitedBreitWignerLValue.gammaWidths l = .ok gg ∧ LimitedBreitWignerLValue.fissionWidths l = .ok gf ∧
    LimitedBreitWignerLValue.resonanceEnergyVariances l = .ok de2 ∧ LimitedBreitWignerLValue.neutronWidthVariances l = .ok dn2 ∧
    LimitedBreitWignerLValue.neutronAndGammaWidthCovariances l = .ok dndg ∧ LimitedBreitWignerLValue.gammaWidthVariances l = .ok dg2 ∧
    LimitedBreitWignerLValue.neutronAndFissionWidthCovariances l = .ok dndf ∧ LimitedBreitWignerLValue.gammaAndFissionWidthCovariances l = .ok dgdf ∧
    LimitedBreitWignerLValue.fissionWidthVariances l = .ok df2 ∧ LimitedBreitWignerLValue.spinAndNeutronWidthCovariances l = .ok djdn ∧
    LimitedBreitWignerLValue.spinAndGammaWidthCovariances l = .ok djdg ∧
    LimitedBreitWignerLValue.spinAndFissionWidthCovariances l = .ok (djdf.take er.length) ∧ LimitedBreitWignerLValue.spinVariances l = .ok dj2 ∧
    (l.Fits → limitedLValueC.Valid l) := by
  unfold LimitedBreitWignerLValue.make at h
  simp only at h
  split at h
  · cases h
  split at h
  · cases h
  obtain ⟨rfl, hv⟩ := verified_require h
  rename_i h1 h2
  have hn : er.length ≠ 0 := by
    intro h0
    have := hv.2.1
    simp [h0, toInt32] at this
  have hl : ∀ x ∈ [er, aj, gt, gn, gg, gf, de2, dn2, dndg, dg2, dndf, dgdf, df2, djdn, djdg, djdf.take er.length, dj2, List.replicate er.length Disco.zero],
      x.length = er.length := by
    have h1 := same_of h1
    simp only [List.forall_mem_cons, List.not_mem_nil, false_implies, implies_true, and_true] at h1 ⊢
    have hm : (djdf.take er.length).length = er.length := by rw [List.length_take]; exact Nat.min_eq_left (Nat.not_lt.mp h2)
    simp only [h1, hm, List.length_replicate, and_self]
  have key : ∀ (j : Nat) {c : List Dbl}, [er, aj, gt, gn, gg, gf, de2, dn2, dndg, dg2, dndf, dgdf, df2, djdn, djdg, djdf.take er.length, dj2,
      List.replicate er.length Disco.zero][j]? = some c → column (j : Int) 18 (rows er.length [er, aj, gt, gn, gg, gf, de2, dn2, dndg, dg2, dndf, dgdf, df2, djdn,
        djdg, djdf, dj2, List.replicate er.length Disco.zero]) = .ok c := fun j c hc => by
    rw [limited_rows]; exact col_rows hc hl rfl rfl (.inl hn)
  refine ⟨rfl, fun h => toInt32_of h, fun hs => ?_, key 0 rfl, key 1 rfl, key 2 rfl, key 3 rfl, key 4 rfl, key 5 rfl, key 6 rfl, key 7 rfl, key 8 rfl, key 9 rfl,
    key 10 rfl, key 11 rfl, key 12 rfl, key 13 rfl, key 14 rfl, key 15 rfl, key 16 rfl, fun hf => ⟨hf, hv⟩⟩
  unfold Small LIST.npl at hs
  simp only [rows_length] at hs
  simp only [List.length_cons, List.length_nil] at hs
  exact nat32 (by omega)

/-- What is accepted: at least one resonance, and arrays of the same size; DJDF may be longer, and is read out of bounds if it is shorter. -/
theorem C60_limited_accepts (hs : 18 * (er.length : Int) < 2147483648) :
    let same := ∀ x ∈ [aj, gt, gn, gg, gf, de2, dn2, dndg, dg2, dndf, dgdf, df2, djdn, djdg, dj2], x.length = er.length
    (er ≠ [] ∧ same ∧ er.length ≤ djdf.length →
      ∃ l, LimitedBreitWignerLValue.make awri lm er aj gt gn gg gf de2 dn2 dndg dg2 dndf dgdf df2 djdn djdg djdf dj2 = .ok l) ∧
    (same → djdf.length < er.length →
      LimitedBreitWignerLValue.make awri lm er aj gt gn gg gf de2 dn2 dndg dg2 dndf dgdf df2 djdn djdg djdf dj2 = .error .ub) ∧
    (¬same ∨ er = [] → LimitedBreitWignerLValue.make awri lm er aj gt gn gg gf de2 dn2 dndg dg2 dndf dgdf df2 djdn djdg djdf dj2 = .error .exc) := by
  have hrl : (rows er.length [er, aj, gt, gn, gg, gf, de2, dn2, dndg, dg2, dndf, dgdf, df2, djdn, djdg, djdf, dj2, List.replicate er.length Disco.zero]).length =
    er.length * 18 := rows_length _ _
  have ok : er.length ≠ 0 ↔ limitedLValueOk ⟨awri, Disco.zero, lm, 0, er.length,
      rows er.length [er, aj, gt, gn, gg, gf, de2, dn2, dndg, dg2, dndf, dgdf, df2, djdn, djdg, djdf, dj2, List.replicate er.length Disco.zero]⟩ := by
    unfold limitedLValueOk LIST.npl
    simp only [hrl]
    rw [nat32 (by omega), nat32 (by omega)]
    omega
  have hc : (∀ x ∈ [aj, gt, gn, gg, gf, de2, dn2, dndg, dg2, dndf, dgdf, df2, djdn, djdg, dj2], x.length = er.length) ↔
      ¬∃ c ∈ [aj, gt, gn, gg, gf, de2, dn2, dndg, dg2, dndf, dgdf, df2, djdn, djdg, djdn, dj2], c.length ≠ er.length := by
    refine ⟨fun h => not_same ?_, fun h => ?_⟩
    · simp only [List.forall_mem_cons, List.not_mem_nil, false_implies, implies_true, and_true] at h ⊢
      simp only [h, and_self]
    · have h := same_of h
      simp only [List.forall_mem_cons, List.not_mem_nil, false_implies, implies_true, and_true] at h ⊢
      simp only [h, and_self]
  unfold LimitedBreitWignerLValue.make
  rw [ne_eq, ← List.length_eq_zero_iff]
  simp only
  rw [hc]
  clear hc
  refine ⟨fun h => ?_, fun h h' => ?_, fun h => ?_⟩
  · rw [if_neg h.2.1, if_neg (Nat.not_lt.mpr h.2.2)]
    exact ⟨_, verified_pos (ok.mp h.1)⟩
  · rw [if_neg h, if_pos h']
  · split
    · rfl
    · rename_i h1
      have h0 : er.length = 0 := h.resolve_left (fun h => h h1)
      rw [if_neg (by omega)]
      exact verified_neg fun h' => ok.mpr h' h0

/-- ER, AJ, GT, GN, GG, GF; DE2, DN2, DNDG, DG2, DNDF, DGDF; DF2, DJDN, DJDG, DJDF, DJ2, 0. -/
theorem C60_limited_layout (h : limitedLValueC.Valid l) (hs : Small l) :
    Columns l.data 18 (toInt32 l.n2).toNat 0 [LimitedBreitWignerLValue.resonanceEnergies l, LimitedBreitWignerLValue.spinValues l,
      LimitedBreitWignerLValue.totalWidths l, LimitedBreitWignerLValue.neutronWidths l, LimitedBreitWignerLValue.gammaWidths l,
      LimitedBreitWignerLValue.fissionWidths l, LimitedBreitWignerLValue.resonanceEnergyVariances l, LimitedBreitWignerLValue.neutronWidthVariances l,
      LimitedBreitWignerLValue.neutronAndGammaWidthCovariances l, LimitedBreitWignerLValue.gammaWidthVariances l,
      LimitedBreitWignerLValue.neutronAndFissionWidthCovariances l, LimitedBreitWignerLValue.gammaAndFissionWidthCovariances l,
      LimitedBreitWignerLValue.fissionWidthVariances l, LimitedBreitWignerLValue.spinAndNeutronWidthCovariances l,
      LimitedBreitWignerLValue.spinAndGammaWidthCovariances l, LimitedBreitWignerLValue.spinAndFissionWidthCovariances l,
      LimitedBreitWignerLValue.spinVariances l] ∧
    RowGetters l.data 18 (toInt32 l.n2).toNat (LimitedBreitWignerLValue.resonances l) [(0, LimitedBreitWignerLValue.Resonance.resonanceEnergy),
      (1, LimitedBreitWignerLValue.Resonance.spin), (2, LimitedBreitWignerLValue.Resonance.totalWidth), (3, LimitedBreitWignerLValue.Resonance.neutronWidth),
      (4, LimitedBreitWignerLValue.Resonance.gammaWidth), (5, LimitedBreitWignerLValue.Resonance.fissionWidth),
      (6, LimitedBreitWignerLValue.Resonance.resonanceEnergyVariance), (7, LimitedBreitWignerLValue.Resonance.neutronWidthVariance),
      (8, LimitedBreitWignerLValue.Resonance.neutronAndGammaWidthCovariance), (9, LimitedBreitWignerLValue.Resonance.gammaWidthVariance),
      (10, LimitedBreitWignerLValue.Resonance.neutronAndFissionWidthCovariance), (11, LimitedBreitWignerLValue.Resonance.gammaAndFissionWidthCovariance),
      (12, LimitedBreitWignerLValue.Resonance.fissionWidthVariance), (13, LimitedBreitWignerLValue.Resonance.spinAndNeutronWidthCovariance),
      (14, LimitedBreitWignerLValue.Resonance.spinAndGammaWidthCovariance), (15, LimitedBreitWignerLValue.Resonance.spinAndFissionWidthCovariance),
      (16, LimitedBreitWignerLValue.Resonance.spinVariance)] ∧
    LimitedBreitWignerLValue.atomicWeightRatio l = l.c1 ∧ LimitedBreitWignerLValue.orbitalMomentum l = toInt32 l.l1 ∧
    LimitedBreitWignerLValue.numberResonances l = toInt32 l.n2 := by
  obtain ⟨h1, h2, h3⟩ : limitedLValueOk l := h.2
  rw [small32 hs] at h1 h3
  have hlen : l.data.length = 18 * (toInt32 l.n2).toNat := by omega
  have c : ∀ j < 18, ∃ xs, LimitedBreitWignerLValue.col j l = .ok xs ∧ IsColumn xs l.data j 18 (toInt32 l.n2).toNat := fun j hj => by
    have := column_of (l := l.data) (p := 0) (j := j) (k := 18) (n := (toInt32 l.n2).toNat) (off := j) (k' := 18) (by omega) hj (.inl (by omega)) (by omega) rfl
    rw [Nat.zero_add] at this
    exact this
  refine ⟨⟨c 0 (by decide), c 1 (by decide), c 2 (by decide), c 3 (by decide), c 4 (by decide), c 5 (by decide), c 6 (by decide), c 7 (by decide), c 8 (by decide),
    c 9 (by decide), c 10 (by decide), c 11 (by decide), c 12 (by decide), c 13 (by decide), c 14 (by decide), c 15 (by decide), c 16 (by decide), trivial⟩,
    rowGetters_of (by decide) hlen rfl ?_, rfl, rfl, rfl⟩
  simp only [List.forall_mem_cons, List.not_mem_nil, false_implies, implies_true, and_true]
  exact ⟨⟨by decide, fun _ => rfl⟩, ⟨by decide, fun _ => rfl⟩, ⟨by decide, fun _ => rfl⟩, ⟨by decide, fun _ => rfl⟩, ⟨by decide, fun _ => rfl⟩,
    ⟨by decide, fun _ => rfl⟩, ⟨by decide, fun _ => rfl⟩, ⟨by decide, fun _ => rfl⟩, ⟨by decide, fun _ => rfl⟩, ⟨by decide, fun _ => rfl⟩,
    ⟨by decide, fun _ => rfl⟩, ⟨by decide, fun _ => rfl⟩, ⟨by decide, fun _ => rfl⟩, ⟨by decide, fun _ => rfl⟩, ⟨by decide, fun _ => rfl⟩,
    ⟨by decide, fun _ => rfl⟩, ⟨by decide, fun _ => rfl⟩⟩

end

end ENDFtk.Props

import Verif.Props.CovGetters4
/-
  C60: the compact resonance parameters of the R-matrix limited format (LCOMP = 2).
-/
set_option linter.unusedVariables false
set_option linter.unusedSectionVars false
set_option linter.unusedSimpArgs false
namespace ENDFtk.Props
open ENDFtk
variable [Disco]

/-- a column of a concatenation of pieces of the same length -/
theorem column_pieces {α β : Type} {f : α → List β} {g : α → β} {k j : Nat} {k' j' : Int} {l : List α} (hj : j < k) (h : ∀ a ∈ l, (f a).length = k)
    (hg : ∀ a ∈ l, (f a)[j]? = some (g a)) (hn : l ≠ [] ∨ j = 0) (hk' : k' = k) (hj' : j' = j) : column j' k' (l.flatMap f) = .ok (l.map g) := by
  subst hk' hj'
  have hle : j ≤ (l.flatMap f).length := by
    rw [flatMap_length h]
    rcases hn with hn | hn
    · have : 0 < l.length := List.length_pos_iff.mpr hn
      have : 1 * k ≤ l.length * k := Nat.mul_le_mul_right _ (by omega)
      omega
    · omega
  unfold column
  rw [dropE_ok (by omega) (by omega)]
  show strideE _ _ = _
  rw [strideE_ok (by omega)]
  congr 1
  apply List.ext_getElem?
  intro i
  rw [Int.toNat_natCast, Int.toNat_natCast, strideL_getElem? (by omega), List.getElem?_drop, Nat.add_comm, flatMap_getElem? h hj, List.getElem?_map]
  cases hi : l[i]? with
  | none => rfl
  | some a => exact hg a (List.mem_of_getElem? hi)

section
variable {er der : List Dbl} {gam dgam : List (List Dbl)} {l : LIST}

/-- the lines of a resonance with its uncertainties -/
def bothLines (pad : Nat) (r : (Dbl × List Dbl) × Dbl × List Dbl) : List Dbl :=
  (r.1.1 :: r.1.2 ++ List.replicate pad Disco.zero) ++ (r.2.1 :: r.2.2 ++ List.replicate pad Disco.zero)

theorem bothLines_flatMap {pad : Nat} {rs : List ((Dbl × List Dbl) × Dbl × List Dbl)} :
    rs.flatMap (bothLines pad) =
      (rs.flatMap fun r => [r.1.1 :: r.1.2 ++ List.replicate pad Disco.zero, r.2.1 :: r.2.2 ++ List.replicate pad Disco.zero]).flatMap id := by
  induction rs with
  | nil => rfl
  | cons r rs ih => simp only [List.flatMap_cons, List.flatMap_append, ← ih]; simp [bothLines]

/-- The energies and their uncertainties are returned; the parameters and their uncertainties are returned followed by the zeros that complete a line, if the
    arrays of uncertainties have the size of the arrays of parameters (which the constructor does not verify, see `C60_compactParameters_sizes`). -/
theorem C60_compactParameters (h : CompactParameters.make er gam der dgam = .ok l) (hd : ∀ g ∈ gam, ∀ d ∈ dgam, d.length = g.length) :
    ∃ pad < 6, CompactParameters.numberResonances l = er.length ∧ CompactParameters.resonanceEnergies l = .ok er ∧
      CompactParameters.resonanceParameters l = .ok (gam.map (· ++ List.replicate pad Disco.zero)) ∧
      CompactParameters.resonanceEnergyUncertainties l = .ok der ∧
      CompactParameters.resonanceParameterUncertainties l = .ok (dgam.map (· ++ List.replicate pad Disco.zero)) ∧
      (∀ g ∈ gam, (1 + g.length + pad) % 6 = 0) ∧ (l.Fits → (listC.checked compactRmlParametersOk).Valid l) := by
  unfold CompactParameters.make at h
  simp only at h
  split at h
  · cases h
  split at h
  · cases h
  split at h
  · cases h
  obtain ⟨rfl, hv⟩ := verified_require h
  rename_i h1 h2 h3
  generalize hnch : (gam.headD []).length = nch at *
  obtain ⟨hp1, hp2⟩ := padding_spec nch
  generalize ResonanceParameters.padding nch = pad at *
  have hg : ∀ g ∈ gam, g.length = nch := fun g hg => Decidable.byContradiction fun hne => h3 ⟨g, hg, hne⟩
  have hdg : ∀ d ∈ dgam, d.length = nch := fun d hdm => by
    cases gam with
    | nil => simp at h1; omega
    | cons g gam => rw [hd g (by simp) d hdm]; exact hg g (by simp)
  have h1 : gam.length = er.length ∧ der.length = er.length ∧ dgam.length = er.length := by omega
  generalize hrs : List.zip (List.zip er gam) (List.zip der dgam) = rs at *
  have hmem : ∀ r ∈ rs, r.1.2 ∈ gam ∧ r.2.2 ∈ dgam := fun r hr => by
    rw [← hrs] at hr
    have := List.of_mem_zip hr
    exact ⟨(List.of_mem_zip this.1).2, (List.of_mem_zip this.2).2⟩
  have hz1 : rs.map (·.1) = er.zip gam := by rw [← hrs]; exact zip_left (by simp; omega)
  have hz2 : rs.map (·.2) = der.zip dgam := by rw [← hrs]; exact zip_right (by simp; omega)
  have m1 : rs.map (·.1.1) = er := by
    have : rs.map (·.1.1) = (rs.map (·.1)).map (·.1) := by rw [List.map_map]; rfl
    rw [this, hz1, zip_left (by omega)]
  have m2 : rs.map (·.1.2) = gam := by
    have : rs.map (·.1.2) = (rs.map (·.1)).map (·.2) := by rw [List.map_map]; rfl
    rw [this, hz1, zip_right (by omega)]
  have m3 : rs.map (·.2.1) = der := by
    have : rs.map (·.2.1) = (rs.map (·.2)).map (·.1) := by rw [List.map_map]; rfl
    rw [this, hz2, zip_left (by omega)]
  have m4 : rs.map (·.2.2) = dgam := by
    have : rs.map (·.2.2) = (rs.map (·.2)).map (·.2) := by rw [List.map_map]; rfl
    rw [this, hz2, zip_right (by omega)]
  have hrl : rs.length = er.length := by rw [← m1, List.length_map]
  have hr0 : rs ≠ [] := by intro h; rw [h] at hrl; simp at hrl; omega
  obtain ⟨w, hw⟩ : ∃ w, 1 + nch + pad = 6 * w := ⟨(1 + nch + pad) / 6, by omega⟩
  have hw0 : 0 < w := by omega
  have hA : ∀ r ∈ rs, (r.1.1 :: r.1.2 ++ List.replicate pad Disco.zero).length = 6 * w := fun r hr => by
    have := hg _ (hmem r hr).1
    simp [this]; omega
  have hB : ∀ r ∈ rs, (r.2.1 :: r.2.2 ++ List.replicate pad Disco.zero).length = 6 * w := fun r hr => by
    have := hdg _ (hmem r hr).2
    simp [this]; omega
  have hAB : ∀ r ∈ rs, (bothLines pad r).length = 12 * w := fun r hr => by
    unfold bothLines
    rw [List.length_append, hA r hr, hB r hr]; omega
  have hdata : (rs.flatMap fun r => (r.1.1 :: r.1.2 ++ List.replicate pad Disco.zero) ++ (r.2.1 :: r.2.2 ++ List.replicate pad Disco.zero)) =
    rs.flatMap (bothLines pad) := rfl
  rw [hdata] at *
  have hlen : (rs.flatMap (bothLines pad)).length = er.length * (12 * w) := by rw [flatMap_length hAB, hrl]
  have hlines : ∀ nx : Int, CompactParameters.lines ⟨Disco.zero, Disco.zero, 0, (er.length : Int), nx, rs.flatMap (bothLines pad)⟩ = .ok (w : Int) := fun nx => by
    unfold CompactParameters.lines CompactParameters.numberLines LIST.npl
    simp only [hlen]
    rw [if_neg (by omega)]
    congr 1
    have e1 : er.length * (12 * w) = 12 * (er.length * w) := by rw [← Nat.mul_assoc, ← Nat.mul_assoc, Nat.mul_comm er.length 12]
    rw [e1]
    have e2 : Int.tdiv ((12 * (er.length * w) : Nat) : Int) ((12 : Nat) : Int) = ((er.length * w : Nat) : Int) := by
      rw [← Int.ofNat_tdiv, Nat.mul_div_cancel_left _ (by decide)]
    show Int.tdiv (Int.tdiv _ ((12 : Nat) : Int)) _ = _
    rw [e2, ← Int.ofNat_tdiv, Nat.mul_div_cancel_left _ (by omega)]
  generalize hnx : ((er.length * (1 + nch + pad) / 6 : Nat) : Int) = nx at *
  have hpieces : ∀ a ∈ rs.flatMap (fun r => [r.1.1 :: r.1.2 ++ List.replicate pad Disco.zero, r.2.1 :: r.2.2 ++ List.replicate pad Disco.zero]),
      (id a).length = 6 * w := fun a ha => by
    obtain ⟨r, hr, ha⟩ := List.mem_flatMap.mp ha
    simp only [List.mem_cons, List.not_mem_nil, or_false] at ha
    rcases ha with rfl | rfl
    · exact hA r hr
    · exact hB r hr
  refine ⟨pad, hp1, rfl, ?_, ?_, ?_, ?_, fun g hgm => by rw [hg g hgm]; exact hp2, fun hf => ⟨hf, hv⟩⟩
  · unfold CompactParameters.resonanceEnergies
    rw [hlines]
    show strideE _ (rs.flatMap (bothLines pad)) = _
    rw [stride_flatMap (g := (·.1.1)) (k := 12 * w) (by omega) hAB (fun r _ => by simp [bothLines]) (by omega), m1]
  · unfold CompactParameters.resonanceParameters
    rw [hlines]
    show (chunkE _ (rs.flatMap (bothLines pad))).bind _ = _
    rw [chunkE_ok (by omega)]
    have e : ((w : Int) * 6).toNat = 6 * w := by omega
    rw [e, bothLines_flatMap, chunkL_flatMap (by omega) hpieces, List.map_id]
    show (strideE 2 _).bind _ = _
    have e3 : strideE 2 (rs.flatMap fun r => [r.1.1 :: r.1.2 ++ List.replicate pad Disco.zero, r.2.1 :: r.2.2 ++ List.replicate pad Disco.zero]) =
        .ok (rs.map fun r => r.1.1 :: r.1.2 ++ List.replicate pad Disco.zero) :=
      stride_flatMap (k := 2) (by omega) (fun _ _ => rfl) (fun _ _ => rfl) rfl
    rw [e3]
    show mapE _ _ = _
    rw [mapE_ok (g := List.tail) ?_]
    · rw [List.map_map, ← m2, List.map_map]
      rfl
    · intro x hx
      obtain ⟨r, _, rfl⟩ := List.mem_map.mp hx
      exact dropE_append (a := [r.1.1]) rfl
  · unfold CompactParameters.resonanceEnergyUncertainties
    rw [hlines]
    show column _ _ (rs.flatMap (bothLines pad)) = _
    rw [column_pieces (g := (·.2.1)) (k := 12 * w) (j := 6 * w) (by omega) hAB (fun r hr => ?_) (.inl hr0) (by omega) (by omega), m3]
    unfold bothLines
    rw [List.getElem?_append_right (by rw [hA r hr]; exact Nat.le_refl _), hA r hr, Nat.sub_self]
    rfl
  · unfold CompactParameters.resonanceParameterUncertainties
    rw [hlines]
    show (dropE _ (rs.flatMap (bothLines pad))).bind _ = _
    have : rs.length * (12 * w) ≥ 1 * (12 * w) := Nat.mul_le_mul_right _ (by have := List.length_pos_iff.mpr hr0; omega)
    rw [hrl] at this
    rw [dropE_ok (by omega) (by omega)]
    have e : ((w : Int) * 6).toNat = 6 * w := by omega
    have e1 : (rs.flatMap (bothLines pad)).drop (6 * w) = ((rs.flatMap fun r => [r.1.1 :: r.1.2 ++ List.replicate pad Disco.zero,
        r.2.1 :: r.2.2 ++ List.replicate pad Disco.zero]).drop 1).flatMap id := by
      have := flatMap_drop (k := 6 * w) hpieces 1
      rw [Nat.one_mul] at this
      rw [bothLines_flatMap]; exact this
    rw [e, e1]
    show (chunkE _ _).bind _ = _
    rw [chunkE_ok (by omega), e, chunkL_flatMap (by omega) (fun a ha => hpieces a (List.mem_of_mem_drop ha)), List.map_id]
    show (strideE 2 _).bind _ = _
    have e2 : strideE 2 ((rs.flatMap fun r => [r.1.1 :: r.1.2 ++ List.replicate pad Disco.zero, r.2.1 :: r.2.2 ++ List.replicate pad Disco.zero]).drop 1) =
        .ok (rs.map fun r => r.2.1 :: r.2.2 ++ List.replicate pad Disco.zero) := by
      have := column_pieces (l := rs) (f := fun r => [r.1.1 :: r.1.2 ++ List.replicate pad Disco.zero, r.2.1 :: r.2.2 ++ List.replicate pad Disco.zero])
        (g := fun r => r.2.1 :: r.2.2 ++ List.replicate pad Disco.zero) (k := 2) (j := 1) (k' := 2) (j' := 1) (by omega) (fun _ _ => rfl) (fun _ _ => rfl)
        (.inl hr0) rfl rfl
      unfold column at this
      rw [dropE_ok (by omega) (by rw [flatMap_length (k := 2) (fun _ _ => rfl)]; have := List.length_pos_iff.mpr hr0; omega)] at this
      exact this
    rw [e2]
    show mapE _ _ = _
    rw [mapE_ok (g := List.tail) ?_]
    · rw [List.map_map, ← m4, List.map_map]
      rfl
    · intro x hx
      obtain ⟨r, _, rfl⟩ := List.mem_map.mp hx
      exact dropE_append (a := [r.2.1]) rfl

/-- Accepted: at least one resonance, arrays of the same size for the resonances and their uncertainties.  Rejected: another number of arrays, or arrays
    of parameters of different sizes. -/
theorem C60_compactParameters_accepts {nch : Nat} (hs : 2 * (er.length : Int) * (nch + 6) < 2147483648) (hn : ∀ g ∈ gam, g.length ≤ nch) :
    let outer := er ≠ [] ∧ gam.length = er.length ∧ der.length = er.length ∧ dgam.length = er.length ∧ ∀ g ∈ gam, ∀ g' ∈ gam, g.length = g'.length
    (outer ∧ (∀ g ∈ gam, ∀ d ∈ dgam, d.length = g.length) → ∃ l, CompactParameters.make er gam der dgam = .ok l) ∧
    (¬outer → CompactParameters.make er gam der dgam = .error .exc) := by
  unfold CompactParameters.make
  rw [ne_eq, ← List.length_eq_zero_iff]
  simp only
  constructor
  · rintro ⟨⟨h1, h2, h3, h4, h5⟩, h6⟩
    rw [if_neg (by omega), if_neg h1]
    cases gam with
    | nil => simp at h2; omega
    | cons g gam =>
      generalize hm : ((g :: gam).headD []).length = m
      have hm : g.length = m := hm
      rw [if_neg (by rintro ⟨p, hp, hne⟩; exact hne ((h5 p hp g (by simp)).trans hm))]
      refine ⟨_, verified_pos ?_⟩
      obtain ⟨hp1, hp2⟩ := padding_spec m
      generalize ResonanceParameters.padding m = pad at *
      obtain ⟨w, hw⟩ : ∃ w, 1 + m + pad = 6 * w := ⟨(1 + m + pad) / 6, by omega⟩
      generalize hrs : List.zip (List.zip er (g :: gam)) (List.zip der dgam) = rs
      have hrl : rs.length = er.length := by rw [← hrs]; simp at *; omega
      have hlen : (rs.flatMap fun r => (r.1.1 :: r.1.2 ++ List.replicate pad Disco.zero) ++ (r.2.1 :: r.2.2 ++ List.replicate pad Disco.zero)).length =
          er.length * (12 * w) := by
        rw [flatMap_length (k := 12 * w), hrl]
        intro r hr
        rw [← hrs] at hr
        have := List.of_mem_zip hr
        have e1 := (h5 r.1.2 (List.of_mem_zip this.1).2 g (by simp)).trans hm
        have e2 := (h6 g (by simp) r.2.2 (List.of_mem_zip this.2).2).trans hm
        simp [e1, e2]; omega
      have hle : 1 + m + pad ≤ nch + 6 := by have := hn g (by simp); omega
      have hle' : er.length * (12 * w) ≤ 2 * er.length * (nch + 6) := by
        have : er.length * (12 * w) = 2 * er.length * (6 * w) := by
          rw [Nat.mul_comm 2, Nat.mul_assoc]; congr 1; omega
        rw [this]
        exact Nat.mul_le_mul_left _ (by omega)
      have hb : ((2 * er.length * (nch + 6) : Nat) : Int) < 2147483648 := by simpa using hs
      unfold compactRmlParametersOk LIST.npl
      simp only [hlen]
      rw [nat32 (by omega)]
      have e1 : er.length * (12 * w) = 12 * (er.length * w) := by rw [← Nat.mul_assoc, ← Nat.mul_assoc, Nat.mul_comm er.length 12]
      have : 0 < er.length * w := Nat.mul_pos (by omega) (by omega)
      rw [e1]
      constructor
      · omega
      · show Int.tmod _ ((12 : Nat) : Int) = _
        rw [← Int.ofNat_tmod]; omega
  · intro h
    split
    · rfl
    split
    · rfl
    split
    · rfl
    · rename_i h1 h2 h3
      exfalso
      refine h ⟨h2, by omega, by omega, by omega, fun g hg g' hg' => ?_⟩
      have a := Decidable.byContradiction fun hne => h3 ⟨g, hg, hne⟩
      have b := Decidable.byContradiction fun hne => h3 ⟨g', hg', hne⟩
      omega

/-- The record that was read: for each resonance the energy and the parameters in `w` lines, then their uncertainties in `w` lines.  Without resonances
    (NRSA = 0) the getters divide by zero. -/
theorem C60_compactParameters_layout {w n : Nat} :
    (l.data.length = 12 * w * n → w ≠ 0 → n ≠ 0 → l.l2 = n →
      Columns l.data (12 * w) n 0 [CompactParameters.resonanceEnergies l] ∧
      Columns l.data (12 * w) n (6 * w) [CompactParameters.resonanceEnergyUncertainties l] ∧
      Blocks l.data 1 (12 * w) (6 * w - 1) n (CompactParameters.resonanceParameters l) ∧
      Blocks l.data (6 * w + 1) (12 * w) (6 * w - 1) n (CompactParameters.resonanceParameterUncertainties l) ∧
      CompactParameters.numberResonances l = n ∧ CompactParameters.numberLines l = w * n) ∧
    (l.l2 = 0 → CompactParameters.resonanceEnergies l = .error .ub ∧ CompactParameters.resonanceParameters l = .error .ub ∧
      CompactParameters.resonanceEnergyUncertainties l = .error .ub ∧ CompactParameters.resonanceParameterUncertainties l = .error .ub) := by
  refine ⟨fun hl hw hn hl2 => ?_, fun h0 => ?_⟩
  · have hlines : CompactParameters.numberLines l = ((w * n : Nat) : Int) := by
      unfold CompactParameters.numberLines LIST.npl
      rw [hl, Int.tdiv_eq_ediv_of_nonneg (by omega), Nat.mul_assoc]; omega
    have ew : CompactParameters.lines l = .ok (w : Int) := by
      unfold CompactParameters.lines
      rw [if_neg (by omega), hlines, hl2]
      congr 1
      rw [Int.tdiv_eq_ediv_of_nonneg (by omega), Int.natCast_mul]
      exact Int.mul_ediv_cancel _ (by omega)
    have e6 : ((w : Int) * 6).toNat = 6 * w := by omega
    have h12 : 12 * w * 1 ≤ 12 * w * n := Nat.mul_le_mul_left _ (by omega)
    have blocks : ∀ d : Nat, d = 0 ∨ d = 6 * w → Blocks l.data (d + 1) (12 * w) (6 * w - 1) n
        ((chunkE ((w : Int) * 6) (l.data.drop d)).bind fun cs => (strideE 2 cs).bind (mapE (dropE 1))) := fun d hd => by
      have hat : ∀ i < n, 12 * w * i + 12 * w ≤ 12 * w * n := fun i hi => by
        have := Nat.mul_le_mul_left (12 * w) (show i + 1 ≤ n from hi)
        rw [Nat.mul_add] at this; omega
      have hdl : (l.data.drop d).length = 12 * w * n - d := by rw [List.length_drop, hl]
      have hcl : (chunkL (6 * w) (l.data.drop d)).length = 2 * n - (if d = 0 then 0 else 1) := by
        rw [chunkL_length, hdl]
        have e : 12 * w * n = 6 * w * (2 * n) := by rw [show 12 * w = 6 * w * 2 by omega, Nat.mul_assoc]
        rcases hd with rfl | rfl
        · rw [e, if_pos rfl, show 6 * w * (2 * n) - 0 + 6 * w - 1 = 6 * w * (2 * n) + (6 * w - 1) by omega, Nat.mul_add_div (by omega),
            Nat.div_eq_of_lt (by omega)]; omega
        · rw [e, if_neg (by omega)]
          have e' : 6 * w * (2 * n) = 6 * w * (2 * n - 1) + 6 * w := by
            have : 2 * n = (2 * n - 1) + 1 := by omega
            conv => lhs; rw [this, Nat.mul_add, Nat.mul_one]
          rw [show 6 * w * (2 * n) - 6 * w + 6 * w - 1 = 6 * w * (2 * n - 1) + (6 * w - 1) by omega, Nat.mul_add_div (by omega),
            Nat.div_eq_of_lt (by omega)]; omega
      have hel : ∀ i < n, (strideL 2 (chunkL (6 * w) (l.data.drop d)))[i]? = some ((l.data.drop (d + 12 * w * i)).take (6 * w)) := fun i hi => by
        have := hat i hi
        have e : i * 2 * (6 * w) = 12 * w * i := by rw [Nat.mul_assoc, Nat.mul_comm i]; congr 1; omega
        rw [strideL_getElem? (by decide), chunkL_getElem? (by omega), e, if_pos (by rw [hdl]; omega), List.drop_drop]
      have hsl : (strideL 2 (chunkL (6 * w) (l.data.drop d))).length = n := by
        rw [strideL_length (by decide), hcl]
        split <;> omega
      refine ⟨(strideL 2 (chunkL (6 * w) (l.data.drop d))).map (·.drop 1), ?_, by rw [List.length_map, hsl], fun i hi => ?_⟩
      · rw [chunkE_ok (by omega), e6]
        show (strideE 2 _).bind _ = _
        rw [strideE_ok (by decide)]
        show mapE _ (strideL 2 _) = _
        refine mapE_ok fun c hc => ?_
        obtain ⟨i, hi⟩ := List.mem_iff_getElem?.mp hc
        have : i < n := by
          by_cases h : i < n
          · exact h
          · rw [List.getElem?_eq_none (by omega)] at hi; cases hi
        rw [hel i this] at hi
        cases hi
        have := hat i this
        refine dropE_ok (by omega) ?_
        rw [List.length_take, List.length_drop, hl]
        omega
      · have := hat i hi
        rw [List.getElem?_map, hel i hi]
        refine ⟨?_, by omega⟩
        show some (List.drop 1 _) = some _
        rw [List.drop_take, List.drop_drop]
        congr 3; omega
    refine ⟨⟨?_, trivial⟩, ⟨?_, trivial⟩, ?_, ?_, hl2, by rw [hlines]; push_cast; rfl⟩
    · unfold CompactParameters.resonanceEnergies
      rw [ew]
      exact strideE_of hl (by omega) (by omega)
    · unfold CompactParameters.resonanceEnergyUncertainties
      rw [ew]
      have := column_of (l := l.data) (p := 0) (j := 6 * w) (k := 12 * w) (n := n) (off := (w : Int) * 6) (k' := (w : Int) * 12) (by omega) (by omega)
        (.inl hn) (by omega) (by omega)
      rw [Nat.zero_add] at this
      exact this
    · unfold CompactParameters.resonanceParameters
      rw [ew]
      exact blocks 0 (.inl rfl)
    · unfold CompactParameters.resonanceParameterUncertainties
      rw [ew]
      show Blocks _ _ _ _ _ ((dropE _ _).bind _)
      rw [dropE_ok (by omega) (by omega), e6]
      exact blocks (6 * w) (.inr rfl)
  · have : CompactParameters.lines l = .error .ub := by unfold CompactParameters.lines; rw [if_pos h0]
    unfold CompactParameters.resonanceEnergies CompactParameters.resonanceParameters CompactParameters.resonanceEnergyUncertainties
      CompactParameters.resonanceParameterUncertainties
    rw [this]
    exact ⟨rfl, rfl, rfl, rfl⟩

end
end ENDFtk.Props

import Verif.Props.Getters4
/-
  C48, continued: sections 1/458 and 6.
-/
set_option linter.unusedVariables false
set_option linter.unusedSectionVars false
set_option linter.unusedSimpArgs false
namespace ENDFtk.Props
open ENDFtk

section
variable [Disco]

theorem column_flatMap {α β : Type} {f : α → List β} {g : α → β} {k j : Nat} {off k' : Int} {l : List α} (hj : j < k) (h : ∀ a ∈ l, (f a).length = k)
    (hg : ∀ a ∈ l, (f a)[j]? = some (g a)) (ho : off = j) (hk' : k' = k) (hn : l ≠ [] ∨ j = 0) : column off k' (l.flatMap f) = .ok (l.map g) := by
  have hlen : (l.flatMap f).length = 0 + k * l.length := by rw [flatMap_length h, Nat.mul_comm]; omega
  obtain ⟨xs, h1, h2, h3⟩ := column_of (off := off) (k' := k') hlen hj (by simpa using hn) (by omega) hk'
  rw [h1]
  congr 1
  apply List.ext_getElem?
  intro i
  rw [List.getElem?_map]
  by_cases hi : i < l.length
  · rw [h3 i hi]
    have e : 0 + j + k * i = i * k + j := by rw [Nat.mul_comm]; omega
    rw [e, flatMap_getElem? h hj, List.getElem?_eq_getElem hi]
    simpa using hg _ (List.getElem_mem hi)
  · rw [List.getElem?_eq_none (by omega), List.getElem?_eq_none (by omega)]; rfl

/-! ### 1/458 -/

/-- the values of a component as the getters return them: pairs as arrays of two values -/
def pairsOf (a : List (Dbl × Dbl)) : List (List Dbl) := a.map fun p => [p.1, p.2]

theorem getD_pairs {c : List (Dbl × Dbl)} {n i : Nat} (h : c.length = n) (hi : i < n) :
    (PolynomialComponents.pairCols c).map (fun x => x.getD i Disco.zero) = (pairsOf c).getD i [] := by
  subst h
  simp [PolynomialComponents.pairCols, pairsOf, hi]

theorem flatMap_congr' {α β : Type} {f g : α → List β} : {l : List α} → (∀ a ∈ l, f a = g a) → l.flatMap f = l.flatMap g
  | [], _ => rfl
  | a :: l, h => by rw [List.flatMap_cons, List.flatMap_cons, h a (by simp), flatMap_congr' fun a ha => h a (by simp [ha])]

theorem poly_chunks {n : Nat} {cs : List (List (Dbl × Dbl))} (hl : ∀ c ∈ cs, c.length = n) :
    chunkL 2 (rows n (cs.flatMap PolynomialComponents.pairCols)) = (List.range n).flatMap fun i => cs.map fun c => (pairsOf c).getD i [] := by
  have e : rows n (cs.flatMap PolynomialComponents.pairCols) = ((List.range n).flatMap fun i => cs.map fun c => (pairsOf c).getD i []).flatMap id := by
    unfold rows
    rw [List.flatMap_assoc]
    refine flatMap_congr' fun i hi => ?_
    rw [List.map_flatMap, List.flatMap_map]
    exact flatMap_congr' fun c hc => getD_pairs (hl c hc) (by simpa using hi)
  rw [e, chunkL_flatMap (f := id) (by decide), List.map_id]
  intro x hx
  simp only [List.mem_flatMap, List.mem_range, List.mem_map] at hx
  obtain ⟨i, hi, c, hc, rfl⟩ := hx
  have := hl c hc
  simp [pairsOf, List.getD_eq_getElem?_getD, List.getElem?_eq_getElem (show i < c.length by omega)]

theorem poly_component {c1 c2 : Dbl} {l1 l2 n2 : Int} {n : Nat} {cs : List (List (Dbl × Dbl))} (hl : ∀ c ∈ cs, c.length = n) (h9 : cs.length = 9) (hn : n ≠ 0) {j : Nat}
    {c : List (Dbl × Dbl)} (hc : cs[j]? = some c) :
    PolynomialComponents.component j ⟨c1, c2, l1, l2, n2, rows n (cs.flatMap PolynomialComponents.pairCols)⟩ = .ok (pairsOf c) := by
  unfold PolynomialComponents.component
  rw [chunkE_ok (by decide)]
  show column j 9 (chunkL 2 _) = _
  have hj := (List.getElem?_eq_some_iff.mp hc).1
  rw [poly_chunks hl, column_flatMap (k := 9) (k' := 9) (j := j) (g := fun i => (pairsOf c).getD i []) (by omega) (by simp [h9]) (fun i hi => ?_) rfl rfl
    (.inl (by simpa using hn))]
  · congr 1
    apply List.ext_getElem?
    intro i
    have := hl c (List.mem_of_getElem? hc)
    rw [List.getElem?_map]
    by_cases hi : i < n
    · rw [List.getElem?_range hi]
      simp only [Option.map_some]
      rw [getD_of (n := n) (d := []) (by simpa [pairsOf] using this) hi]
    · rw [List.getElem?_eq_none (by simpa using hi), List.getElem?_eq_none (by simp [pairsOf]; omega)]; rfl
  · rw [List.getElem?_map, hc]; rfl

/-- The polynomial components of the energy release; the order of the polynomials is one less than the number of coefficients. -/
theorem C48_polynomialComponents {efr enp end' egp egd eb enu er et : List (Dbl × Dbl)} {l : LIST}
    (h : PolynomialComponents.make efr enp end' egp egd eb enu er et = .ok l) (hn : efr ≠ []) :
    (Small l → PolynomialComponents.order l = efr.length - 1) ∧
    PolynomialComponents.fissionFragments l = .ok (pairsOf efr) ∧ PolynomialComponents.promptNeutrons l = .ok (pairsOf enp) ∧
    PolynomialComponents.delayedNeutrons l = .ok (pairsOf end') ∧ PolynomialComponents.promptGammas l = .ok (pairsOf egp) ∧
    PolynomialComponents.delayedGammas l = .ok (pairsOf egd) ∧ PolynomialComponents.delayedBetas l = .ok (pairsOf eb) ∧
    PolynomialComponents.neutrinos l = .ok (pairsOf enu) ∧ PolynomialComponents.totalMinusNeutrinos l = .ok (pairsOf er) ∧
    PolynomialComponents.total l = .ok (pairsOf et) ∧
    (l.Fits → Small l → efr.length ≠ 1 → Release.Valid (.poly l)) := by
  unfold PolynomialComponents.make at h
  simp only at h
  split at h
  · cases h
  rename_i hs
  cases h
  have hn' : efr.length ≠ 0 := by simpa using hn
  have hl : ∀ c ∈ [efr, enp, end', egp, egd, eb, enu, er, et], c.length = efr.length := by simp; omega
  have hrl : (rows efr.length ([efr, enp, end', egp, egd, eb, enu, er, et].flatMap PolynomialComponents.pairCols)).length = efr.length * 18 := rows_length _ _
  have c := fun (j : Nat) (c : List (Dbl × Dbl)) (hc : [efr, enp, end', egp, egd, eb, enu, er, et][j]? = some c) =>
    poly_component (c1 := Disco.zero) (c2 := Disco.zero) (l1 := 0)
      (l2 := (((rows efr.length ([efr, enp, end', egp, egd, eb, enu, er, et].flatMap PolynomialComponents.pairCols)).length / 18 : Nat) : Int) - 1)
      (n2 := (((rows efr.length ([efr, enp, end', egp, egd, eb, enu, er, et].flatMap PolynomialComponents.pairCols)).length / 2 : Nat) : Int))
      (j := j) hl rfl hn' hc
  refine ⟨fun hs' => ?_, c 0 _ rfl, c 1 _ rfl, c 2 _ rfl, c 3 _ rfl, c 4 _ rfl, c 5 _ rfl, c 6 _ rfl, c 7 _ rfl, c 8 _ rfl, fun hf hs' h1 => ?_⟩
  · unfold Small LIST.npl at hs'
    unfold PolynomialComponents.order
    simp only [hrl] at hs' ⊢
    rw [toInt32_of ⟨by omega, by omega⟩]
    omega
  · unfold Small LIST.npl at hs'
    unfold Release.Valid LIST.npl
    refine ⟨hf, ?_⟩
    simp only [hrl] at hs' ⊢
    rw [nat32 (by omega), toInt32_of ⟨by omega, by omega⟩]
    refine ⟨?_, ?_, ?_⟩ <;> omega

theorem C48_polynomialComponents_accepts {efr enp end' egp egd eb enu er et : List (Dbl × Dbl)} :
    let ok := ∀ x ∈ [enp, end', egp, egd, eb, enu, er, et], x.length = efr.length
    (ok → ∃ l, PolynomialComponents.make efr enp end' egp egd eb enu er et = .ok l) ∧
    (¬ok → PolynomialComponents.make efr enp end' egp egd eb enu er et = .error .exc) := by
  unfold PolynomialComponents.make
  simp only [List.forall_mem_cons, List.not_mem_nil, false_implies, implies_true, and_true]
  constructor
  · intro h; rw [if_neg (by omega)]; exact ⟨_, rfl⟩
  · intro h; rw [if_pos (by omega)]

/-- Empty arrays are accepted; the order is then -1. -/
theorem C48_polynomialComponents_empty :
    ∃ l, PolynomialComponents.make ([] : List (Dbl × Dbl)) [] [] [] [] [] [] [] [] = .ok l ∧ PolynomialComponents.order l = -1 ∧
      PolynomialComponents.promptNeutrons l = .error .ub := by
  refine ⟨⟨Disco.zero, Disco.zero, 0, -1, 0, []⟩, ?_, ?_, ?_⟩
  · simp [PolynomialComponents.make, rows]
  · unfold PolynomialComponents.order
    exact toInt32_of (n := -1) ⟨by decide, by decide⟩
  · unfold PolynomialComponents.promptNeutrons PolynomialComponents.component
    rw [chunkE_ok (by decide)]
    simp [chunkL, Except.bind, column, dropE]

/-! ### section 6, LAW = 1 -/

/-- energies that do not decrease -/
def SortedD (l : List Dbl) : Prop := ∀ i (h : i + 1 < l.length), Disco.ltD (l[i + 1]'h) (l[i]'(by omega)) = false

theorem sortedD_iff {l : List Dbl} : SortedD l ↔ isSorted Disco.ltD l = true := (isSorted_iff_chain _ _).symm

section
variable {α : Type} {f : α → List Dbl} {g : α → Dbl} {z : List α} {na : Nat} {energy : Dbl} {nd : Int}

/-- the list of a continuum distribution: `z.length` energies, each with `1 + na` values -/
def contList (energy : Dbl) (nd : Int) (na : Nat) (z : List α) (f : α → List Dbl) : LIST := ⟨Disco.zero, energy, nd, na, z.length, z.flatMap f⟩

theorem cont_energies (h : ∀ a ∈ z, (f a).length = 2 + na) (hg : ∀ a ∈ z, (f a)[0]? = some (g a)) :
    ContinuumData.energies (contList energy nd na z f) = .ok (z.map g) :=
  stride_flatMap (k := 2 + na) (by omega) h hg (by show 2 + (na : Int) = _; omega)

theorem cont_total {g1 : α → Dbl} (h : ∀ a ∈ z, (f a).length = 2 + na) (hg : ∀ a ∈ z, (f a)[1]? = some (g1 a)) (hz : z ≠ []) :
    ContinuumData.totalEmissionProbabilities (contList energy nd na z f) = .ok (z.map g1) :=
  column_flatMap (k := 2 + na) (j := 1) (by omega) h hg rfl (by show 2 + (na : Int) = _; omega) (.inl hz)

theorem cont_chunks {k : Int} (h : ∀ a ∈ z, (f a).length = 2 + na) (hk : k = 2 + na) :
    chunkE k (contList energy nd na z f).data = .ok (z.map f) := by
  rw [chunkE_ok (by omega)]
  have : k.toNat = 2 + na := by omega
  rw [this]
  show Except.ok (chunkL (2 + na) (z.flatMap f)) = _
  rw [chunkL_flatMap (by omega) h]

theorem cont_data (h : ∀ a ∈ z, (f a).length = 2 + na) : ContinuumData.data (contList energy nd na z f) = .ok (z.map fun a => (f a).tail) := by
  unfold ContinuumData.data
  rw [cont_chunks (k := 2 + (contList energy nd na z f).l2) h rfl]
  show Except.ok _ = _
  rw [List.map_map]; rfl

theorem cont_check {lang : Int} (h : ∀ a ∈ z, (f a).length = 2 + na) (hg : ∀ a ∈ z, (f a)[0]? = some (g a)) (h3 : lang ≠ 3)
    (hs : (z.length : Int) * (2 + na) < 2147483648) (hz : (z.length : Int) < 2147483648) (hna : (na : Int) + 2 < 2147483648) :
    continuumCheck lang (contList energy nd na z f) =
      if nd < 0 ∨ (z.length : Int) < nd then .error .ub
      else if isSorted Disco.ltD ((z.map g).drop nd.toNat) = false then .error .exc
      else if lang = 2 ∧ na ≠ 1 ∧ na ≠ 2 then .error .exc else .ok () := by
  have e : strideL (2 + (na : Int)).toNat (z.flatMap f) = z.map g := by
    have := cont_energies (energy := energy) (nd := nd) h hg
    unfold ContinuumData.energies contList at this
    rw [strideE_ok (by simp only; omega)] at this
    exact Except.ok.inj this
  unfold continuumCheck contList LIST.npl
  simp only
  rw [if_neg h3, e, List.length_map, flatMap_length h]
  have hm : ((z.length * (2 + na) : Nat) : Int) = (z.length : Int) * (2 + na) := by rw [Int.natCast_mul]; congr 1
  have hc : ¬(toInt32 ((z.length * (2 + na) : Nat) : Int) ≠ toInt32 (z.length : Int) * (toInt32 (na : Int) + 2)) := by
    rw [nat32 (by omega), nat32 hz, nat32 (n := na) (by omega), hm, ne_eq, Decidable.not_not, Int.add_comm]
  have h12 : (lang = 2 ∧ toInt32 (na : Int) ≠ 1 ∧ toInt32 (na : Int) ≠ 2) = (lang = 2 ∧ na ≠ 1 ∧ na ≠ 2) := by
    rw [nat32 (n := na) (by omega)]
    simp only [eq_iff_iff]
    omega
  have e1 : (2 + (na : Int) ≤ 0 ∨ nd < 0 ∨ (z.length : Int) < nd) = (nd < 0 ∨ (z.length : Int) < nd) := by
    simp only [eq_iff_iff]; omega
  have e2 : ((!isSorted Disco.ltD ((z.map g).drop nd.toNat)) = true) = (isSorted Disco.ltD ((z.map g).drop nd.toNat) = false) := by simp
  have ho : ¬(Over (toInt32 (na : Int) + 2) ∨ Over (toInt32 (z.length : Int) * (toInt32 (na : Int) + 2))) := by
    have p : 0 ≤ (z.length : Int) * (2 + na) := Int.mul_nonneg (by omega) (by omega)
    rw [nat32 hz, nat32 (n := na) (by omega), Int.add_comm (na : Int)]
    simp only [Over]; omega
  simp only [e1, e2, if_neg hc, if_neg ho, h12]

end

/-- Legendre coefficients as a function of the secondary energy. -/
theorem C48_continuumLegendre {e : Dbl} {nd : Int} {na : Nat} {es : List Dbl} {cs : List (List Dbl)} {l : LIST}
    (h : ContinuumData.makeLegendre e nd na es cs = .ok l) :
    ContinuumData.incidentEnergy l = e ∧ ContinuumData.numberDiscreteEnergies l = nd ∧ ContinuumData.numberAngularParameters l = na ∧
    ContinuumData.numberSecondaryEnergies l = es.length ∧ ContinuumData.energies l = .ok es ∧ ContinuumData.data l = .ok cs ∧
    (es ≠ [] → ContinuumData.totalEmissionProbabilities l = .ok (cs.map (·.headD Disco.zero))) ∧
    (l.Fits → (listC.checkedE (continuumCheck 1)).Valid l) := by
  unfold ContinuumData.makeLegendre at h
  split at h
  · cases h
  split at h
  · cases h
  obtain ⟨rfl, hv⟩ := verified_ok h
  rename_i h1 h2
  have hc : ∀ c ∈ cs, c.length = 1 + na := fun c hc => Decidable.byContradiction fun hne => h2 ⟨c, hc, Ne.symm hne⟩
  have hf : ∀ r ∈ es.zip cs, (r.1 :: r.2).length = 2 + na := fun r hr => by
    have := hc _ (List.of_mem_zip hr).2; simp [this]; omega
  have hzl : (es.zip cs).length = es.length := by rw [List.length_zip]; omega
  have hl : contList e nd na (es.zip cs) (fun r => r.1 :: r.2) = ⟨Disco.zero, e, nd, na, es.length, (es.zip cs).flatMap fun r => r.1 :: r.2⟩ := by
    unfold contList; rw [hzl]
  rw [← hl] at hv ⊢
  refine ⟨rfl, rfl, rfl, by show ((es.zip cs).length : Int) = _; rw [hzl], ?_, ?_, fun hne => ?_, fun hf => ⟨hf, hv⟩⟩
  · rw [cont_energies (g := (·.1)) hf (fun _ _ => rfl), zip_left (by omega)]
  · rw [cont_data hf]; exact congrArg Except.ok (zip_right (by omega))
  · rw [cont_total (g1 := fun r => r.2.headD Disco.zero) hf ?_ ?_]
    · congr 1
      conv => rhs; rw [← zip_right (as := es) (bs := cs) (by omega), List.map_map]
      rfl
    · intro r hr
      have := hc _ (List.of_mem_zip hr).2
      cases hr2 : r.2 with
      | nil => rw [hr2] at this; simp at this; omega
      | cons a b => rfl
    · intro h0
      rw [h0] at hzl
      exact hne (List.length_eq_zero_iff.mp hzl.symm)

theorem C48_continuumLegendre_accepts {e : Dbl} {nd : Int} {na : Nat} {es : List Dbl} {cs : List (List Dbl)}
    (hs : (es.length : Int) * (2 + na) < 2147483648) (hna : (na : Int) + 2 < 2147483648) :
    let sizes := cs.length = es.length ∧ ∀ c ∈ cs, c.length = na + 1
    (sizes → 0 ≤ nd ∧ nd ≤ es.length → SortedD (es.drop nd.toNat) → ∃ l, ContinuumData.makeLegendre e nd na es cs = .ok l) ∧
    (¬sizes → ContinuumData.makeLegendre e nd na es cs = .error .exc) ∧
    (sizes → 0 ≤ nd ∧ nd ≤ es.length → ¬SortedD (es.drop nd.toNat) → ContinuumData.makeLegendre e nd na es cs = .error .exc) ∧
    (sizes → ¬(0 ≤ nd ∧ nd ≤ es.length) → ContinuumData.makeLegendre e nd na es cs = .error .ub) := by
  have key : cs.length = es.length ∧ (∀ c ∈ cs, c.length = na + 1) → ContinuumData.makeLegendre e nd na es cs =
      if nd < 0 ∨ (es.length : Int) < nd then .error .ub
      else if isSorted Disco.ltD (es.drop nd.toNat) = false then .error .exc
      else .ok ⟨Disco.zero, e, nd, na, es.length, (es.zip cs).flatMap fun r => r.1 :: r.2⟩ := by
    rintro ⟨h1, h2⟩
    unfold ContinuumData.makeLegendre
    rw [if_neg (by omega), if_neg (by rintro ⟨c, hc, hne⟩; have := h2 c hc; omega)]
    have hzl : (es.zip cs).length = es.length := by rw [List.length_zip]; omega
    have hf : ∀ r ∈ es.zip cs, (r.1 :: r.2).length = 2 + na := fun r hr => by
      have := h2 _ (List.of_mem_zip hr).2; simp [this]; omega
    have hz : (es.length : Int) < 2147483648 := by
      have : (es.length : Int) * 1 ≤ (es.length : Int) * (2 + na) := Int.mul_le_mul_of_nonneg_left (by omega) (by omega)
      omega
    have hl : contList e nd na (es.zip cs) (fun r => r.1 :: r.2) = ⟨Disco.zero, e, nd, na, es.length, (es.zip cs).flatMap fun r => r.1 :: r.2⟩ := by
      unfold contList; rw [hzl]
    have := cont_check (lang := 1) (energy := e) (nd := nd) (g := (·.1)) hf (fun _ _ => rfl) (by decide) (by rw [hzl]; exact hs) (by rw [hzl]; exact hz) hna
    rw [hzl, zip_left (by omega), hl, if_neg (c := (1 : Int) = 2 ∧ _) (by simp)] at this
    unfold verified
    rw [this]
    by_cases hA : nd < 0 ∨ (es.length : Int) < nd
    · rw [if_pos hA, if_pos hA]
    · rw [if_neg hA, if_neg hA]
      cases isSorted Disco.ltD (es.drop nd.toNat) <;> rfl
  intro sizes
  refine ⟨fun h1 h2 h3 => ?_, fun h => ?_, fun h1 h2 h3 => ?_, fun h1 h2 => ?_⟩
  · rw [key h1, if_neg (by omega), if_neg (by rw [sortedD_iff.mp h3]; simp)]; exact ⟨_, rfl⟩
  · unfold ContinuumData.makeLegendre
    split
    · rfl
    split
    · rfl
    · rename_i h1 h2
      exact absurd ⟨by omega, fun c hc => Decidable.byContradiction fun hne => h2 ⟨c, hc, by omega⟩⟩ h
  · rw [key h1, if_neg (by omega), if_pos (by simpa [sortedD_iff] using h3)]
  · rw [key h1, if_pos (by omega)]

/-- Kalbach-Mann parameters: f0 and r. -/
theorem C48_kalbachMann {e : Dbl} {nd : Int} {d : List (Dbl × Dbl × Dbl)} {l : LIST} (h : ContinuumData.makeKalbach3 e nd d = .ok l) :
    ContinuumData.incidentEnergy l = e ∧ ContinuumData.numberDiscreteEnergies l = nd ∧ ContinuumData.numberAngularParameters l = 1 ∧
    ContinuumData.numberSecondaryEnergies l = d.length ∧ ContinuumData.energies l = .ok (d.map (·.1)) ∧
    ContinuumData.data l = .ok (d.map fun r => [r.2.1, r.2.2]) ∧
    (d ≠ [] → ContinuumData.totalEmissionProbabilities l = .ok (d.map (·.2.1))) ∧ (l.Fits → (listC.checkedE (continuumCheck 2)).Valid l) := by
  unfold ContinuumData.makeKalbach3 at h
  obtain ⟨rfl, hv⟩ := verified_ok h
  have hl : ∀ r ∈ d, [r.1, r.2.1, r.2.2].length = 2 + 1 := fun _ _ => rfl
  exact ⟨rfl, rfl, rfl, rfl, cont_energies (energy := e) (nd := nd) (na := 1) (g := fun r : Dbl × Dbl × Dbl => r.1) hl (fun _ _ => rfl),
    cont_data (energy := e) (nd := nd) (na := 1) hl,
    fun hne => cont_total (energy := e) (nd := nd) (na := 1) (g1 := fun r : Dbl × Dbl × Dbl => r.2.1) hl (fun _ _ => rfl) hne, fun hf => ⟨hf, hv⟩⟩

/-- Kalbach-Mann parameters: f0, r and a. -/
theorem C48_kalbachMann_slope {e : Dbl} {nd : Int} {d : List (Dbl × Dbl × Dbl × Dbl)} {l : LIST} (h : ContinuumData.makeKalbach4 e nd d = .ok l) :
    ContinuumData.incidentEnergy l = e ∧ ContinuumData.numberDiscreteEnergies l = nd ∧ ContinuumData.numberAngularParameters l = 2 ∧
    ContinuumData.numberSecondaryEnergies l = d.length ∧ ContinuumData.energies l = .ok (d.map (·.1)) ∧
    ContinuumData.data l = .ok (d.map fun r => [r.2.1, r.2.2.1, r.2.2.2]) ∧
    (d ≠ [] → ContinuumData.totalEmissionProbabilities l = .ok (d.map (·.2.1))) ∧ (l.Fits → (listC.checkedE (continuumCheck 2)).Valid l) := by
  unfold ContinuumData.makeKalbach4 at h
  obtain ⟨rfl, hv⟩ := verified_ok h
  have hl : ∀ r ∈ d, [r.1, r.2.1, r.2.2.1, r.2.2.2].length = 2 + 2 := fun _ _ => rfl
  exact ⟨rfl, rfl, rfl, rfl, cont_energies (energy := e) (nd := nd) (na := 2) (g := fun r : Dbl × Dbl × Dbl × Dbl => r.1) hl (fun _ _ => rfl),
    cont_data (energy := e) (nd := nd) (na := 2) hl,
    fun hne => cont_total (energy := e) (nd := nd) (na := 2) (g1 := fun r : Dbl × Dbl × Dbl × Dbl => r.2.1) hl (fun _ _ => rfl) hne, fun hf => ⟨hf, hv⟩⟩

theorem C48_kalbachMann_accepts {e : Dbl} {nd : Int} {d : List (Dbl × Dbl × Dbl)} (hs : 3 * (d.length : Int) < 2147483648) (hnd : 0 ≤ nd ∧ nd ≤ d.length) :
    (SortedD ((d.map (·.1)).drop nd.toNat) → ∃ l, ContinuumData.makeKalbach3 e nd d = .ok l) ∧
    (¬SortedD ((d.map (·.1)).drop nd.toNat) → ContinuumData.makeKalbach3 e nd d = .error .exc) := by
  have := cont_check (lang := 2) (energy := e) (nd := nd) (na := 1) (f := fun r => [r.1, r.2.1, r.2.2]) (g := (·.1)) (z := d) (fun _ _ => rfl) (fun _ _ => rfl) (by decide)
    (by omega) (by omega) (by omega)
  rw [if_neg (by omega), if_neg (c := (2 : Int) = 2 ∧ _) (by simp)] at this
  unfold ContinuumData.makeKalbach3 verified
  unfold contList at this
  have e1 : ((1 : Nat) : Int) = 1 := rfl
  rw [e1] at this
  rw [this]
  constructor
  · intro h; rw [if_neg (by rw [sortedD_iff.mp h]; simp)]; exact ⟨_, rfl⟩
  · intro h; rw [if_pos (by simpa [sortedD_iff] using h)]

end

end ENDFtk.Props

import Verif.Props.Written
/-
  C68 for files 6, 7, 8, 12, 26, 28 and 31 to 40.
-/
set_option linter.unusedVariables false
set_option linter.unusedSectionVars false
set_option linter.unusedSimpArgs false
namespace ENDFtk.Props
open ENDFtk

section
variable [Disco]

/-! ### Files 6 and 26 -/

/-- Outgoing energy and the numbers of that energy. -/
def EnergyRow (es : List Dbl) (values : List (List Dbl)) (i : Nat) (r : List Dbl) : Prop :=
  ∃ e v, es[i]? = some e ∧ values[i]? = some v ∧ r = e :: v

/-- 6 and 26, LAW = 1, Legendre: [0, E, ND, NA, NEP (NA + 2), NEP / E'1, b0, b1, ..., bNA, E'2, ...] -/
theorem C68_continuumLegendre {e : Dbl} {nd : Int} {na : Nat} {es : List Dbl} {coefs : List (List Dbl)} {r : LIST}
    (h : ContinuumData.makeLegendre e nd na es coefs = .ok r) :
    Head r Disco.zero e nd na (es.length * (na + 2)) es.length ∧ Stack r.data es.length (fun i r => EnergyRow es coefs i r ∧ r.length = na + 2) := by
  unfold ContinuumData.makeLegendre at h
  split at h
  · cases h
  split at h
  · cases h
  rename_i h1 h2
  simp only [Decidable.not_not] at h1
  obtain ⟨rfl, _⟩ := verified_ok h
  have hz : (es.zip coefs).length = es.length := by simp; omega
  have hst := stack_flatMap (es.zip coefs) (fun r => r.1 :: r.2) (row := fun i r => EnergyRow es coefs i r ∧ r.length = na + 2) (fun i a ha => by
    obtain ⟨x, y⟩ := a
    rw [List.getElem?_zip_eq_some] at ha
    have : y.length = 1 + na := by
      apply Decidable.byContradiction; intro hc; exact h2 ⟨y, List.mem_iff_getElem?.mpr ⟨i, ha.2⟩, fun e => hc e.symm⟩
    exact ⟨⟨x, y, ha.1, ha.2, rfl⟩, by simp [this]; omega⟩)
  have hlen := stack_length hst (fun _ _ h => h.2)
  rw [hz] at hst hlen
  exact ⟨⟨rfl, rfl, rfl, rfl, by simp only [hlen]; push_cast; rfl, rfl⟩, hst⟩

/-- 6, LAW = 1, LANG = 2: [0, E, ND, 1, 3 NEP, NEP / E'1, f0, r, E'2, ...] -/
theorem C68_kalbachMann {e : Dbl} {nd : Int} {data : List (Dbl × Dbl × Dbl)} {r : LIST} (h : ContinuumData.makeKalbach3 e nd data = .ok r) :
    Head r Disco.zero e nd 1 (3 * data.length) data.length ∧
    Stack r.data data.length (fun i r => ∃ x y z, data[i]? = some (x, y, z) ∧ r = [x, y, z]) := by
  obtain ⟨rfl, _⟩ := verified_ok h
  have hst := stack_flatMap data (fun r => [r.1, r.2.1, r.2.2]) (row := fun i r => ∃ x y z, data[i]? = some (x, y, z) ∧ r = [x, y, z])
    (fun i a ha => ⟨a.1, a.2.1, a.2.2, ha, rfl⟩)
  have hlen := stack_length (w := 3) hst (fun _ r ⟨_, _, _, _, e⟩ => by rw [e]; rfl)
  exact ⟨⟨rfl, rfl, rfl, rfl, by simp only [hlen]; omega, rfl⟩, hst⟩

/-- 6, LAW = 1, LANG = 2: [0, E, ND, 2, 4 NEP, NEP / E'1, f0, r, a, E'2, ...] -/
theorem C68_kalbachMann_slope {e : Dbl} {nd : Int} {data : List (Dbl × Dbl × Dbl × Dbl)} {r : LIST} (h : ContinuumData.makeKalbach4 e nd data = .ok r) :
    Head r Disco.zero e nd 2 (4 * data.length) data.length ∧
    Stack r.data data.length (fun i r => ∃ x y z w, data[i]? = some (x, y, z, w) ∧ r = [x, y, z, w]) := by
  obtain ⟨rfl, _⟩ := verified_ok h
  have hst := stack_flatMap data (fun r => [r.1, r.2.1, r.2.2.1, r.2.2.2]) (row := fun i r => ∃ x y z w, data[i]? = some (x, y, z, w) ∧ r = [x, y, z, w])
    (fun i a ha => ⟨a.1, a.2.1, a.2.2.1, a.2.2.2, ha, rfl⟩)
  have hlen := stack_length (w := 4) hst (fun _ r ⟨_, _, _, _, _, e⟩ => by rw [e]; rfl)
  exact ⟨⟨rfl, rfl, rfl, rfl, by simp only [hlen]; omega, rfl⟩, hst⟩

/-- Outgoing energy, total emission, and the pairs of cosine and probability. -/
def TabulatedRow (es f0 : List Dbl) (mu p : List (List Dbl)) (m i : Nat) (r : List Dbl) : Prop :=
  ∃ e f u v t, es[i]? = some e ∧ f0[i]? = some f ∧ mu[i]? = some u ∧ p[i]? = some v ∧ r = e :: f :: t ∧ Table t m [u, v]

/-- 6, LAW = 1, LANG = 11 to 15: [0, E, ND, NA, NEP (2 NA' + 2), NEP / E'1, f0, mu1, p1, mu2, p2, ..., E'2, ...], NA' = NA / 2 (rounded down; so NA is even if
    the record is to be read again) -/
theorem C68_continuumTabulated {lang : Int} {e : Dbl} {nd : Int} {na : Nat} {es f0 : List Dbl} {mu p : List (List Dbl)} {r : LIST}
    (h : ContinuumData.makeTabulated lang e nd na es f0 mu p = .ok r) :
    Head r Disco.zero e nd na (es.length * (2 * (na / 2) + 2) : Nat) es.length ∧ Stack r.data es.length (TabulatedRow es f0 mu p (na / 2)) := by
  unfold ContinuumData.makeTabulated at h
  split at h
  · cases h
  split at h
  · cases h
  rename_i h1 h2
  simp only [not_or, Decidable.not_not] at h1
  obtain ⟨l, hv, hl⟩ : ∃ l, verified (continuumCheck 11) ⟨Disco.zero, e, nd, na, es.length,
    ((es.zip f0).zip (mu.zip p)).flatMap (fun r => r.1.1 :: r.1.2 :: rows r.2.1.length [r.2.1, r.2.2])⟩ = .ok l ∧ l = r := by
    cases hh : verified (continuumCheck 11) ⟨Disco.zero, e, nd, na, es.length,
      ((es.zip f0).zip (mu.zip p)).flatMap (fun r => r.1.1 :: r.1.2 :: rows r.2.1.length [r.2.1, r.2.2])⟩ with
    | error _ => rw [hh] at h; cases h
    | ok l =>
      rw [hh] at h
      simp only [Except.bind] at h
      split at h
      · cases h; exact ⟨_, rfl, rfl⟩
      · cases h
  subst hl
  obtain ⟨rfl, _⟩ := verified_ok hv
  have hz : ((es.zip f0).zip (mu.zip p)).length = es.length := by simp; omega
  have hst := stack_flatMap ((es.zip f0).zip (mu.zip p)) (fun r => r.1.1 :: r.1.2 :: rows r.2.1.length [r.2.1, r.2.2])
    (row := TabulatedRow es f0 mu p (na / 2)) (fun i a ha => by
    obtain ⟨⟨x, y⟩, u, v⟩ := a
    simp only [List.getElem?_zip_eq_some] at ha
    have : isSorted Disco.ltD u = true ∧ u.length = v.length ∧ u.length = na / 2 := by
      apply Decidable.byContradiction; intro hc
      refine h2 ⟨(u, v), List.mem_iff_getElem?.mpr ⟨i, List.getElem?_zip_eq_some.mpr ha.2⟩, ?_⟩
      apply Decidable.byContradiction; intro hd
      simp only [not_or, Decidable.not_not, Bool.not_eq_false] at hd
      exact hc hd
    refine ⟨x, y, u, v, _, ha.1.1, ha.1.2, ha.2.1, ha.2.2, rfl, ?_⟩
    rw [this.2.2]
    exact table_rows (by simp; omega))
  have hlen := stack_length (w := 2 * (na / 2) + 2) hst (fun _ r ⟨_, _, _, _, t, _, _, _, _, e, ht⟩ => by
    have := ht.1
    rw [e]; simp at this ⊢; omega)
  rw [hz] at hst hlen
  exact ⟨⟨rfl, rfl, rfl, rfl, by simp only [hlen], rfl⟩, hst⟩

/-- 6 with one outgoing energy: [0, E, 0, 0, NC + 2, NC + 2 / E, 1, mu1, ..., muNC] -/
theorem C68_thermalScattering (e : Dbl) (mu : List Dbl) :
    Head (ContinuumData.makeThermal e mu) Disco.zero e 0 0 (mu.length + 2) (mu.length + 2) ∧
    (ContinuumData.makeThermal e mu).data = e :: Disco.ofInt 1 :: mu :=
  ⟨⟨rfl, rfl, rfl, rfl, by simp [ContinuumData.makeThermal]; omega, rfl⟩, rfl⟩

/-- 6, LAW = 2, LANG = 0: [0, E, 0, 0, NL, NL / a1, ..., aNL] -/
theorem C68_twoBodyLegendre {e : Dbl} {a : List Dbl} {r : LIST} (h : TwoBodyData.makeLegendre e a = .ok r) :
    Head r Disco.zero e 0 0 a.length a.length ∧ r.data = a := by
  obtain ⟨rfl, _⟩ := verified_ok h
  exact ⟨⟨rfl, rfl, rfl, rfl, rfl, rfl⟩, rfl⟩

/-- 6 and 26, LAW = 2, LANG = 12, 14: [0, E, LANG, 0, 2 NL, NL / mu1, p1, mu2, ...] -/
theorem C68_twoBodyTabulated {e : Dbl} {lang : Int} {mu p : List Dbl} {r : LIST} (h : TwoBodyData.makeTabulated e lang mu p = .ok r) :
    Head r Disco.zero e lang 0 (2 * mu.length) mu.length ∧ Table r.data mu.length [mu, p] := by
  unfold TwoBodyData.makeTabulated at h
  split at h
  · cases h
  rename_i hs
  obtain ⟨rfl, _⟩ := verified_ok h
  have t : Table (rows mu.length [mu, p]) mu.length [mu, p] := table_rows (by simp; omega)
  exact ⟨⟨rfl, rfl, rfl, rfl, by have := t.1; simp at this ⊢; omega, rfl⟩, t⟩

/-- 6, LAW = 5, LTP = 1: [0, E, 1, 0, NW, NL / b0, b1, ..., Re a0, Im a0, Re a1, ...] -/
theorem C68_nuclearAmplitudes {e : Dbl} {nl : Nat} {b ar ai : List Dbl} {r : LIST} (h : ChargedData.makeAmplitude e nl b ar ai = .ok r) :
    Head r Disco.zero e 1 0 (b.length + 2 * (nl + 1)) nl ∧ ∃ t, r.data = b ++ t ∧ Table t (nl + 1) [ar, ai] := by
  unfold ChargedData.makeAmplitude at h
  split at h
  · cases h
  split at h
  · cases h
  split at h
  · cases h
  obtain ⟨rfl, _⟩ := verified_ok h
  have t : Table (rows (nl + 1) [ar, ai]) (nl + 1) [ar, ai] := table_rows (by simp; omega)
  exact ⟨⟨rfl, rfl, rfl, rfl, by have := t.1; simp at this ⊢; omega, rfl⟩, _, rfl, t⟩

/-- 6, LAW = 5, LTP = 12, 14, 15: [0, E, LTP, 0, 2 NL, NL / mu1, p1, mu2, ...] -/
theorem C68_nuclearPlusInterference {e : Dbl} {ltp : Int} {mu p : List Dbl} {r : LIST} (h : ChargedData.makeInterference e ltp mu p = .ok r) :
    Head r Disco.zero e ltp 0 (2 * mu.length) mu.length ∧ Table r.data mu.length [mu, p] := by
  unfold ChargedData.makeInterference at h
  split at h
  · cases h
  rename_i hs
  obtain ⟨rfl, _⟩ := verified_ok h
  have t : Table (rows mu.length [mu, p]) mu.length [mu, p] := table_rows (by simp; omega)
  exact ⟨⟨rfl, rfl, rfl, rfl, by have := t.1; simp at this ⊢; omega, rfl⟩, t⟩

/-! ### File 7 -/

/-- 7/4: [0, 0, LLN, 0, 6 (NS + 1), NS / B1, ..., B6 (NS + 1)]: for the principal scatterer the cross section, epsilon, the mass ratio, the highest energy,
    0, the number of atoms; for each other the type, the cross section, the mass ratio, 0, 0, the number of atoms -/
theorem C68_scatteringLawConstants {lln : Int} {ns : Nat} {eps emax : Dbl} {xs awr : List Dbl} {natoms types : List Int} {r : LIST}
    (h : ScatteringLawConstants.make lln ns eps emax xs awr natoms types = .ok r) :
    Head r Disco.zero Disco.zero lln 0 (6 * (ns + 1)) ns ∧
    ∃ x xs' a awr' n natoms' t, xs = x :: xs' ∧ awr = a :: awr' ∧ natoms = n :: natoms' ∧
      r.data = [x, eps, a, emax, Disco.zero, Disco.ofInt n] ++ t ∧
      Table t ns [types.map Disco.ofInt, xs', awr', List.replicate ns Disco.zero, List.replicate ns Disco.zero, natoms'.map Disco.ofInt] := by
  unfold ScatteringLawConstants.make at h
  split at h
  · cases h
  split at h
  · cases h
  split at h
  · cases h
  split at h
  · cases h
  rename_i h1 h2 h3 h4
  simp only [Decidable.not_not] at h1 h2 h3 h4
  obtain ⟨rfl, _⟩ := verified_ok h
  obtain ⟨x, xs', rfl⟩ := List.exists_cons_of_length_eq_add_one h1
  obtain ⟨a, awr', rfl⟩ := List.exists_cons_of_length_eq_add_one h2
  obtain ⟨n, natoms', rfl⟩ := List.exists_cons_of_length_eq_add_one h3
  have t : Table (rows ns [ofInts types, xs', awr', List.replicate ns Disco.zero, List.replicate ns Disco.zero, ofInts natoms']) ns
      [ofInts types, xs', awr', List.replicate ns Disco.zero, List.replicate ns Disco.zero, ofInts natoms'] :=
    table_rows (by simp [ofInts_length'] at h1 h2 h3 ⊢; omega)
  refine ⟨⟨rfl, rfl, rfl, rfl, ?_, rfl⟩, x, xs', a, awr', n, natoms', _, rfl, rfl, rfl, rfl, t⟩
  have := t.1
  simp [ofInts] at this ⊢; omega

/-- 7/451: [0, 0, NAS, 0, 6 NI, NI / ZAI, LISI, AFI, AWRI, SFI, 0] -/
theorem C68_elementInformation {nas : Int} {zai lisi : List Int} {afi awri sfi : List Dbl} {r : LIST}
    (h : ElementInformation.make nas zai lisi afi awri sfi = .ok r) :
    Head r Disco.zero Disco.zero nas 0 (6 * zai.length) zai.length ∧
    Table r.data zai.length [zai.map Disco.ofInt, lisi.map Disco.ofInt, afi, awri, sfi, List.replicate zai.length Disco.zero] := by
  unfold ElementInformation.make at h
  simp only [] at h
  split at h
  · cases h
  rename_i hs
  simp only [not_or, Decidable.not_not] at hs
  obtain ⟨rfl, _⟩ := verified_ok h
  have t : Table (rows zai.length [ofInts zai, ofInts lisi, afi, awri, sfi, List.replicate zai.length Disco.zero]) zai.length
      [ofInts zai, ofInts lisi, afi, awri, sfi, List.replicate zai.length Disco.zero] := table_rows (by simp [ofInts_length']; omega)
  exact ⟨⟨rfl, rfl, rfl, rfl, by have := t.1; simp at this ⊢; omega, rfl⟩, t⟩

/-! ### File 8 -/

/-- 8/454 and 8/459: [E, 0, I, 0, 4 NFP, NFP / ZAFP, FPS, Y, DY] (I is LE or the interpolation scheme) -/
theorem C68_fissionYields {zafp fps : List Int} {y : List (Dbl × Dbl)} {e : Dbl} {i : Int} {r : LIST} (h : FissionYieldData.make zafp fps y e i = .ok r) :
    Head r e Disco.zero i 0 (4 * zafp.length) zafp.length ∧
    Table r.data zafp.length [zafp.map Disco.ofInt, fps.map Disco.ofInt, y.map (·.1), y.map (·.2)] := by
  unfold FissionYieldData.make at h
  simp only [] at h
  split at h
  · cases h
  rename_i hs
  simp only [not_or, Decidable.not_not] at hs
  obtain ⟨rfl, _⟩ := verified_ok h
  have t : Table (rows zafp.length [ofInts zafp, ofInts fps, y.map (·.1), y.map (·.2)]) zafp.length
      [ofInts zafp, ofInts fps, y.map (·.1), y.map (·.2)] := table_rows (by simp [ofInts_length']; omega)
  exact ⟨⟨rfl, rfl, rfl, rfl, by have := t.1; simp at this ⊢; omega, rfl⟩, t⟩

/-- 8/457: [T1/2, DT1/2, 0, 0, 2 NC, 0 / E1, DE1, E2, DE2, ...] -/
theorem C68_averageDecayEnergies {t : Dbl × Dbl} {es : List (Dbl × Dbl)} {r : LIST} (h : AverageDecayEnergies.make t es = .ok r) :
    Head r t.1 t.2 0 0 (2 * es.length) 0 ∧ Stack r.data es.length (fun i r => ∃ e d, es[i]? = some (e, d) ∧ r = [e, d]) := by
  obtain ⟨rfl, _⟩ := verified_ok h
  have hst := stack_flatMap es (fun p => [p.1, p.2]) (row := fun i r => ∃ e d, es[i]? = some (e, d) ∧ r = [e, d]) (fun i a ha => ⟨a.1, a.2, ha, rfl⟩)
  have hlen := stack_length (w := 2) hst (fun _ r ⟨_, _, _, e⟩ => by rw [e]; rfl)
  exact ⟨⟨rfl, rfl, rfl, rfl, by simp only [hlen]; omega, rfl⟩, hst⟩

/-- 8/457: [SPI, PAR, 0, 0, 6 NDK, NDK / RTYP, RFS, Q, DQ, BR, DBR] -/
theorem C68_decayModes {spi par : Dbl} {ms : List DecayModes.Mode} {r : LIST} (h : DecayModes.make spi par ms = .ok r) :
    Head r spi par 0 0 (6 * ms.length) ms.length ∧
    Stack r.data ms.length (fun i r => ∃ m, ms[i]? = some m ∧
      r = [m.decayChain, m.finalIsomericState, m.qValue.1, m.qValue.2, m.branchingRatio.1, m.branchingRatio.2]) := by
  obtain ⟨rfl, _⟩ := verified_ok h
  have hst := stack_flatMap ms (fun m => [m.decayChain, m.finalIsomericState, m.qValue.1, m.qValue.2, m.branchingRatio.1, m.branchingRatio.2])
    (row := fun i r => ∃ m, ms[i]? = some m ∧
      r = [m.decayChain, m.finalIsomericState, m.qValue.1, m.qValue.2, m.branchingRatio.1, m.branchingRatio.2]) (fun i a ha => ⟨a, ha, rfl⟩)
  have hlen := stack_length (w := 6) hst (fun _ r ⟨_, _, e⟩ => by rw [e]; rfl)
  exact ⟨⟨rfl, rfl, rfl, rfl, by simp only [hlen]; omega, rfl⟩, hst⟩

/-- 8/457, stable nuclide: [SPI, PAR, 0, 0, 6, 0 / 0, 0, 0, 0, 0, 0] -/
theorem C68_decayModes_stable {spi par : Dbl} {r : LIST} (h : DecayModes.makeStable spi par = .ok r) :
    Head r spi par 0 0 6 0 ∧ r.data = [Disco.zero, Disco.zero, Disco.zero, Disco.zero, Disco.zero, Disco.zero] := by
  obtain ⟨rfl, _⟩ := verified_ok h
  exact ⟨⟨rfl, rfl, rfl, rfl, rfl, rfl⟩, rfl⟩

/-- 8/457, discrete spectra: [ER, DER, 0, 0, NT, 0 / RTYP, TYPE, RI, DRI, RIS, DRIS, RICC, DRICC, RICK, DRICK, RICL, DRICL] with NT = 4, 6 or 12 -/
theorem C68_discreteSpectrum {chain type : Dbl} {e ri ris ricc rick ricl : Dbl × Dbl} {r : LIST} :
    (DiscreteSpectrum.make4 chain e ri type = .ok r → Head r e.1 e.2 0 0 4 0 ∧ r.data = [chain, type, ri.1, ri.2]) ∧
    (DiscreteSpectrum.make6 chain e ri type ris = .ok r → Head r e.1 e.2 0 0 6 0 ∧ r.data = [chain, type, ri.1, ri.2, ris.1, ris.2]) ∧
    (DiscreteSpectrum.make12 chain e ri type ris ricc rick ricl = .ok r → Head r e.1 e.2 0 0 12 0 ∧
      r.data = [chain, type, ri.1, ri.2, ris.1, ris.2, ricc.1, ricc.2, rick.1, rick.2, ricl.1, ricl.2]) := by
  refine ⟨fun h => ?_, fun h => ?_, fun h => ?_⟩ <;> obtain ⟨rfl, _⟩ := verified_ok h <;> exact ⟨⟨rfl, rfl, rfl, rfl, rfl, rfl⟩, rfl⟩

/-! ### Files 12 and 28 -/

/-- 12, LO = 2: [ES, 0, 0, 0, (LG + 1) NT, NT / ES1, TP1, ...] with LG = 1 -/
theorem C68_transitions {es : Dbl} {e tp : List Dbl} {r : LIST} (h : TransitionProbabilities.make2 es e tp = .ok r) :
    Head r es Disco.zero 0 0 (2 * e.length) e.length ∧ Table r.data e.length [e, tp] := by
  unfold TransitionProbabilities.make2 at h
  split at h
  · cases h
  rename_i hs
  obtain ⟨rfl, _⟩ := verified_ok h
  have t : Table (rows e.length [e, tp]) e.length [e, tp] := table_rows (by simp; omega)
  exact ⟨⟨rfl, rfl, rfl, rfl, by have := t.1; simp at this ⊢; omega, rfl⟩, t⟩

/-- 12, LO = 2, LG = 2: with conditional probabilities -/
theorem C68_transitions_conditional {es : Dbl} {e tp gp : List Dbl} {r : LIST} (h : TransitionProbabilities.make3 es e tp gp = .ok r) :
    Head r es Disco.zero 0 0 (3 * e.length) e.length ∧ Table r.data e.length [e, tp, gp] := by
  unfold TransitionProbabilities.make3 at h
  split at h
  · cases h
  rename_i hs
  obtain ⟨rfl, _⟩ := verified_ok h
  have t : Table (rows e.length [e, tp, gp]) e.length [e, tp, gp] := table_rows (by simp; omega)
  exact ⟨⟨rfl, rfl, rfl, rfl, by have := t.1; simp at this ⊢; omega, rfl⟩, t⟩

/-- 28: [SUBI, 0, 0, 0, 6 (NTR + 1), NTR / EBI, ELN, 0, 0, 0, 0, SUBJ, SUBK, ETR, FTR, 0, 0, ...] -/
theorem C68_subshell {subi : Int} {ebi : Dbl} {eln : Int} {subj subk : List Int} {etr ftr : List Dbl} {r : LIST}
    (h : SubshellData.make subi ebi eln subj subk etr ftr = .ok r) :
    Head r (Disco.ofInt subi) Disco.zero 0 0 (6 * (subj.length + 1)) subj.length ∧
    ∃ t, r.data = [ebi, Disco.ofInt eln, Disco.zero, Disco.zero, Disco.zero, Disco.zero] ++ t ∧
      Table t subj.length [subj.map Disco.ofInt, subk.map Disco.ofInt, etr, ftr, List.replicate subj.length Disco.zero,
        List.replicate subj.length Disco.zero] := by
  unfold SubshellData.make at h
  simp only [] at h
  split at h
  · cases h
  rename_i hs
  simp only [not_or, Decidable.not_not] at hs
  obtain ⟨rfl, _⟩ := verified_ok h
  have t : Table (rows subj.length [ofInts subj, ofInts subk, etr, ftr, List.replicate subj.length Disco.zero, List.replicate subj.length Disco.zero])
      subj.length [ofInts subj, ofInts subk, etr, ftr, List.replicate subj.length Disco.zero, List.replicate subj.length Disco.zero] :=
    table_rows (by simp [ofInts_length']; omega)
  exact ⟨⟨rfl, rfl, rfl, rfl, by have := t.1; simp at this ⊢; omega, rfl⟩, _, rfl, t⟩

/-! ### Covariances (files 31 to 40) -/

/-- LB = 0 to 2, 8, 9: [0, 0, 0, LB, 2 NP, NP / E1, F1, E2, ...] -/
theorem C68_covariancePairs {lb : Int} {e f : List Dbl} {r : LIST} (h : CovariancePairs.make2 lb e f = .ok r) :
    Head r Disco.zero Disco.zero 0 lb (2 * e.length) e.length ∧ Table r.data e.length [e, f] := by
  unfold CovariancePairs.make2 at h
  split at h
  · cases h
  rename_i hs
  obtain ⟨rfl, _⟩ := verified_ok h
  have t : Table (rows e.length [e, f]) e.length [e, f] := table_rows (by simp; omega)
  exact ⟨⟨rfl, rfl, rfl, rfl, by have := t.1; simp at this ⊢; omega, rfl⟩, t⟩

/-- LB = 3, 4: [0, 0, LT, LB, 2 NP, NP / the pairs of the first array, then the LT pairs of the second] -/
theorem C68_covariancePairs_two {lb : Int} {ek fk el fl : List Dbl} {r : LIST} (h : CovariancePairs.make4 lb ek fk el fl = .ok r) :
    Head r Disco.zero Disco.zero el.length lb (2 * (ek.length + el.length)) (ek.length + el.length) ∧
    ∃ s t, r.data = s ++ t ∧ Table s ek.length [ek, fk] ∧ Table t el.length [el, fl] := by
  unfold CovariancePairs.make4 at h
  split at h
  · cases h
  split at h
  · cases h
  obtain ⟨rfl, _⟩ := verified_ok h
  have s : Table (rows ek.length [ek, fk]) ek.length [ek, fk] := table_rows (by simp; omega)
  have t : Table (rows el.length [el, fl]) el.length [el, fl] := table_rows (by simp; omega)
  exact ⟨⟨rfl, rfl, rfl, rfl, by have := s.1; have := t.1; simp at *; omega, by simp⟩, _, _, rfl, s, t⟩

/-- LB = 5: [0, 0, LS, 5, NT, NE / E1, ..., ENE, F...] -/
theorem C68_squareMatrix {ls : Int} {e f : List Dbl} {r : LIST} (h : SquareMatrix.make ls e f = .ok r) :
    Head r Disco.zero Disco.zero ls 5 (e.length + f.length) e.length ∧ r.data = e ++ f := by
  obtain ⟨rfl, _⟩ := verified_ok h
  exact ⟨⟨rfl, rfl, rfl, rfl, by simp, rfl⟩, rfl⟩

/-- 35, LB = 7: [E1, E2, 1, 7, NT, NE / E1, ..., ENE, F...] -/
theorem C68_squareMatrix35 {e1 e2 : Dbl} {e f : List Dbl} {r : LIST} (h : SquareMatrix.make35 e1 e2 e f = .ok r) :
    Head r e1 e2 1 7 (e.length + f.length) e.length ∧ r.data = e ++ f := by
  obtain ⟨rfl, _⟩ := verified_ok h
  exact ⟨⟨rfl, rfl, rfl, rfl, by simp, rfl⟩, rfl⟩

/-- LB = 6: [0, 0, 0, 6, NT, NER / ER1, ..., ERNER, EC1, ..., ECNEC, F...] -/
theorem C68_rectangularMatrix {er ec f : List Dbl} {r : LIST} (h : RectangularMatrix.make er ec f = .ok r) :
    Head r Disco.zero Disco.zero 0 6 (er.length + ec.length + f.length) er.length ∧ r.data = er ++ ec ++ f := by
  unfold RectangularMatrix.make at h
  split at h
  · cases h
  obtain ⟨rfl, _⟩ := verified_ok h
  exact ⟨⟨rfl, rfl, rfl, rfl, by simp; omega, rfl⟩, by simp⟩

/-- LTY = 0: [E1, E2, 0, 0, 2 NCI, NCI / C1, XMT1, C2, ...] -/
theorem C68_derivedRedundant {e1 e2 : Dbl} {c : List Dbl} {mts : List Int} {d : Derived} (h : DerivedRedundant.make e1 e2 c mts = .ok d) :
    ∃ r, d = .redundant r ∧ Head r e1 e2 0 0 (2 * c.length) c.length ∧ Table r.data c.length [c, mts.map Disco.ofInt] := by
  unfold DerivedRedundant.make at h
  split at h
  · cases h
  rename_i hs
  cases h
  have t : Table (rows c.length [c, ofInts mts]) c.length [c, ofInts mts] := table_rows (by simp [ofInts_length']; omega)
  exact ⟨_, rfl, ⟨rfl, rfl, rfl, rfl, by have := t.1; simp at this ⊢; omega, rfl⟩, t⟩

/-- LTY = 1, 2, 3: [E1, E2, MATS, MTS, 2 NEI + 2, NEI / XMFS, XLFSS, E1, W1, E2, ...] -/
theorem C68_derivedRatio {lty : Int} {e1 e2 : Dbl} {mats mts xmfs xlfss : Int} {e w : List Dbl} {d : Derived}
    (h : DerivedRatio.make lty e1 e2 mats mts xmfs xlfss e w = .ok d) :
    ∃ r t, d = .ratio lty r ∧ Head r e1 e2 mats mts (2 * e.length + 2) e.length ∧ r.data = [Disco.ofInt xmfs, Disco.ofInt xlfss] ++ t ∧
      Table t e.length [e, w] := by
  unfold DerivedRatio.make at h
  split at h
  · cases h
  rename_i hs
  cases h
  have t : Table (rows e.length [e, w]) e.length [e, w] := table_rows (by simp; omega)
  exact ⟨_, _, rfl, ⟨rfl, rfl, rfl, rfl, by have := t.1; simp at this ⊢; omega, rfl⟩, rfl, t⟩

end
end ENDFtk.Props

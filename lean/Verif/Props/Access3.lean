import Verif.Props.Access2
/-
  C62: getters, part 3: files 5, 6 and 26; C63: the reaction products of files 6 and 26 by their ZA number.
-/
set_option linter.unusedVariables false
set_option linter.unusedSectionVars false
set_option linter.unusedSimpArgs false
namespace ENDFtk.Props
variable [Disco]

/-! ### MF5 -/

theorem C62_made_madlandNix {efl efh : Dbl} {bounds ints : List Int} {energies temperatures : List Dbl} {r : TAB1}
    (h : Make.madlandNixSpectrum efl efh bounds ints energies temperatures = .ok r) :
    Get.MadlandNix.EFL r = efl ∧ Get.MadlandNix.EFH r = efh ∧ TableSays r bounds ints energies temperatures ∧ Get.MadlandNix.E r = energies ∧
    Get.MadlandNix.TM r = temperatures := by
  obtain ⟨e1, e2, -, -, t⟩ := table_says h
  exact ⟨e1, e2, t, t.2.2.2.2.1, t.2.2.2.2.2⟩

theorem C62_text_madlandNix {t : Nums} {s s' : St} {r : TAB1} (h : readTAB1 t s = .ok (r, s')) :
    ∃ c, LineShows 0 s c ∧ Get.MadlandNix.EFL r = c.c1 ∧ Get.MadlandNix.EFH r = c.c2 ∧ r.NR = c.n1 ∧ r.NP = c.n2 := ⟨_, tab1_line h, rfl, rfl, rfl, rfl⟩

/-- The tables of the distribution function, the effective temperature, the parameters of the Watt spectrum, the evaporation and the Maxwellian fission
    spectrum, and the energy transfer of file 26. -/
theorem C62_made_table5 {bounds ints : List Int} {x y : List Dbl} {r : TAB1} (h : Make.table bounds ints x y = .ok r) :
    TableSays r bounds ints x y ∧ Get.Table5.X r = x ∧ Get.Table5.Y r = y := by
  obtain ⟨-, -, -, -, t⟩ := table_says h
  exact ⟨t, t.2.2.2.2.1, t.2.2.2.2.2⟩

theorem C62_made_outgoingEnergy {incident : Dbl} {bounds ints : List Int} {energies probabilities : List Dbl} {r : TAB1}
    (h : Make.outgoingEnergyDistribution incident bounds ints energies probabilities = .ok r) :
    Get.OutgoingEnergy.E r = incident ∧ TableSays r bounds ints energies probabilities ∧ Get.OutgoingEnergy.EP r = energies ∧ Get.OutgoingEnergy.G r = probabilities := by
  obtain ⟨-, e2, -, -, t⟩ := table_says h
  exact ⟨e2, t, t.2.2.2.2.1, t.2.2.2.2.2⟩

theorem C62_text_outgoingEnergy {t : Nums} {s s' : St} {r : TAB1} (h : readTAB1 t s = .ok (r, s')) :
    ∃ c, LineShows 0 s c ∧ Get.OutgoingEnergy.E r = c.c2 ∧ r.NR = c.n1 ∧ r.NP = c.n2 := ⟨_, tab1_line h, rfl, rfl, rfl⟩

theorem C62_made_tabulatedSpectrum {bounds ints : List Int} {distributions : List TAB1} {r : ISeq TAB1} (h : Make.tabulatedSpectrum bounds ints distributions = .ok r) :
    Get.TabulatedSpectrum.NR r = bounds.length ∧ Get.TabulatedSpectrum.NBT r = bounds ∧ Get.TabulatedSpectrum.INT r = ints ∧ r.seq = distributions ∧
    Get.TabulatedSpectrum.incidentEnergies r = distributions.map Get.OutgoingEnergy.E ∧
    ((∀ b ∈ bounds, 0 ≤ b ∧ b < 2147483648) → (distributions.length : Int) < 2147483648 → Get.TabulatedSpectrum.NE r = distributions.length) := by
  obtain ⟨-, -, -, -, e, r1, r2, r3, r4⟩ := regions_say h
  exact ⟨r1, r2, r3, e, by rw [Get.TabulatedSpectrum.incidentEnergies, e], r4⟩

theorem C62_made_probability {lf : Int} {bounds ints : List Int} {energies probabilities : List Dbl} {u : Dbl} {r : TAB1}
    (h : Make.probability lf bounds ints energies probabilities u = .ok r) (hi : IsInt32 lf) :
    Get.Probability5.U r = u ∧ Get.Probability5.LF r = lf ∧ TableSays r bounds ints energies probabilities ∧ Get.Probability5.E r = energies ∧
    Get.Probability5.P r = probabilities := by
  obtain ⟨e1, -, -, e4, t⟩ := table_says h
  exact ⟨e1, by rw [Get.Probability5.LF, e4]; exact toInt32_of hi, t, t.2.2.2.2.1, t.2.2.2.2.2⟩

theorem C62_text_probability {t : Nums} {s s' : St} {r : TAB1} (h : readTAB1 t s = .ok (r, s')) :
    ∃ c, LineShows 0 s c ∧ Get.Probability5.U r = c.c1 ∧ Get.Probability5.LF r = toInt32 c.l2 ∧ r.NR = c.n1 ∧ r.NP = c.n2 := ⟨_, tab1_line h, rfl, rfl, rfl, rfl⟩

/-- A partial distribution: the LF that was given for the probability is the one of the spectrum. -/
theorem C62_made_partial5 {lf : Int} {bounds ints : List Int} {energies probabilities : List Dbl} {u : Dbl} {p : TAB1} {d : Spectrum} {b : Partial5}
    (hp : Make.probability lf bounds ints energies probabilities u = .ok p) (h : Make.partialDistribution p d = .ok b) (hi : IsInt32 lf) :
    Get.MF5.U b = u ∧ b.probability = p ∧ b.dist = d ∧ d.lf = lf := by
  obtain ⟨h1, h2, -⟩ := C62_made_probability hp hi
  unfold Make.partialDistribution at h
  split at h
  · cases h
  · rename_i hl
    cases h
    refine ⟨h1, rfl, rfl, ?_⟩
    rw [← h2]
    simp only [ne_eq, Classical.not_not] at hl
    exact hl.symm

theorem C62_made_mf5 {mt za : Int} {awr : Dbl} {partials : List Partial5} {x : Sect (List Partial5)} (h : Make.mf5 mt za awr partials = .ok x)
    (hn : (partials.length : Int) < 2147483648) :
    x.ZA = za ∧ x.AWR = awr ∧ x.MT = mt ∧ Get.MF5.NK x = partials.length ∧ x.data = partials := by
  obtain ⟨h1, h2, h3, h4⟩ := C62_made_base h
  split at h4
  · cases h4
  · have e := Except.ok.inj h4
    refine ⟨h1, h2, h3, ?_, e.symm⟩
    rw [Get.MF5.NK, ← e]; exact asInt_lt hn

/-- NK is N1 of the HEAD record; the first probability starts on the next line. -/
theorem C62_text_mf5 {s s' : St} {x : Sect (List Partial5)} (h : (SectionType.mf5).defn.parse s = .ok (x, s')) :
    ∃ a b p ps, LineShows 0 s a ∧ LineShows 1 s b ∧ Get.MF5.NK x = toInt32 a.n1 ∧ x.data = p :: ps ∧ Get.MF5.U p = b.c1 ∧ p.dist.lf = toInt32 b.l2 := by
  obtain ⟨a, mt, rs, l0, hb, hr⟩ := C62_records .mf5 h
  obtain ⟨b1, b2, b3⟩ := hb
  cases hx : x.data with
  | nil => exact absurd hx b2
  | cons p ps =>
    rw [hx, many_cons] at b3
    obtain ⟨r1, r2, rfl, ⟨r, rfl, hl⟩, -⟩ := b3
    refine ⟨a, _, p, ps, l0, hr [] _ _ _ rfl rfl, asInt_of b1, rfl, rfl, ?_⟩
    cases hd : p.dist with
    | tabulated b => rw [hd] at hl; exact hl.1.symm
    | general a b => rw [hd] at hl; exact hl.1.symm
    | maxwell a => rw [hd] at hl; exact hl.1.symm
    | evaporation a => rw [hd] at hl; exact hl.1.symm
    | watt a b => rw [hd] at hl; exact hl.1.symm
    | madland a => rw [hd] at hl; exact hl.1.symm

/-! ### MF6 -/

theorem C62_made_multiplicity6 {zap : Int} {awp : Dbl} {lip law : Int} {bounds ints : List Int} {energies multiplicities : List Dbl} {r : TAB1}
    (h : Make.multiplicity6 zap awp lip law bounds ints energies multiplicities = .ok r) (hi : IsInt32 zap ∧ IsInt32 lip ∧ IsInt32 law) :
    Get.Multiplicity6.ZAP r = zap ∧ Get.Multiplicity6.AWP r = awp ∧ Get.Multiplicity6.LIP r = lip ∧ Get.Multiplicity6.LAW r = law ∧
    TableSays r bounds ints energies multiplicities ∧ Get.Multiplicity6.E r = energies ∧ Get.Multiplicity6.Y r = multiplicities := by
  obtain ⟨e1, e2, e3, e4, t⟩ := table_says h
  refine ⟨?_, e2, by rw [Get.Multiplicity6.LIP, e3]; exact toInt32_of hi.2.1, by rw [Get.Multiplicity6.LAW, e4]; exact toInt32_of hi.2.2, t, t.2.2.2.2.1, t.2.2.2.2.2⟩
  rw [Get.Multiplicity6.ZAP, e1, Disco.round_ofInt _ hi.1.1 hi.1.2]
  exact toInt32_of hi.1

theorem C62_text_multiplicity6 {t : Nums} {s s' : St} {r : TAB1} (h : readTAB1 t s = .ok (r, s')) :
    ∃ c, LineShows 0 s c ∧ Get.Multiplicity6.ZAP r = toInt32 (Disco.round c.c1) ∧ Get.Multiplicity6.AWP r = c.c2 ∧ Get.Multiplicity6.LIP r = toInt32 c.l1 ∧
      Get.Multiplicity6.LAW r = toInt32 c.l2 ∧ r.NR = c.n1 ∧ r.NP = c.n2 := ⟨_, tab1_line h, rfl, rfl, rfl, rfl, rfl, rfl⟩

/-- A reaction product: the LAW that was given for the multiplicity is the one of the distribution. -/
theorem C62_made_product6 {zap : Int} {awp : Dbl} {lip law : Int} {bounds ints : List Int} {energies multiplicities : List Dbl} {m : TAB1} {d : Law6} {b : Product6}
    (hm : Make.multiplicity6 zap awp lip law bounds ints energies multiplicities = .ok m) (h : Make.reactionProduct6 m d = .ok b)
    (hi : IsInt32 zap ∧ IsInt32 lip ∧ IsInt32 law) :
    Get.Product6.ZAP b = zap ∧ Get.Product6.AWP b = awp ∧ Get.Product6.LIP b = lip ∧ Get.Product6.LAW b = law ∧ b.multiplicity = m ∧ b.dist = d ∧ d.law = law := by
  obtain ⟨h1, h2, h3, h4, -⟩ := C62_made_multiplicity6 hm hi
  unfold Make.reactionProduct6 at h
  split at h
  · cases h
  · rename_i hl
    cases h
    simp only [ne_eq, Classical.not_not] at hl
    exact ⟨h1, h2, h3, h4, rfl, rfl, by rw [← h4]; exact hl.symm⟩

theorem C62_made_charged6 {spin : Dbl} {lidp : Int} {bounds ints : List Int} {distributions : List LIST} {r : ISeq LIST}
    (h : Make.chargedParticleElasticScattering spin lidp bounds ints distributions = .ok r) :
    Get.Charged6.SPI r = spin ∧ (Get.Charged6.LIDP r = true ↔ lidp ≠ 0) ∧ Get.Charged6.NR r = bounds.length ∧ Get.Charged6.NBT r = bounds ∧ Get.Charged6.INT r = ints ∧
    r.seq = distributions ∧ Get.Charged6.E r = distributions.map (·.c2) ∧
    ((∀ b ∈ bounds, 0 ≤ b ∧ b < 2147483648) → (distributions.length : Int) < 2147483648 → Get.Charged6.NE r = distributions.length) := by
  obtain ⟨e1, -, e3, -, e, r1, r2, r3, r4⟩ := regions_say h
  exact ⟨e1, by rw [Get.Charged6.LIDP, e3]; simp, r1, r2, r3, e, by rw [Get.Charged6.E, e], r4⟩

theorem C62_text_charged6 {t : Nums} {s s' : St} {b : TAB2} {l : List LIST} (h : readTAB2 t s = .ok (b, s')) :
    ∃ c, LineShows 0 s c ∧ Get.Charged6.SPI ⟨b, l⟩ = c.c1 ∧ (Get.Charged6.LIDP ⟨b, l⟩ = true ↔ c.l1 ≠ 0) ∧ Get.Charged6.NR ⟨b, l⟩ = c.n1 ∧
      Get.Charged6.NE ⟨b, l⟩ = c.n2 := ⟨_, tab2_line h, rfl, by simp [Get.Charged6.LIDP], rfl, rfl⟩

theorem C62_made_chargedLegendre6 {energy : Dbl} {coefficients : List Dbl} {r : LIST} (h : Make.chargedLegendre energy coefficients = .ok r) :
    Get.ChargedLegendre6.E r = energy ∧ Get.ChargedLegendre6.NW r = coefficients.length ∧ Get.ChargedLegendre6.NL r = coefficients.length - 1 ∧
    Get.ChargedLegendre6.A r = coefficients := by
  obtain ⟨e, -⟩ := verified_require h
  subst e
  exact ⟨rfl, rfl, rfl, rfl⟩

/-- Thermal scattering data: the incident energy and N2 (the number of values per secondary energy) are those that were given; for data of `k` secondary energies NEP is `k`, and
    LTT is 6 if the first value is the incident energy (elastic) and 5 otherwise. -/
theorem C62_made_thermal6 (energy : Dbl) (n2 : Int) (data : List Dbl) :
    let l := Make.thermalScatteringData energy n2 data
    Get.Thermal6.E l = energy ∧ Get.Thermal6.N2 l = n2 ∧ Get.Thermal6.data l = data ∧
    ((data.length : Int) < 2147483648 → Get.Thermal6.NW l = data.length ∧ ∀ k : Nat, 1 ≤ n2 → (data.length : Int) = k * n2 → Get.Thermal6.NEP l = .ok k) ∧
    (∀ x rest, data = x :: rest → (Disco.eqD x energy = true → Get.Thermal6.LTT l = .ok 6) ∧ (Disco.eqD x energy = false → Get.Thermal6.LTT l = .ok 5)) := by
  refine ⟨rfl, rfl, rfl, fun hn => ?_, ?_⟩
  · have e : Get.Thermal6.NW (Make.thermalScatteringData energy n2 data) = data.length := toInt32_of ⟨by simp only [LIST.npl]; omega, by simpa [Make.thermalScatteringData, LIST.npl] using hn⟩
    refine ⟨e, fun k h1 h2 => ?_⟩
    unfold Get.Thermal6.NEP
    rw [if_neg (by show n2 ≠ 0; omega), e, h2]
    show Except.ok (toInt32 (Int.tdiv (k * n2) n2)) = _
    rw [Int.mul_tdiv_cancel _ (by omega)]
    have : (k : Int) ≤ k * n2 := by
      have := Int.mul_le_mul_of_nonneg_left h1 (show (0 : Int) ≤ k by omega)
      omega
    rw [toInt32_of ⟨by omega, by omega⟩]
  · rintro x rest rfl
    exact ⟨fun h => by simp [Get.Thermal6.LTT, Make.thermalScatteringData, Get.Thermal6.E, h], fun h => by simp [Get.Thermal6.LTT, Make.thermalScatteringData, Get.Thermal6.E, h]⟩

theorem C62_text_thermal6 {t : Nums} {s s' : St} {l : LIST} (h : readLIST t s = .ok (l, s')) :
    ∃ c, LineShows 0 s c ∧ Get.Thermal6.E l = c.c2 ∧ Get.Thermal6.N2 l = c.n2 ∧ Get.Thermal6.NW l = toInt32 c.n1 :=
  ⟨_, list_line h, rfl, rfl, rfl⟩

/-- LANG is the one of the first distribution. -/
theorem C62_made_continuum6 {lep : Int} {bounds ints : List Int} {distributions : List (Int × LIST)} {r : ISeq LIST}
    (h : Make.continuumEnergyAngle lep bounds ints distributions = .ok r) (hl : IsInt32 lep) :
    (∀ d ∈ distributions, d.1 = Get.Continuum6.LANG r) ∧ Get.Continuum6.LEP r = lep ∧ Get.Continuum6.NR r = bounds.length ∧ Get.Continuum6.NBT r = bounds ∧
    Get.Continuum6.INT r = ints ∧ r.seq = distributions.map (·.2) ∧ Get.Continuum6.E r = distributions.map (·.2.c2) ∧
    ((∀ b ∈ bounds, 0 ≤ b ∧ b < 2147483648) → (distributions.length : Int) < 2147483648 → Get.Continuum6.NE r = distributions.length) := by
  unfold Make.continuumEnergyAngle at h
  cases distributions with
  | nil => cases h
  | cons d ds =>
    simp only at h
    obtain ⟨tab2, h1, h⟩ := bind_eq h
    obtain ⟨r', h2, h⟩ := bind_eq h
    split at h
    · rename_i hall
      cases h
      have hs := regions_say (r := r) (h := by rw [h1]; exact h2)
      obtain ⟨rfl, -⟩ := iseq_make h2
      obtain ⟨-, -, e3, e4, e, r1, r2, r3, r4⟩ := hs
      refine ⟨hall, by rw [Get.Continuum6.LEP, e4]; exact toInt32_of hl, r1, r2, r3, e, ?_, fun h1 h2 => ?_⟩
      · rw [Get.Continuum6.E, e]; simp [Function.comp_def]
      · have := r4 h1 (by simpa using h2)
        simp only [List.length_map] at this
        exact this
    · cases h

theorem C62_text_continuum6 {t : Nums} {s s' : St} {b : TAB2} {l : List LIST} (h : readTAB2 t s = .ok (b, s')) :
    ∃ c, LineShows 0 s c ∧ Get.Continuum6.LANG ⟨b, l⟩ = toInt32 c.l1 ∧ Get.Continuum6.LEP ⟨b, l⟩ = toInt32 c.l2 ∧ Get.Continuum6.NR ⟨b, l⟩ = c.n1 ∧
      Get.Continuum6.NE ⟨b, l⟩ = c.n2 := ⟨_, tab2_line h, rfl, rfl, rfl, rfl⟩

theorem C62_made_twoBody6 {bounds ints : List Int} {distributions : List LIST} {r : ISeq LIST}
    (h : Make.discreteTwoBodyScattering bounds ints distributions = .ok r) :
    Get.TwoBody6.NR r = bounds.length ∧ Get.TwoBody6.NBT r = bounds ∧ Get.TwoBody6.INT r = ints ∧ r.seq = distributions ∧ Get.TwoBody6.E r = distributions.map (·.c2) ∧
    ((∀ b ∈ bounds, 0 ≤ b ∧ b < 2147483648) → (distributions.length : Int) < 2147483648 → Get.TwoBody6.NE r = distributions.length) := by
  obtain ⟨-, -, -, -, e, r1, r2, r3, r4⟩ := regions_say h
  exact ⟨r1, r2, r3, e, by rw [Get.TwoBody6.E, e], r4⟩

theorem C62_made_nBody6 (apsx : Dbl) (npsx : Int) (h : IsInt32 npsx) :
    Get.NBody6.APSX (Make.nBodyPhaseSpace apsx npsx) = apsx ∧ Get.NBody6.NPSX (Make.nBodyPhaseSpace apsx npsx) = npsx := ⟨rfl, toInt32_of h⟩

theorem C62_text_nBody6 {t : Nums} {s s' : St} {b : Cont} (h : readCont t s = .ok (b, s')) :
    ∃ c, LineShows 0 s c ∧ Get.NBody6.APSX b = c.c1 ∧ Get.NBody6.NPSX b = toInt32 c.n2 := ⟨_, (cont_line h).1, rfl, rfl⟩

theorem C62_made_energyDistribution6 {cosine : Dbl} {bounds ints : List Int} {energies probabilities : List Dbl} {r : TAB1}
    (h : Make.energyDistribution cosine bounds ints energies probabilities = .ok r) :
    Get.EnergyDistribution6.MU r = cosine ∧ Get.EnergyDistribution6.NRP r = bounds.length ∧ Get.EnergyDistribution6.NEP r = energies.length ∧
    TableSays r bounds ints energies probabilities ∧ Get.EnergyDistribution6.EP r = energies ∧ Get.EnergyDistribution6.F r = probabilities := by
  obtain ⟨-, e2, -, -, t⟩ := table_says h
  exact ⟨e2, t.1, t.2.1, t, t.2.2.2.2.1, t.2.2.2.2.2⟩

theorem C62_text_energyDistribution6 {t : Nums} {s s' : St} {r : TAB1} (h : readTAB1 t s = .ok (r, s')) :
    ∃ c, LineShows 0 s c ∧ Get.EnergyDistribution6.MU r = c.c2 ∧ Get.EnergyDistribution6.NRP r = c.n1 ∧ Get.EnergyDistribution6.NEP r = c.n2 :=
  ⟨_, tab1_line h, rfl, rfl, rfl⟩

theorem C62_made_angularDistribution6 {energy : Dbl} {bounds ints : List Int} {distributions : List TAB1} {r : ISeq TAB1}
    (h : Make.angularDistribution energy bounds ints distributions = .ok r) :
    Get.AngularDistribution6.E r = energy ∧ Get.AngularDistribution6.NRM r = bounds.length ∧ Get.AngularDistribution6.NBT r = bounds ∧
    Get.AngularDistribution6.INT r = ints ∧ r.seq = distributions ∧ Get.AngularDistribution6.MU r = distributions.map Get.EnergyDistribution6.MU ∧
    ((∀ b ∈ bounds, 0 ≤ b ∧ b < 2147483648) → (distributions.length : Int) < 2147483648 → Get.AngularDistribution6.NMU r = distributions.length) := by
  obtain ⟨-, e2, -, -, e, r1, r2, r3, r4⟩ := regions_say h
  exact ⟨e2, r1, r2, r3, e, by rw [Get.AngularDistribution6.MU, e], r4⟩

theorem C62_text_angularDistribution6 {t : Nums} {s s' : St} {b : TAB2} {l : List TAB1} (h : readTAB2 t s = .ok (b, s')) :
    ∃ c, LineShows 0 s c ∧ Get.AngularDistribution6.E ⟨b, l⟩ = c.c2 ∧ Get.AngularDistribution6.NRM ⟨b, l⟩ = c.n1 ∧ Get.AngularDistribution6.NMU ⟨b, l⟩ = c.n2 :=
  ⟨_, tab2_line h, rfl, rfl, rfl⟩

theorem C62_made_laboratory6 {bounds ints : List Int} {distributions : List (ISeq TAB1)} {r : ISeq (ISeq TAB1)}
    (h : Make.laboratoryAngleEnergy bounds ints distributions = .ok r) :
    Get.Laboratory6.NR r = bounds.length ∧ Get.Laboratory6.NBT r = bounds ∧ Get.Laboratory6.INT r = ints ∧ r.seq = distributions ∧
    Get.Laboratory6.E r = distributions.map Get.AngularDistribution6.E ∧
    ((∀ b ∈ bounds, 0 ≤ b ∧ b < 2147483648) → (distributions.length : Int) < 2147483648 → Get.Laboratory6.NE r = distributions.length) := by
  obtain ⟨-, -, -, -, e, r1, r2, r3, r4⟩ := regions_say h
  exact ⟨r1, r2, r3, e, by rw [Get.Laboratory6.E, e], r4⟩

theorem C62_made_mf6 {mt za : Int} {awr : Dbl} {jp lct : Int} {products : List Product6} {x : Sect MF6Data} (h : Make.mf6 mt za awr jp lct products = .ok x)
    (hi : IsInt32 jp ∧ IsInt32 lct) (hn : (products.length : Int) < 2147483648) :
    x.ZA = za ∧ x.AWR = awr ∧ x.MT = mt ∧ Get.MF6.JP x = jp ∧ Get.MF6.LCT x = lct ∧ Get.MF6.NK x = products.length ∧ x.data.products = products := by
  have e := build_eq h
  subst e
  exact ⟨rfl, rfl, rfl, toInt32_of hi.1, toInt32_of hi.2, asInt_lt hn, rfl⟩

/-- JP is L1, LCT is L2, NK is N1 of the HEAD record; the first product starts on the next line. -/
theorem C62_text_mf6 {s s' : St} {x : Sect MF6Data} (h : (SectionType.mf6).defn.parse s = .ok (x, s')) :
    ∃ a, LineShows 0 s a ∧ Get.MF6.JP x = toInt32 a.l1 ∧ Get.MF6.LCT x = toInt32 a.l2 ∧ Get.MF6.NK x = toInt32 a.n1 ∧
      ∀ p ps, x.data.products = p :: ps → ∃ b, LineShows 1 s b ∧ Get.Product6.ZAP p = toInt32 (Disco.round b.c1) ∧ Get.Product6.AWP p = b.c2 ∧
        Get.Product6.LIP p = toInt32 b.l1 ∧ Get.Product6.LAW p = toInt32 b.l2 := by
  obtain ⟨a, mt, rs, l0, hb, hr⟩ := C62_records .mf6 h
  obtain ⟨b1, b2, b3, b4⟩ := hb
  refine ⟨a, l0, b1, b2, asInt_of b3, fun p ps hx => ?_⟩
  rw [hx, many_cons] at b4
  obtain ⟨r1, r2, rfl, ⟨r, rfl, hl⟩, -⟩ := b4
  exact ⟨_, hr [] _ _ _ rfl rfl, rfl, rfl, rfl, rfl⟩

/-! ### MF26 -/

theorem C62_made_product26 {zap : Int} {awi : Dbl} {law : Int} {bounds ints : List Int} {energies multiplicities : List Dbl} {m : TAB1} {d : Law26} {b : Product26}
    (hm : Make.multiplicity26 zap awi law bounds ints energies multiplicities = .ok m) (h : Make.reactionProduct26 m d = .ok b) (hi : IsInt32 zap ∧ IsInt32 law) :
    Get.Product26.ZAP b = zap ∧ Get.Product26.AWI b = awi ∧ Get.Product26.LAW b = law ∧ TableSays b.multiplicity bounds ints energies multiplicities ∧ b.dist = d ∧
    d.law = law := by
  obtain ⟨e1, e2, e3, e4, t⟩ := table_says hm
  unfold Make.reactionProduct26 at h
  split at h
  · cases h
  · rename_i hl
    cases h
    simp only [ne_eq, Classical.not_not] at hl
    rw [e4, toInt32_of hi.2] at hl
    refine ⟨?_, e2, by rw [Get.Product26.LAW, e4]; exact toInt32_of hi.2, t, rfl, hl.symm⟩
    rw [Get.Product26.ZAP]
    simp only
    rw [e1, Disco.round_ofInt _ hi.1.1 hi.1.2]
    exact toInt32_of hi.1

theorem C62_made_continuum26 {lep : Int} {bounds ints : List Int} {distributions : List LIST} {r : ISeq LIST}
    (h : Make.continuumEnergyAngle26 lep bounds ints distributions = .ok r) (hl : IsInt32 lep) :
    Get.Continuum6.LANG r = 1 ∧ Get.Continuum6.LEP r = lep ∧ Get.Continuum6.NR r = bounds.length ∧ Get.Continuum6.NBT r = bounds ∧
    Get.Continuum6.INT r = ints ∧ r.seq = distributions ∧ Get.Continuum6.E r = distributions.map (·.c2) ∧
    ((∀ b ∈ bounds, 0 ≤ b ∧ b < 2147483648) → (distributions.length : Int) < 2147483648 → Get.Continuum6.NE r = distributions.length) := by
  unfold Make.continuumEnergyAngle26 at h
  obtain ⟨tab2, h1, h⟩ := bind_eq h
  obtain ⟨r', h2, h⟩ := bind_eq h
  split at h
  · cases h
    have hs := regions_say (r := r) (h := by rw [h1]; exact h2)
    obtain ⟨-, -, e3, e4, e, r1, r2, r3, r4⟩ := hs
    exact ⟨by rw [Get.Continuum6.LANG, e3]; exact toInt32_of (by decide), by rw [Get.Continuum6.LEP, e4]; exact toInt32_of hl, r1, r2, r3, e,
      by rw [Get.Continuum6.E, e], r4⟩
  · cases h

theorem C62_made_twoBody26 {bounds ints : List Int} {distributions : List LIST} {r : ISeq LIST}
    (h : Make.discreteTwoBodyScattering26 bounds ints distributions = .ok r) :
    Get.TwoBody6.NR r = bounds.length ∧ Get.TwoBody6.NBT r = bounds ∧ Get.TwoBody6.INT r = ints ∧ r.seq = distributions ∧ Get.TwoBody6.E r = distributions.map (·.c2) ∧
    ((∀ b ∈ bounds, 0 ≤ b ∧ b < 2147483648) → (distributions.length : Int) < 2147483648 → Get.TwoBody6.NE r = distributions.length) := by
  obtain ⟨-, -, -, -, e, r1, r2, r3, r4⟩ := regions_say h
  exact ⟨r1, r2, r3, e, by rw [Get.TwoBody6.E, e], r4⟩

theorem C62_made_mf26 {mt za : Int} {awr : Dbl} {products : List Product26} {x : Sect (List Product26)} (h : Make.mf26 mt za awr products = .ok x)
    (hn : (products.length : Int) < 2147483648) :
    x.ZA = za ∧ x.AWR = awr ∧ x.MT = mt ∧ Get.MF26.NK x = products.length ∧ x.data = products := by
  have e := build_eq h
  subst e
  exact ⟨rfl, rfl, rfl, asInt_lt hn, rfl⟩

/-- NK is N1 of the HEAD record; the first product starts on the next line. -/
theorem C62_text_mf26 {s s' : St} {x : Sect (List Product26)} (h : (SectionType.mf26).defn.parse s = .ok (x, s')) :
    ∃ a, LineShows 0 s a ∧ Get.MF26.NK x = toInt32 a.n1 ∧
      ∀ p ps, x.data = p :: ps → ∃ b, LineShows 1 s b ∧ Get.Product26.ZAP p = toInt32 (Disco.round b.c1) ∧ Get.Product26.AWI p = b.c2 ∧
        Get.Product26.LAW p = toInt32 b.l2 := by
  obtain ⟨a, mt, rs, l0, hb, hr⟩ := C62_records .mf26 h
  obtain ⟨b3, b4⟩ := hb
  refine ⟨a, l0, asInt_of b3, fun p ps hx => ?_⟩
  rw [hx, many_cons] at b4
  obtain ⟨r1, r2, rfl, ⟨r, rfl, hl⟩, -⟩ := b4
  exact ⟨_, hr [] _ _ _ rfl rfl, rfl, rfl, rfl⟩

/-! ### C63: looking up a reaction product -/

/-- `hasReactionProduct( zap )` says whether `reactionProduct( zap )` returns something, which is the first product with this ZA; otherwise
    it throws an exception. -/
def LooksUp {α : Type} (number : α → Int) (products : List α) (has : Bool) (result : Except Err α) (n : Int) : Prop :=
  (has = true ↔ ∃ p ∈ products, number p = n) ∧
  (∀ p, result = .ok p ↔ ∃ before after, products = before ++ p :: after ∧ number p = n ∧ ∀ q ∈ before, number q ≠ n) ∧
  ((∀ p ∈ products, number p ≠ n) → result = .error .exc)

theorem looksUp_find {α : Type} (number : α → Int) (products : List α) (n : Int) :
    LooksUp number products (products.find? (fun p => number p == n)).isSome
      (Get.found (products.find? (fun p => number p == n))) n := by
  refine ⟨by rw [List.find?_isSome]; simp, fun p => ?_, fun h => ?_⟩
  · cases hf : products.find? (fun p => number p == n) with
    | none =>
      rw [List.find?_eq_none] at hf
      simp only [beq_iff_eq] at hf
      constructor
      · intro h; cases h
      · rintro ⟨b, a, rfl, h, -⟩
        exact absurd h (hf p (by simp))
    | some q =>
      rw [List.find?_eq_some_iff_append] at hf
      obtain ⟨h1, b, a, h2, h3⟩ := hf
      simp only [beq_iff_eq, Bool.not_eq_true', beq_eq_false_iff_ne] at h1 h3
      constructor
      · intro h; cases h; exact ⟨b, a, h2, h1, h3⟩
      · rintro ⟨b', a', h4, h5, h6⟩
        rw [h2] at h4
        rw [List.append_eq_append_iff] at h4
        rcases h4 with ⟨c, hc1, hc2⟩ | ⟨c, hc1, hc2⟩
        · cases c with
          | nil => simp at hc2; rw [hc2.1]; rfl
          | cons y ys =>
            simp only [List.cons_append, List.cons.injEq] at hc2
            exact absurd h1 (h6 q (by rw [hc1, hc2.1]; simp))
        · cases c with
          | nil => simp at hc2; rw [hc2.1]; rfl
          | cons y ys =>
            simp only [List.cons_append, List.cons.injEq] at hc2
            exact absurd h5 (h3 p (by rw [hc1, hc2.1]; simp))
  · rw [show products.find? (fun p => number p == n) = none from by rw [List.find?_eq_none]; simpa using h]; rfl

theorem C63_mf6 (x : Sect MF6Data) (zap : Int) :
    LooksUp Get.Product6.ZAP x.data.products (Get.MF6.hasReactionProduct x zap) (Get.MF6.reactionProduct x zap) zap := looksUp_find _ _ _

theorem C63_mf26 (x : Sect (List Product26)) (zap : Int) :
    LooksUp Get.Product26.ZAP x.data (Get.MF26.hasReactionProduct x zap) (Get.MF26.reactionProduct x zap) zap := looksUp_find _ _ _

end ENDFtk.Props

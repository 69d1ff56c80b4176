import Verif.Props.Access
/-
  C62: getters, part 2: files 1 and 4.
-/
set_option linter.unusedVariables false
set_option linter.unusedSectionVars false
set_option linter.unusedSimpArgs false
namespace ENDFtk.Props
variable [Disco]

theorem asInt_of {n : Nat} {k : Int} (h : toInt32 k = n) : asInt n = toInt32 k := by
  rw [asInt, ← h]; exact toInt32_of (isInt32_toInt32 k)

theorem asInt_lt {n : Nat} (h : (n : Int) < 2147483648) : asInt n = n := toInt32_of ⟨by omega, h⟩

theorem cont_next {t : Nums} {c : Cont} {rs : List Rec} {s s' : St} (h : Recs t (.cont c :: rs) s s') :
    LineShows 0 s c ∧ ∃ s1, s1.rest = afterLine s.rest ∧ Recs t rs s1 s' := by
  obtain ⟨s1, h1, h2⟩ := recs_cons.mp h
  obtain ⟨l, e⟩ := cont_line h1
  exact ⟨l, s1, e, h2⟩

/-! ### MF1 MT451 -/

theorem C62_made_mf1mt451 {za : Int} {awr : Dbl} {lrp lfi nlib nmod : Int} {elis sta : Dbl} {lis liso nfor : Int} {awi emax : Dbl} {lrel nsub nver : Int}
    {temp : Dbl} {ldrv : Int} {description : Text} {index : List Dir} {rtol : Dbl} {x : Sect Info451}
    (h : Make.mf1mt451 za awr lrp lfi nlib nmod elis sta lis liso nfor awi emax lrel nsub nver temp ldrv description index rtol = .ok x)
    (hi : IsInt32 lis ∧ IsInt32 liso ∧ IsInt32 nfor ∧ IsInt32 lrel ∧ IsInt32 nsub ∧ IsInt32 nver ∧ IsInt32 ldrv) (hn : (index.length : Int) < 2147483648) :
    x.ZA = za ∧ x.AWR = awr ∧ x.MT = 451 ∧ Get.MF1MT451.LRP x = lrp ∧ Get.MF1MT451.LFI x = lfi ∧ Get.MF1MT451.NLIB x = nlib ∧ Get.MF1MT451.NMOD x = nmod ∧
    Get.MF1MT451.ELIS x = elis ∧ Get.MF1MT451.STA x = sta ∧ Get.MF1MT451.LIS x = lis ∧ Get.MF1MT451.LISO x = liso ∧ Get.MF1MT451.NFOR x = nfor ∧
    Get.MF1MT451.AWI x = awi ∧ Get.MF1MT451.EMAX x = emax ∧ Get.MF1MT451.LREL x = lrel ∧ Get.MF1MT451.NSUB x = nsub ∧ Get.MF1MT451.NVER x = nver ∧
    Get.MF1MT451.TEMP x = temp ∧ Get.MF1MT451.RTOL x = rtol ∧ Get.MF1MT451.LDRV x = ldrv ∧ Get.MF1MT451.NXC x = index.length ∧ x.data.index = index ∧
    (Get.MF1MT451.isFissile x = true ↔ lfi ≠ 0) := by
  have e := build_eq h
  subst e
  obtain ⟨i1, i2, i3, i4, i5, i6, i7⟩ := hi
  exact ⟨rfl, rfl, rfl, rfl, rfl, rfl, rfl, rfl, rfl, toInt32_of i1, toInt32_of i2, toInt32_of i3, rfl, rfl, toInt32_of i4, toInt32_of i5, toInt32_of i6, rfl, rfl,
    toInt32_of i7, asInt_lt hn, rfl, by simp [Get.MF1MT451.isFissile, Get.MF1MT451.LFI]⟩

/-- The four lines at the start of MF1 MT451. -/
theorem C62_text_mf1mt451 {s s' : St} {x : Sect Info451} (h : (SectionType.mf1mt451).defn.parse s = .ok (x, s')) :
    ∃ a b c d, LineShows 0 s a ∧ LineShows 1 s b ∧ LineShows 2 s c ∧ LineShows 3 s d ∧
    Get.MF1MT451.LRP x = toInt32 a.l1 ∧ Get.MF1MT451.LFI x = toInt32 a.l2 ∧ Get.MF1MT451.NLIB x = toInt32 a.n1 ∧ Get.MF1MT451.NMOD x = toInt32 a.n2 ∧
    Get.MF1MT451.ELIS x = b.c1 ∧ Get.MF1MT451.STA x = b.c2 ∧ Get.MF1MT451.LIS x = toInt32 b.l1 ∧ Get.MF1MT451.LISO x = toInt32 b.l2 ∧
    Get.MF1MT451.NFOR x = toInt32 b.n2 ∧
    Get.MF1MT451.AWI x = c.c1 ∧ Get.MF1MT451.EMAX x = c.c2 ∧ Get.MF1MT451.LREL x = toInt32 c.l1 ∧ Get.MF1MT451.NSUB x = toInt32 c.n1 ∧
    Get.MF1MT451.NVER x = toInt32 c.n2 ∧
    Get.MF1MT451.TEMP x = d.c1 ∧ Get.MF1MT451.RTOL x = d.c2 ∧ Get.MF1MT451.LDRV x = toInt32 d.l1 ∧ Get.MF1MT451.NWD x = toInt32 d.n1 ∧
    Get.MF1MT451.NXC x = toInt32 d.n2 := by
  obtain ⟨head, s0, h0, -, -, -, -, rs, s1, hr, hb, -⟩ := (C51_parse .mf1mt451 s x s').mp h
  obtain ⟨b1, b2, b3, b4, rfl, -, b6, -, b8⟩ := hb
  obtain ⟨l0, -, e0⟩ := division_line h0
  obtain ⟨l1, sa, e1, hr⟩ := cont_next hr
  obtain ⟨l2, sb, e2, hr⟩ := cont_next hr
  obtain ⟨l3, sc, e3, hr⟩ := cont_next hr
  rw [line_succ e0] at l1
  rw [line_succ e1, line_succ e0] at l2
  rw [line_succ e2, line_succ e1, line_succ e0] at l3
  exact ⟨_, _, _, _, l0, l1, l2, l3, b1, b2, b3, b4, rfl, rfl, rfl, rfl, rfl, rfl, rfl, rfl, rfl, rfl, rfl, rfl, rfl, asInt_of b6, asInt_of b8⟩

/-- `isStable()` is true for every value of STA that is not zero; in the ENDF-6 format it is STA = 0 that says that the nucleus is stable. -/
theorem C62_isStable_inverted {s s' : St} {x : Sect Info451} (h : (SectionType.mf1mt451).defn.parse s = .ok (x, s')) :
    ∃ b, LineShows 1 s b ∧ (Get.MF1MT451.isStable x = true ↔ Disco.eqD b.c2 Disco.zero = false) := by
  obtain ⟨a, b, c, d, -, l1, -, -, -, -, -, -, -, hs, -⟩ := C62_text_mf1mt451 h
  refine ⟨b, l1, ?_⟩
  rw [Get.MF1MT451.isStable, hs]; simp

/-! ### MF1 MT452, 455, 456 -/

theorem C62_made_polynomial (coefficients : List Dbl) (hn : (coefficients.length : Int) < 2147483648) :
    Get.Multiplicity1.LNU (.poly (Make.polynomialMultiplicity coefficients)) = 1 ∧ Get.Multiplicity1.NCO (Make.polynomialMultiplicity coefficients) = coefficients.length ∧
    Get.Multiplicity1.C (Make.polynomialMultiplicity coefficients) = coefficients := ⟨rfl, asInt_lt hn, rfl⟩

theorem C62_made_tabulatedMultiplicity {bounds ints : List Int} {energies multiplicities : List Dbl} {r : TAB1}
    (h : Make.tabulatedMultiplicity bounds ints energies multiplicities = .ok r) :
    Get.Multiplicity1.LNU (.tab r) = 2 ∧ TableSays r bounds ints energies multiplicities ∧ Get.Multiplicity1.E r = energies ∧ Get.Multiplicity1.NU r = multiplicities := by
  obtain ⟨-, -, -, -, t⟩ := table_says h
  exact ⟨rfl, t, t.2.2.2.2.1, t.2.2.2.2.2⟩

/-- LNU is L2 of the HEAD record; the counts are in the record that follows. -/
theorem C62_text_mf1mt452 {s s' : St} {x : Sect Nubar} (h : (SectionType.mf1mt452).defn.parse s = .ok (x, s')) :
    ∃ a b, LineShows 0 s a ∧ LineShows 1 s b ∧ Get.Multiplicity1.LNU x.data = toInt32 a.l2 ∧
      (∀ r, x.data = .poly r → Get.Multiplicity1.NCO r = toInt32 b.n1) ∧ ∀ r, x.data = .tab r → r.NR = b.n1 ∧ r.NP = b.n2 := by
  obtain ⟨head, s0, h0, -, -, -, -, rs, s1, hr, hb, -⟩ := (C51_parse .mf1mt452 s x s').mp h
  obtain ⟨l0, -, e0⟩ := division_line h0
  replace hb : Fmt.nubar head.base.l2 x.data rs := hb
  cases hd : x.data with
  | poly r =>
    rw [hd] at hb
    obtain ⟨b1, rfl⟩ := hb
    exact ⟨_, _, l0, (line_succ e0).mp (list_line (recs_singleton.mp hr)), b1.symm, fun _ e => by cases e; rfl, fun _ e => by cases e⟩
  | tab r =>
    rw [hd] at hb
    obtain ⟨b1, rfl⟩ := hb
    exact ⟨_, _, l0, (line_succ e0).mp (tab1_line (recs_singleton.mp hr)), b1.symm, fun _ e => (by cases e), fun _ e => by cases e; exact ⟨rfl, rfl⟩⟩

theorem C62_text_mf1mt456 {s s' : St} {x : Sect Nubar} (h : (SectionType.mf1mt456).defn.parse s = .ok (x, s')) :
    ∃ a b, LineShows 0 s a ∧ LineShows 1 s b ∧ Get.Multiplicity1.LNU x.data = toInt32 a.l2 ∧
      (∀ r, x.data = .poly r → Get.Multiplicity1.NCO r = toInt32 b.n1) ∧ ∀ r, x.data = .tab r → r.NR = b.n1 ∧ r.NP = b.n2 := by
  obtain ⟨head, s0, h0, -, -, -, -, rs, s1, hr, hb, -⟩ := (C51_parse .mf1mt456 s x s').mp h
  obtain ⟨l0, -, e0⟩ := division_line h0
  replace hb : Fmt.nubar head.base.l2 x.data rs := hb
  cases hd : x.data with
  | poly r =>
    rw [hd] at hb
    obtain ⟨b1, rfl⟩ := hb
    exact ⟨_, _, l0, (line_succ e0).mp (list_line (recs_singleton.mp hr)), b1.symm, fun _ e => by cases e; rfl, fun _ e => by cases e⟩
  | tab r =>
    rw [hd] at hb
    obtain ⟨b1, rfl⟩ := hb
    exact ⟨_, _, l0, (line_succ e0).mp (tab1_line (recs_singleton.mp hr)), b1.symm, fun _ e => (by cases e), fun _ e => by cases e; exact ⟨rfl, rfl⟩⟩

theorem C62_made_energyIndependentConstants (constants : List Dbl) (hn : (constants.length : Int) < 2147483648) :
    Get.Constants455.LDG (.indep (Make.energyIndependentConstants constants)) = 0 ∧ Get.Constants455.NNF (Make.energyIndependentConstants constants) = constants.length ∧
    Get.Constants455.lambdas (Make.energyIndependentConstants constants) = constants := ⟨rfl, asInt_lt hn, rfl⟩

/-- Decay constants for several energies; the number of families is the one of every energy. -/
theorem C62_made_energyDependentConstants {bounds ints : List Int} {constants : List LIST} {r : ISeq LIST}
    (h : Make.energyDependentConstants bounds ints constants = .ok r) :
    Get.Constants455.LDG (.dep r) = 1 ∧ Get.Constants455.NR r = bounds.length ∧ Get.Constants455.NBT r = bounds ∧ Get.Constants455.INT r = ints ∧ r.seq = constants ∧
    ((∀ b ∈ bounds, 0 ≤ b ∧ b < 2147483648) → (constants.length : Int) < 2147483648 → Get.Constants455.NE r = constants.length) ∧
    Get.Constants455.E r = constants.map (·.c2) ∧ ∃ n, Get.Constants455.NNFdep r = .ok n ∧ ∀ c ∈ constants, nnf c = n := by
  unfold Make.energyDependentConstants at h
  obtain ⟨tab2, h1, h2⟩ := bind_eq h
  obtain ⟨r', h3, h4⟩ := bind_eq h2
  have hs := regions_say (r := r') (h := by rw [h1]; exact h3)
  obtain ⟨-, h5, -⟩ := iseq_make h3
  obtain ⟨-, -, -, -, e, ⟨r1, r2, r3, r4⟩⟩ := hs
  split at h4
  · rename_i hall
    cases h4
    refine ⟨rfl, r1, r2, r3, e, r4, by rw [Get.Constants455.E, e], ?_⟩
    rw [e] at hall
    cases constants with
    | nil => simp at h5
    | cons c cs =>
      refine ⟨nnf c, ?_, fun y hy => ?_⟩
      · rw [Get.Constants455.NNFdep, e]; rfl
      · have := hall y hy
        simpa using this
  · cases h4

/-- LDG is L1, LNU is L2 of the HEAD record. -/
theorem C62_text_mf1mt455 {s s' : St} {x : Sect Delayed} (h : (SectionType.mf1mt455).defn.parse s = .ok (x, s')) :
    ∃ a b, LineShows 0 s a ∧ LineShows 1 s b ∧ Get.Constants455.LDG x.data.lambda = toInt32 a.l1 ∧ Get.Multiplicity1.LNU x.data.nubar = toInt32 a.l2 ∧
      (∀ r, x.data.lambda = .indep r → Get.Constants455.NNF r = toInt32 b.n1) ∧
      ∀ r, x.data.lambda = .dep r → Get.Constants455.NR r = b.n1 ∧ Get.Constants455.NE r = b.n2 := by
  obtain ⟨head, s0, h0, -, -, -, -, rs, s1, hr, ⟨ra, rb, rfl, hb1, hb2⟩, -⟩ := (C51_parse .mf1mt455 s x s').mp h
  obtain ⟨l0, -, e0⟩ := division_line h0
  obtain ⟨sm, hr1, hr2⟩ := recs_append.mp hr
  have hn : Get.Multiplicity1.LNU x.data.nubar = toInt32 head.base.l2 := by
    cases hd : x.data.nubar with
    | poly r => rw [hd] at hb2; exact hb2.1.symm
    | tab r => rw [hd] at hb2; exact hb2.1.symm
  cases hd : x.data.lambda with
  | indep r =>
    rw [hd] at hb1
    obtain ⟨b1, rfl⟩ := hb1
    exact ⟨_, _, l0, (line_succ e0).mp (list_line (recs_singleton.mp hr1)), b1.symm, hn, fun _ e => by cases e; rfl, fun _ e => by cases e⟩
  | dep r =>
    rw [hd] at hb1
    obtain ⟨b1, rfl, -⟩ := hb1
    obtain ⟨_, ht, -⟩ := recs_cons.mp hr1
    exact ⟨_, _, l0, (line_succ e0).mp (tab2_line ht), b1.symm, hn, fun _ e => (by cases e), fun _ e => by cases e; exact ⟨rfl, rfl⟩⟩

/-! ### MF1 MT458 -/

theorem C62_made_energyReleaseComponent {ldrv : Bool} {ifc : Int} {bounds ints : List Int} {energies qvalues : List Dbl} {r : TAB1}
    (h : Make.energyReleaseComponent ldrv ifc bounds ints energies qvalues = .ok r) (hi : IsInt32 ifc) :
    Get.Release458.LDRV r = ldrv ∧ Get.Release458.IFC r = ifc ∧ TableSays r bounds ints energies qvalues ∧ Get.Release458.E r = energies ∧
    Get.Release458.EIFC r = qvalues := by
  obtain ⟨r', h1, h2⟩ := bind_eq h
  obtain ⟨-, -, e3, e4, t⟩ := table_says h1
  split at h2
  · cases h2
    refine ⟨?_, by rw [Get.Release458.IFC, e4]; exact toInt32_of hi, t, t.2.2.2.2.1, t.2.2.2.2.2⟩
    rw [Get.Release458.LDRV, e3]
    cases ldrv <;> rfl
  · cases h2

/-- The getters of the tabulated components return the table with the index of the component, if one was given. -/
theorem C62_made_tabulatedComponents {thermal : LIST} {tables : List TAB1} {b : TabComp} (h : Make.tabulatedComponents thermal tables = .ok b) :
    Get.Release458.LFC (.tab b) = 1 ∧ Get.Release458.NFC (.tab b) = tables.length ∧ Get.Release458.NPLY (.tab b) = 0 ∧ b.values = thermal ∧
    ∀ r, (Get.Release458.tabulatedEFR b = some r ↔ r ∈ tables ∧ Get.Release458.IFC r = 1) ∧ (Get.Release458.tabulatedENP b = some r ↔ r ∈ tables ∧ Get.Release458.IFC r = 2) ∧
      (Get.Release458.tabulatedEND b = some r ↔ r ∈ tables ∧ Get.Release458.IFC r = 3) ∧ (Get.Release458.tabulatedEGP b = some r ↔ r ∈ tables ∧ Get.Release458.IFC r = 4) ∧
      (Get.Release458.tabulatedEGD b = some r ↔ r ∈ tables ∧ Get.Release458.IFC r = 5) ∧ (Get.Release458.tabulatedEB b = some r ↔ r ∈ tables ∧ Get.Release458.IFC r = 6) ∧
      (Get.Release458.tabulatedENU b = some r ↔ r ∈ tables ∧ Get.Release458.IFC r = 7) ∧ (Get.Release458.tabulatedER b = some r ↔ r ∈ tables ∧ Get.Release458.IFC r = 8) ∧
      (Get.Release458.tabulatedET b = some r ↔ r ∈ tables ∧ Get.Release458.IFC r = 9) := by
  obtain ⟨h1, h2, h3, h4, -⟩ := C61_tabulatedComponents h
  have key : ∀ (i : Nat) (r : TAB1), b.comps[i]?.join = some r ↔ r ∈ tables ∧ Get.Release458.IFC r = i + 1 := by
    intro i r
    rw [Option.join_eq_some_iff]
    exact h4 i r
  exact ⟨rfl, h2, rfl, h1, fun r => ⟨key 0 r, key 1 r, key 2 r, key 3 r, key 4 r, key 5 r, key 6 r, key 7 r, key 8 r⟩⟩

/-- LFC is L2, NFC is N2 of the HEAD record; NPLY of polynomials is L2 of the LIST record. -/
theorem C62_text_mf1mt458 {s s' : St} {x : Sect Release} (h : (SectionType.mf1mt458).defn.parse s = .ok (x, s')) :
    ∃ a b, LineShows 0 s a ∧ LineShows 1 s b ∧ Get.Release458.LFC x.data = toInt32 a.l2 ∧
      (Get.Release458.LFC x.data = 0 → Get.Release458.NPLY x.data = toInt32 b.l2 ∧ Get.Release458.NFC x.data = 0) ∧
      (Get.Release458.LFC x.data = 1 → Get.Release458.NFC x.data = toInt32 a.n2) := by
  obtain ⟨head, s0, h0, -, -, -, -, rs, s1, hr, hb, -⟩ := (C51_parse .mf1mt458 s x s').mp h
  obtain ⟨l0, -, e0⟩ := division_line h0
  replace hb : Fmt.mf1mt458 head.base x.data rs := hb
  cases hd : x.data with
  | thermal r =>
    rw [hd] at hb
    obtain ⟨b1, rfl, b2, -⟩ := hb
    exact ⟨_, _, l0, (line_succ e0).mp (list_line (recs_singleton.mp hr)), b1.symm, fun _ => ⟨by simp only [b2]; exact (toInt32_of (show IsInt32 0 by decide)).symm, rfl⟩, fun e => by cases e⟩
  | poly r =>
    rw [hd] at hb
    obtain ⟨b1, rfl, -⟩ := hb
    exact ⟨_, _, l0, (line_succ e0).mp (list_line (recs_singleton.mp hr)), b1.symm, fun _ => ⟨rfl, rfl⟩, fun e => by cases e⟩
  | tab c =>
    rw [hd] at hb
    obtain ⟨b1, b2, cs, rfl, -⟩ := hb
    obtain ⟨_, ht, -⟩ := recs_cons.mp hr
    exact ⟨_, _, l0, (line_succ e0).mp (list_line ht), b1.symm, fun e => (by cases e), fun _ => b2⟩

/-! ### MF1 MT460 -/

theorem C62_made_discretePhoton {energy : Dbl} {lph : Int} {bounds ints : List Int} {time multiplicities : List Dbl} {r : TAB1}
    (h : Make.discretePhotonMultiplicity energy lph bounds ints time multiplicities = .ok r) (hi : IsInt32 lph) :
    Get.Photons460.E r = energy ∧ Get.Photons460.LPH r = lph ∧ TableSays r bounds ints time multiplicities ∧ Get.Photons460.time r = time ∧
    Get.Photons460.multiplicities r = multiplicities := by
  obtain ⟨e1, -, e3, -, t⟩ := table_says h
  exact ⟨e1, by rw [Get.Photons460.LPH, e3]; exact toInt32_of hi, t, t.2.2.2.2.1, t.2.2.2.2.2⟩

theorem C62_made_photons {photons : List TAB1} {b : Photons} (h : Make.discretePhotons photons = .ok b) (hn : (photons.length : Int) < 2147483648) :
    b = .discrete photons ∧ Get.Photons460.LO b = 1 ∧ Get.Photons460.NG b = photons.length := by
  unfold Make.discretePhotons at h
  split at h
  · cases h
  · cases h; exact ⟨rfl, rfl, asInt_lt hn⟩

theorem C62_made_continuousPhotons {constants : List Dbl} {b : Photons} (h : Make.continuousPhotons constants = .ok b) (hn : (constants.length : Int) < 2147483648) :
    ∃ r, b = .continuous r ∧ Get.Photons460.LO b = 2 ∧ Get.Photons460.NG b = 0 ∧ Get.Constants455.NNF r = constants.length ∧ Get.Constants455.lambdas r = constants := by
  unfold Make.continuousPhotons at h
  split at h
  · cases h
  · cases h; exact ⟨_, rfl, rfl, rfl, asInt_lt hn, rfl⟩

/-- LO is L1 and, for discrete photons, NG is N1 of the HEAD record; the energy and the index of the first photon are C1 and L1 of the next line. -/
theorem C62_text_mf1mt460 {s s' : St} {x : Sect Photons} (h : (SectionType.mf1mt460).defn.parse s = .ok (x, s')) :
    ∃ a b, LineShows 0 s a ∧ LineShows 1 s b ∧ Get.Photons460.LO x.data = toInt32 a.l1 ∧
      (∀ l, x.data = .discrete l → Get.Photons460.NG x.data = toInt32 a.n1 ∧ ∃ p q, l = p :: q ∧ Get.Photons460.E p = b.c1 ∧ Get.Photons460.LPH p = toInt32 b.l1) ∧
      ∀ r, x.data = .continuous r → Get.Photons460.NG x.data = 0 ∧ Get.Constants455.NNF r = toInt32 b.n1 := by
  obtain ⟨head, s0, h0, -, -, -, -, rs, s1, hr, hb, -⟩ := (C51_parse .mf1mt460 s x s').mp h
  obtain ⟨l0, -, e0⟩ := division_line h0
  replace hb : Fmt.mf1mt460 head.base x.data rs := hb
  cases hd : x.data with
  | discrete l =>
    rw [hd] at hb
    obtain ⟨b1, rfl, b2, b3⟩ := hb
    cases l with
    | nil => exact absurd rfl b3
    | cons p q =>
      obtain ⟨_, ht, -⟩ := recs_cons.mp hr
      exact ⟨_, _, l0, (line_succ e0).mp (tab1_line ht), b1.symm, fun _ e => (by cases e; exact ⟨asInt_of b2, p, q, rfl, rfl, rfl⟩), fun _ e => by cases e⟩
  | continuous r =>
    rw [hd] at hb
    obtain ⟨b1, rfl, -⟩ := hb
    exact ⟨_, _, l0, (line_succ e0).mp (list_line (recs_singleton.mp hr)), b1.symm, fun _ e => (by cases e), fun _ e => by cases e; exact ⟨rfl, rfl⟩⟩

/-! ### MF4 -/

theorem C62_made_legendre4 (energy : Dbl) (coefficients : List Dbl) (hn : (coefficients.length : Int) < 2147483648) :
    Get.LegendreCoefficients4.E (Make.legendreCoefficients energy coefficients) = energy ∧
    Get.LegendreCoefficients4.NL (Make.legendreCoefficients energy coefficients) = coefficients.length ∧
    Get.LegendreCoefficients4.A (Make.legendreCoefficients energy coefficients) = coefficients := ⟨rfl, asInt_lt hn, rfl⟩

theorem C62_made_tabulated4 {energy : Dbl} {bounds ints : List Int} {cosines probabilities : List Dbl} {r : TAB1}
    (h : Make.tabulatedDistribution energy bounds ints cosines probabilities = .ok r) :
    Get.TabulatedDistribution4.E r = energy ∧ TableSays r bounds ints cosines probabilities ∧ Get.TabulatedDistribution4.MU r = cosines ∧
    Get.TabulatedDistribution4.F r = probabilities := by
  obtain ⟨-, e2, -, -, t⟩ := table_says h
  exact ⟨e2, t, t.2.2.2.2.1, t.2.2.2.2.2⟩

/-- The energy of Legendre coefficients and of a table is C2 of the first line. -/
theorem C62_text_legendre4 {t : Nums} {s s' : St} {r : LIST} (h : readLIST t s = .ok (r, s')) :
    ∃ c, LineShows 0 s c ∧ Get.LegendreCoefficients4.E r = c.c2 ∧ Get.LegendreCoefficients4.NL r = toInt32 c.n1 := ⟨_, list_line h, rfl, rfl⟩

theorem C62_text_tabulated4 {t : Nums} {s s' : St} {r : TAB1} (h : readTAB1 t s = .ok (r, s')) :
    ∃ c, LineShows 0 s c ∧ Get.TabulatedDistribution4.E r = c.c2 ∧ r.NR = c.n1 ∧ r.NP = c.n2 := ⟨_, tab1_line h, rfl, rfl, rfl⟩

/-- LegendreDistributions and TabulatedDistributions, with the incident energies of their components. -/
theorem C62_made_distributions {α : Type} (energy : α → Dbl) {boundaries interpolants : List Int} {seq : List α} {r : ISeq α}
    (h : Make.distributions boundaries interpolants seq = .ok r) :
    Get.AngularDistributions.NR r = boundaries.length ∧ Get.AngularDistributions.NBT r = boundaries ∧ Get.AngularDistributions.INT r = interpolants ∧
    r.seq = seq ∧ Get.AngularDistributions.incidentEnergies energy r = seq.map energy ∧
    ((∀ b ∈ boundaries, 0 ≤ b ∧ b < 2147483648) → (seq.length : Int) < 2147483648 → Get.AngularDistributions.NE r = seq.length) := by
  unfold Make.distributions Make.angularDistributions at h
  obtain ⟨-, -, -, -, e, r1, r2, r3, r4⟩ := regions_say h
  exact ⟨r1, r2, r3, e, by rw [Get.AngularDistributions.incidentEnergies, e], r4⟩

/-- Boundaries that come after the first `offset` distributions. -/
def shifted (offset : Int) (bounds : List Int) : List Int := bounds.map (fun b => b + offset)

/-- MixedDistributions: the regions of the tables come after those of the Legendre coefficients, their boundaries are counted from there on; the
    incident energies are those of the Legendre coefficients, then those of the tables. -/
theorem C62_made_mixed {bl il bt it : List Int} {ls : List LIST} {ts : List TAB1} {l : ISeq LIST} {t : ISeq TAB1} {b : Mixed}
    (hl : Make.distributions bl il ls = .ok l) (ht : Make.distributions bt it ts = .ok t) (h : Make.mixedDistributions l t = .ok b)
    (h1 : ∀ b ∈ bl, 0 ≤ b ∧ b < 2147483648) (h2 : ∀ b ∈ bt, 0 ≤ b ∧ b < 2147483648) (h3 : (ls.length : Int) < 2147483648) (h4 : (ts.length : Int) < 2147483648) :
    Get.MixedDistributions.NR b = bl.length + bt.length ∧ Get.MixedDistributions.NE b = ls.length + ts.length ∧
    Get.MixedDistributions.NBT b = bl ++ shifted ls.length bt ∧ Get.MixedDistributions.INT b = il ++ it ∧
    Get.MixedDistributions.incidentEnergies b = ls.map (·.c2) ++ ts.map (·.base.c2) := by
  obtain ⟨a1, a2, a3, a4, a5, a6⟩ := C62_made_distributions (fun r : LIST => r.c2) hl
  obtain ⟨c1, c2, c3, c4, c5, c6⟩ := C62_made_distributions (fun r : TAB1 => r.base.c2) ht
  unfold Make.mixedDistributions at h
  split at h
  · cases h
    refine ⟨?_, ?_, ?_, ?_, ?_⟩
    · show Get.AngularDistributions.NR l + Get.AngularDistributions.NR t = _
      rw [a1, c1]
    · show Get.AngularDistributions.NE l + Get.AngularDistributions.NE t = _
      rw [a6 h1 h3, c6 h2 h4]
    · show Get.AngularDistributions.NBT l ++ (Get.AngularDistributions.NBT t).map (· + (Get.AngularDistributions.NBT l).getLastD 0) = _
      have e : (Get.AngularDistributions.NBT l).getLastD 0 = Get.AngularDistributions.NE l := rfl
      rw [e, a6 h1 h3, a2, c2]; rfl
    · show Get.AngularDistributions.INT l ++ Get.AngularDistributions.INT t = _
      rw [a3, c3]
    · show l.seq.map _ ++ t.seq.map _ = _
      rw [a4, c4]; rfl
  · cases h

/-- The energy at which the two representations meet is in the list twice. -/
theorem C62_mixed_energy_twice {bl il bt it : List Int} {ls : List LIST} {ts : List TAB1} {l : ISeq LIST} {t : ISeq TAB1} {b : Mixed}
    (hl : Make.distributions bl il ls = .ok l) (ht : Make.distributions bt it ts = .ok t) (h : Make.mixedDistributions l t = .ok b) :
    ∃ e e', (Get.MixedDistributions.incidentEnergies b)[ls.length - 1]? = some e ∧ (Get.MixedDistributions.incidentEnergies b)[ls.length]? = some e' ∧
      Disco.eqD e e' = true := by
  obtain ⟨-, -, -, a4, -⟩ := C62_made_distributions (fun r : LIST => r.c2) hl
  obtain ⟨-, -, -, c4, -⟩ := C62_made_distributions (fun r : TAB1 => r.base.c2) ht
  have hn : ls ≠ [] := by
    unfold Make.distributions Make.angularDistributions at hl
    obtain ⟨_, _, h2⟩ := bind_eq hl
    obtain ⟨_, h3, -⟩ := iseq_make h2
    intro e; rw [e] at h3; simp at h3
  have hm : ts ≠ [] := by
    unfold Make.distributions Make.angularDistributions at ht
    obtain ⟨_, _, h2⟩ := bind_eq ht
    obtain ⟨_, h3, -⟩ := iseq_make h2
    intro e; rw [e] at h3; simp at h3
  unfold Make.mixedDistributions at h
  split at h
  · rename_i hlined
    cases h
    have hi : Get.MixedDistributions.incidentEnergies ⟨l, t⟩ = ls.map (·.c2) ++ ts.map (·.base.c2) := by
      show l.seq.map _ ++ t.seq.map _ = _
      rw [a4, c4]; rfl
    rw [hi]
    obtain ⟨y, ys, rfl⟩ := List.exists_cons_of_ne_nil hm
    refine ⟨(ls.getLast hn).c2, y.base.c2, ?_, ?_, ?_⟩
    · rw [List.getElem?_append_left (by have := List.length_pos_iff.mpr hn; simp only [List.length_map]; omega), List.getElem?_map, ← List.getLast?_eq_getElem?, List.getLast?_eq_some_getLast hn]; rfl
    · rw [List.getElem?_append_right (by simp)]; simp
    · revert hlined
      unfold Mixed.lined
      rw [a4, c4, List.getLast?_eq_some_getLast hn]
      simp
  · cases h

theorem C62_made_mf4 {mt za : Int} {awr : Dbl} {lct : Int} {dist : Angular} {x : Sect MF4Data} (h : Make.mf4 mt za awr lct dist = .ok x) (hl : IsInt32 lct) :
    x.ZA = za ∧ x.AWR = awr ∧ x.MT = mt ∧ Get.MF4.LCT x = lct ∧ x.data.dist = dist := by
  have e := build_eq h
  subst e
  exact ⟨rfl, rfl, rfl, toInt32_of hl, rfl⟩

/-- The getters of the section are those of its distributions. -/
theorem C62_mf4_distributions (x : Sect MF4Data) :
    (x.data.dist = .isotropic → Get.MF4.LTT x = 0 ∧ Get.MF4.LI x = true ∧ Get.MF4.NR x = 0 ∧ Get.MF4.NE x = 0 ∧ Get.MF4.INT x = [] ∧ Get.MF4.NBT x = [] ∧
      Get.MF4.incidentEnergies x = []) ∧
    (∀ b : ISeq LIST, x.data.dist = .legendre b → (b.tab2.bounds.length : Int) < 2147483648 → IsInt32 b.tab2.n2 →
      Get.MF4.LTT x = 1 ∧ Get.MF4.LI x = false ∧ Get.MF4.NR x = Get.AngularDistributions.NR b ∧ Get.MF4.NE x = Get.AngularDistributions.NE b ∧
      Get.MF4.INT x = Get.AngularDistributions.INT b ∧ Get.MF4.NBT x = Get.AngularDistributions.NBT b ∧ Get.MF4.incidentEnergies x = b.seq.map (·.c2)) ∧
    (∀ b : ISeq TAB1, x.data.dist = .tabulated b → (b.tab2.bounds.length : Int) < 2147483648 → IsInt32 b.tab2.n2 →
      Get.MF4.LTT x = 2 ∧ Get.MF4.LI x = false ∧ Get.MF4.NR x = Get.AngularDistributions.NR b ∧ Get.MF4.NE x = Get.AngularDistributions.NE b ∧
      Get.MF4.INT x = Get.AngularDistributions.INT b ∧ Get.MF4.NBT x = Get.AngularDistributions.NBT b ∧ Get.MF4.incidentEnergies x = b.seq.map (·.base.c2)) ∧
    (∀ b : Mixed, x.data.dist = .mixed b → IsInt32 (Get.MixedDistributions.NR b) → IsInt32 (Get.MixedDistributions.NE b) →
      Get.MF4.LTT x = 3 ∧ Get.MF4.LI x = false ∧ Get.MF4.NR x = Get.MixedDistributions.NR b ∧ Get.MF4.NE x = Get.MixedDistributions.NE b ∧
      Get.MF4.INT x = Get.MixedDistributions.INT b ∧ Get.MF4.NBT x = Get.MixedDistributions.NBT b ∧
      Get.MF4.incidentEnergies x = Get.MixedDistributions.incidentEnergies b) := by
  obtain ⟨za, awr, mt, lct, dist⟩ := x
  refine ⟨?_, ?_, ?_, ?_⟩
  · rintro rfl; exact ⟨rfl, rfl, rfl, rfl, rfl, rfl, rfl⟩
  · rintro b rfl h1 h2; exact ⟨rfl, rfl, toInt32_of ⟨by show _ ≤ ((b.tab2.bounds.length : Nat) : Int); omega, h1⟩, toInt32_of h2, rfl, rfl, rfl⟩
  · rintro b rfl h1 h2; exact ⟨rfl, rfl, toInt32_of ⟨by show _ ≤ ((b.tab2.bounds.length : Nat) : Int); omega, h1⟩, toInt32_of h2, rfl, rfl, rfl⟩
  · rintro b rfl h1 h2; exact ⟨rfl, rfl, toInt32_of h1, toInt32_of h2, rfl, rfl, rfl⟩

/-- LTT is L2 of the HEAD record, LCT is L2 of the second line, NR and NE are N1 and N2 of the third one. -/
theorem C62_text_mf4 {s s' : St} {x : Sect MF4Data} (h : (SectionType.mf4).defn.parse s = .ok (x, s')) :
    ∃ a b, LineShows 0 s a ∧ LineShows 1 s b ∧ Get.MF4.LTT x = a.l2 ∧ Get.MF4.LCT x = toInt32 b.l2 ∧
      (a.l2 = 1 ∨ a.l2 = 2 → ∃ c, LineShows 2 s c ∧ Get.MF4.NR x = toInt32 c.n1 ∧ Get.MF4.NE x = toInt32 c.n2) := by
  obtain ⟨head, s0, h0, -, -, -, -, rs, s1, hr, ⟨c, rr, rfl, hc, hb⟩, -⟩ := (C51_parse .mf4 s x s').mp h
  obtain ⟨l0, -, e0⟩ := division_line h0
  obtain ⟨l1, sa, e1, hr⟩ := cont_next hr
  rw [line_succ e0] at l1
  obtain ⟨za, awr, mt, lct, dist⟩ := x
  cases dist with
  | isotropic =>
    obtain ⟨b1, -⟩ := hb
    exact ⟨_, _, l0, l1, b1.symm, hc, by omega⟩
  | legendre b =>
    obtain ⟨b1, rfl, -⟩ := hb
    obtain ⟨_, ht, -⟩ := recs_cons.mp hr
    have l2 := tab2_line ht
    rw [line_succ e1, line_succ e0] at l2
    exact ⟨_, _, l0, l1, b1.symm, hc, fun _ => ⟨_, l2, rfl, rfl⟩⟩
  | tabulated b =>
    obtain ⟨b1, rfl, -⟩ := hb
    obtain ⟨_, ht, -⟩ := recs_cons.mp hr
    have l2 := tab2_line ht
    rw [line_succ e1, line_succ e0] at l2
    exact ⟨_, _, l0, l1, b1.symm, hc, fun _ => ⟨_, l2, rfl, rfl⟩⟩
  | mixed b =>
    obtain ⟨b1, -⟩ := hb
    exact ⟨_, _, l0, l1, b1.symm, hc, by omega⟩

end ENDFtk.Props

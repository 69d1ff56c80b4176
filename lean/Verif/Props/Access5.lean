import Verif.Props.Access4
/-
  C62: getters, part 5: files 9, 10, 12, 13, 14, 15 and 28; C63: files 9 and 10.
-/
set_option linter.unusedVariables false
set_option linter.unusedSectionVars false
set_option linter.unusedSimpArgs false
namespace ENDFtk.Props
variable [Disco]

/-! ### MF9 and MF10 -/

theorem C62_made_product9 {qm qi : Dbl} {izap lfs : Int} {bounds ints : List Int} {energies values : List Dbl} {r : TAB1}
    (h : Make.reactionProduct9 qm qi izap lfs bounds ints energies values = .ok r) (hi : IsInt32 izap ∧ IsInt32 lfs) :
    Get.Product9.QM r = qm ∧ Get.Product9.QI r = qi ∧ Get.Product9.IZAP r = izap ∧ Get.Product9.LFS r = lfs ∧ TableSays r bounds ints energies values ∧
    Get.Product9.E r = energies ∧ Get.Product9.Y r = values := by
  obtain ⟨e1, e2, e3, e4, t⟩ := table_says h
  exact ⟨e1, e2, made32 e3 hi.1, made32 e4 hi.2, t, t.2.2.2.2.1, t.2.2.2.2.2⟩

/-- Without the interpolation regions there is one region with all points. -/
theorem C62_made_product9_short {qm qi : Dbl} {izap lfs : Int} {energies values : List Dbl} {int : Int} {r : TAB1}
    (h : Make.reactionProduct9Short qm qi izap lfs energies values int = .ok r) (hi : IsInt32 izap ∧ IsInt32 lfs) :
    Get.Product9.QM r = qm ∧ Get.Product9.QI r = qi ∧ Get.Product9.IZAP r = izap ∧ Get.Product9.LFS r = lfs ∧
    TableSays r [(energies.length : Int)] [int] energies values := by
  obtain ⟨e1, e2, e3, e4, t, -⟩ := C62_made_product9 h hi
  exact ⟨e1, e2, e3, e4, t⟩

theorem C62_made_mf9 {mf mt za : Int} {awr : Dbl} {lis : Int} {products : List TAB1} {x : Sect Products} (h : Make.mfProducts mf mt za awr lis products = .ok x)
    (hi : IsInt32 lis) (hn : (products.length : Int) < 2147483648) :
    x.ZA = za ∧ x.AWR = awr ∧ x.MT = mt ∧ Get.MF9.LIS x = lis ∧ Get.MF9.NS x = products.length ∧ x.data.products = products := by
  have e := build_eq h
  subst e
  exact ⟨rfl, rfl, rfl, toInt32_of hi, asInt_lt hn, rfl⟩

/-- LIS is L1, NS is N1 of the HEAD record; product i is on the line after the products before it. -/
theorem C62_text_mf9 {s s' : St} {x : Sect Products}
    (h : (SectionType.mf9).defn.parse s = .ok (x, s') ∨ (SectionType.mf10).defn.parse s = .ok (x, s')) :
    ∃ a, LineShows 0 s a ∧ Get.MF9.LIS x = toInt32 a.l1 ∧ Get.MF9.NS x = toInt32 a.n1 ∧
      ∀ i r, x.data.products[i]? = some r → ∃ c, LineShows (1 + linesBefore .tab1 x.data.products i) s c ∧ Get.Product9.QM r = c.c1 ∧ Get.Product9.QI r = c.c2 ∧
        Get.Product9.IZAP r = toInt32 c.l1 ∧ Get.Product9.LFS r = toInt32 c.l2 ∧ r.NR = c.n1 ∧ r.NP = c.n2 := by
  have : ∃ (a : Cont) (rs : List Rec), LineShows 0 s a ∧ Fmt.products a x.data rs ∧
      ∀ pre r post c, rs = pre ++ r :: post → recLine r = some c → LineShows (1 + (pre.map recLines).sum) s c := by
    rcases h with h | h
    · obtain ⟨a, mt, rs, l0, hb, hr⟩ := C62_records .mf9 h
      exact ⟨a, rs, l0, hb, hr⟩
    · obtain ⟨a, mt, rs, l0, hb, hr⟩ := C62_records .mf10 h
      exact ⟨a, rs, l0, hb, hr⟩
  obtain ⟨a, rs, l0, ⟨b1, b2, b3⟩, hr⟩ := this
  refine ⟨a, l0, b1, asInt_of b2, fun i r hi => ?_⟩
  have := nth_line (f := Rec.tab1) (pre := []) (post := []) (l := x.data.products) hr (by rw [b3]; simp) hi rfl
  exact ⟨_, this, rfl, rfl, rfl, rfl, rfl, rfl⟩

/-- The products of files 9 and 10 are found by their level. -/
theorem C63_mf9 (x : Sect Products) (state : Int) :
    LooksUp Get.Product9.LFS x.data.products (Get.MF9.hasExcitedState x state) (Get.MF9.reactionProduct x state) state := looksUp_find _ _ _

/-! ### MF12 and MF13 -/

/-- `energy` is EG, `level` is ES. -/
theorem C62_made_partial12 {energy level : Dbl} {lp law : Int} {bounds ints : List Int} {energies values : List Dbl} {r : TAB1}
    (h : Make.partialTable energy level lp law bounds ints energies values = .ok r) (hi : IsInt32 lp ∧ IsInt32 law) :
    Get.Partial12.EG r = energy ∧ Get.Partial12.ES r = level ∧ Get.Partial12.LP r = lp ∧ Get.Partial12.LF r = law ∧ TableSays r bounds ints energies values ∧
    Get.Partial12.E r = energies ∧ Get.Partial12.Y r = values := by
  obtain ⟨e1, e2, e3, e4, t⟩ := table_says h
  exact ⟨e1, e2, made32 e3 hi.1, made32 e4 hi.2, t, t.2.2.2.2.1, t.2.2.2.2.2⟩

theorem C62_made_total12 {bounds ints : List Int} {energies values : List Dbl} {r : TAB1} (h : Make.table bounds ints energies values = .ok r) :
    Get.Total12.E r = energies ∧ Get.Total12.Y r = values ∧ TableSays r bounds ints energies values := by
  obtain ⟨-, -, -, -, t⟩ := table_says h
  exact ⟨t.2.2.2.2.1, t.2.2.2.2.2, t⟩

theorem C62_made_multiplicities {total : Option TAB1} {partials : List TAB1} {b : TotalPartials} (h : Make.totalPartials total partials = .ok b)
    (hn : (partials.length : Int) < 2147483648) : Get.Multiplicities.NK b = partials.length ∧ b.1 = total ∧ b.2 = partials := by
  unfold Make.totalPartials at h
  split at h
  · cases h
  · cases h; exact ⟨asInt_lt hn, rfl, rfl⟩

/-- LO is 1 for multiplicities, 2 for transition probabilities. -/
theorem C62_made_mf12 {mt za : Int} {awr : Dbl} {production : PhotonProduction} {x : Sect PhotonProduction} (h : Make.mf12 mt za awr production = .ok x) :
    x.ZA = za ∧ x.AWR = awr ∧ x.MT = mt ∧ x.data = production ∧ ((∃ b, production = .multiplicities b) → Get.MF12.LO x = 1) ∧
    ((∃ l, production = .transitions l) → Get.MF12.LO x = 2) := by
  have e := build_eq h
  subst e
  refine ⟨rfl, rfl, rfl, rfl, ?_, ?_⟩
  · rintro ⟨b, rfl⟩; rfl
  · rintro ⟨b, rfl⟩; rfl

theorem C62_made_mf13 {mt za : Int} {awr : Dbl} {total : Option TAB1} {partials : List TAB1} {x : Sect TotalPartials}
    (h : Make.mf13 mt za awr total partials = .ok x) (hn : (partials.length : Int) < 2147483648) :
    x.ZA = za ∧ x.AWR = awr ∧ x.MT = mt ∧ Get.Multiplicities.NK x.data = partials.length ∧ x.data.1 = total ∧ x.data.2 = partials := by
  obtain ⟨h1, h2, h3, h4⟩ := C62_made_base h
  obtain ⟨a, b, c⟩ := C62_made_multiplicities h4 hn
  exact ⟨h1, h2, h3, a, b, c⟩

/-- The total is there exactly if NK is not 1 and comes first; partial i is on the line after the total and the partials before it. -/
def PartialsAt (s : St) (nk : Int) (b : TotalPartials) : Prop :=
  Get.Multiplicities.NK b = toInt32 nk ∧ (b.1 = none ↔ toInt32 nk = 1) ∧
  (∀ r, b.1 = some r → ∃ c, LineShows 1 s c ∧ r.NR = c.n1 ∧ r.NP = c.n2) ∧
  ∀ i r, b.2[i]? = some r → ∃ c, LineShows (1 + (b.1.toList.map (fun t => recLines (.tab1 t))).sum + linesBefore .tab1 b.2 i) s c ∧
    Get.Partial12.EG r = c.c1 ∧ Get.Partial12.ES r = c.c2 ∧ Get.Partial12.LP r = toInt32 c.l1 ∧ Get.Partial12.LF r = toInt32 c.l2 ∧ r.NR = c.n1 ∧ r.NP = c.n2

theorem partials_at {s : St} {nk : Int} {b : TotalPartials} {rs : List Rec} (hb : Fmt.totalPartials nk b rs)
    (hr : ∀ pre r post c, rs = pre ++ r :: post → recLine r = some c → LineShows (1 + (pre.map recLines).sum) s c) : PartialsAt s nk b := by
  obtain ⟨b1, b2, b3, rfl⟩ := hb
  refine ⟨asInt_of b1, by rw [b3]; omega, fun r hx => ?_, fun i r hi => ?_⟩
  · rw [hx] at hr
    exact ⟨⟨r.base.c1, r.base.c2, r.base.l1, r.base.l2, r.NR, r.NP⟩, hr [] (.tab1 r) (b.2.map .tab1) _ (by simp) rfl, rfl, rfl⟩
  · have := nth_line (f := Rec.tab1) (pre := b.1.toList.map .tab1) (post := []) (l := b.2) hr (by simp) hi rfl
    refine ⟨⟨r.base.c1, r.base.c2, r.base.l1, r.base.l2, r.NR, r.NP⟩, ?_, rfl, rfl, rfl, rfl, rfl, rfl⟩
    simpa [Function.comp_def, TAB1.NR, TAB1.NP, TAB2.NR, TAB2.nr] using this

/-- LO is L1 of the HEAD record; NK is its N1 for LO = 1; the level energy and the number of transitions are on the next line for LO = 2. -/
theorem C62_text_mf12 {s s' : St} {x : Sect PhotonProduction} (h : (SectionType.mf12).defn.parse s = .ok (x, s')) :
    ∃ a, LineShows 0 s a ∧ Get.MF12.LO x = toInt32 a.l1 ∧ (∀ b, x.data = .multiplicities b → PartialsAt s a.n1 b) ∧
      ∀ l, x.data = .transitions l → ∃ c, LineShows 1 s c ∧ l.c1 = c.c1 ∧ l.l1 = c.l1 ∧ (l.npl : Int) = c.n1 ∧ l.n2 = c.n2 := by
  obtain ⟨a, mt, rs, l0, hb, hr⟩ := C62_records .mf12 h
  change Fmt.mf12 a x.data rs at hb
  cases hx : x.data with
  | multiplicities b =>
    rw [hx] at hb
    exact ⟨a, l0, by rw [Get.MF12.LO, hx, hb.1], fun _ e => (by cases e; exact partials_at hb.2 hr), fun _ e => (by cases e)⟩
  | transitions l =>
    rw [hx] at hb
    obtain ⟨b1, rfl, -⟩ := hb
    exact ⟨a, l0, by rw [Get.MF12.LO, hx, b1], fun _ e => (by cases e), fun _ e => (by cases e; exact ⟨_, hr [] _ _ _ rfl rfl, rfl, rfl, rfl, rfl⟩)⟩

theorem C62_text_mf13 {s s' : St} {x : Sect TotalPartials} (h : (SectionType.mf13).defn.parse s = .ok (x, s')) :
    ∃ a, LineShows 0 s a ∧ PartialsAt s a.n1 x.data := by
  obtain ⟨a, mt, rs, l0, hb, hr⟩ := C62_records .mf13 h
  exact ⟨a, l0, partials_at hb hr⟩

/-! ### MF14 -/

/-- An isotropic photon. -/
theorem C62_made_photon_isotropic (energy level : Dbl) : Get.Photon14.EG (.isotropic energy level) = energy ∧ Get.Photon14.ES (.isotropic energy level) = level := ⟨rfl, rfl⟩

theorem angular_distributions {α : Type} {energy level : Dbl} {bounds ints : List Int} {distributions : List α} {b : ISeq α}
    (h : Make.photonDistributions energy level bounds ints distributions = .ok b) :
    b.tab2.c1 = energy ∧ b.tab2.c2 = level ∧ b.seq = distributions ∧ RegionsSay b.tab2 bounds ints distributions.length := by
  obtain ⟨e1, e2, -, -, e, r⟩ := regions_say h
  exact ⟨e1, e2, e, r⟩

/-- The distributions of a photon that is not isotropic.  EG and ES are the energies that were given for whole numbers only: the getters
    return the whole part of the energy (`AngularDistributions::C1()` and `C2()` return a `long`). -/
theorem C62_made_photon_distributions_partial {energy level : Int} {bounds ints : List Int} (he : 0 ≤ energy ∧ energy < 4294967296) (hl : 0 ≤ level ∧ level < 4294967296) :
    (∀ (distributions : List LIST) b, Make.photonDistributions (Disco.ofInt energy) (Disco.ofInt level) bounds ints distributions = .ok b →
      Get.Photon14.EG (.legendre b) = Disco.ofInt energy ∧ Get.Photon14.ES (.legendre b) = Disco.ofInt level ∧ b.seq = distributions ∧
      RegionsSay b.tab2 bounds ints distributions.length) ∧
    (∀ (distributions : List TAB1) b, Make.photonDistributions (Disco.ofInt energy) (Disco.ofInt level) bounds ints distributions = .ok b →
      Get.Photon14.EG (.tabulated b) = Disco.ofInt energy ∧ Get.Photon14.ES (.tabulated b) = Disco.ofInt level ∧ b.seq = distributions ∧
      RegionsSay b.tab2 bounds ints distributions.length) := by
  have t1 := Disco.trunc_ofInt energy (by omega) (by omega)
  have t2 := Disco.trunc_ofInt level (by omega) (by omega)
  constructor
  · intro d b h
    obtain ⟨e1, e2, e, r⟩ := angular_distributions h
    refine ⟨?_, ?_, e, r⟩
    · simp only [Get.Photon14.EG, Get.AngularDistributions.C1, e1, t1]
    · simp only [Get.Photon14.ES, Get.AngularDistributions.C2, e2, t2]
  · intro d b h
    obtain ⟨e1, e2, e, r⟩ := angular_distributions h
    refine ⟨?_, ?_, e, r⟩
    · simp only [Get.Photon14.EG, Get.AngularDistributions.C1, e1, t1]
    · simp only [Get.Photon14.ES, Get.AngularDistributions.C2, e2, t2]

/-- What the getters return for any energy. -/
theorem C62_photon_energy_truncated {energy level : Dbl} {bounds ints : List Int} {distributions : List LIST} {b : ISeq LIST}
    (h : Make.photonDistributions energy level bounds ints distributions = .ok b) :
    Get.Photon14.EG (.legendre b) = Disco.ofInt (Disco.trunc energy) ∧ Get.Photon14.ES (.legendre b) = Disco.ofInt (Disco.trunc level) := by
  obtain ⟨e1, e2, -, -⟩ := angular_distributions h
  exact ⟨by simp only [Get.Photon14.EG, Get.AngularDistributions.C1, e1], by simp only [Get.Photon14.ES, Get.AngularDistributions.C2, e2]⟩

theorem C62_made_mf14_isotropic {mt za : Int} {awr : Dbl} {nk : Int} {x : Sect MF14Data} (h : Make.mf14Isotropic mt za awr nk = .ok x) (hi : IsInt32 nk) :
    x.ZA = za ∧ x.AWR = awr ∧ x.MT = mt ∧ Get.MF14.LI x = true ∧ Get.MF14.NK x = nk ∧ Get.MF14.NI x = 0 ∧ Get.MF14.LTT x = 0 ∧ x.data.photons = [] := by
  have e := build_eq h
  subst e
  exact ⟨rfl, rfl, rfl, rfl, toInt32_of hi, toInt32_of (show IsInt32 0 by decide), rfl, rfl⟩

/-- NI is the number of isotropic photons; LTT is 1 or 2 if the last photon has Legendre or tabulated distributions. -/
theorem C62_made_mf14 {mt za : Int} {awr : Dbl} {photons : List Photon} {x : Sect MF14Data} (h : Make.mf14 mt za awr photons = .ok x) (hp : photons ≠ [])
    (hn : (photons.length : Int) < 2147483648) :
    x.ZA = za ∧ x.AWR = awr ∧ x.MT = mt ∧ Get.MF14.LI x = false ∧ Get.MF14.NK x = photons.length ∧ x.data.photons = photons ∧
    Get.MF14.NI x = (photons.filter (fun p => p.isIso)).length ∧ Get.MF14.LTT x = (photons.getLast hp).ltt := by
  have e := build_eq h
  subst e
  refine ⟨rfl, rfl, rfl, ?_, ?_, rfl, ?_, ?_⟩
  · cases photons with
    | nil => exact absurd rfl hp
    | cons => rfl
  · simp only [Get.MF14.NK, MF14Data.NK, if_neg hp]; exact asInt_lt hn
  · have hle := List.length_filter_le (fun p : Photon => p.isIso) photons
    simp only [Get.MF14.NI, MF14Data.NI, List.countP_eq_length_filter]
    exact asInt_lt (Int.lt_of_le_of_lt (Int.ofNat_le.mpr hle) hn)
  · simp only [Get.MF14.LTT, MF14Data.LTT, List.getLast?_eq_some_getLast hp]

/-- LI is L1, NK is N1 of the HEAD record; NI is its N2 if the distributions are not all isotropic.  The energies of isotropic photon i are on line i + 1. -/
theorem C62_text_mf14 {s s' : St} {x : Sect MF14Data} (h : (SectionType.mf14).defn.parse s = .ok (x, s')) :
    ∃ a, LineShows 0 s a ∧ Get.MF14.NK x = toInt32 a.n1 ∧
      ((a.l1 = 1 ∧ Get.MF14.LI x = true ∧ Get.MF14.NI x = 0) ∨ (a.l1 ≠ 1 ∧ Get.MF14.NI x = a.n2 ∧
        (∀ (i : Nat) p, (i : Int) < a.n2 → x.data.photons[i]? = some p → ∃ c, LineShows (i + 1) s c ∧ Get.Photon14.EG p = c.c1 ∧ Get.Photon14.ES p = c.c2 ∧ p.ltt = 0) ∧
        ∀ (i : Nat) p, a.n2 ≤ (i : Int) → x.data.photons[i]? = some p → p.ltt = a.l2)) := by
  obtain ⟨a, mt, rs, l0, hb, hr⟩ := C62_records .mf14 h
  obtain ⟨b1, hb⟩ := hb
  refine ⟨a, l0, ?_, ?_⟩
  · rcases hb with ⟨-, b2, -⟩ | ⟨-, b2, iso, other, r1, r2, b3, -, b4, b5, -⟩
    · simp only [Get.MF14.NK, MF14Data.NK, b2, if_true]
      rw [b1, if_pos b2]
    · simp only [Get.MF14.NK, MF14Data.NK]
      split
      · rename_i hx; rw [b1, if_pos hx]
      · rw [b3, List.length_append, asInt_lt (by omega), toInt32_of ⟨by omega, by omega⟩]; omega
  · rcases hb with ⟨b0, b2, -⟩ | ⟨b0, b2, iso, other, r1, r2, b3, rfl, b4, b5, b6, b7⟩
    · refine .inl ⟨b0, by simp [Get.MF14.LI, b2], ?_⟩
      simp only [Get.MF14.NI, MF14Data.NI, b2]; exact toInt32_of (show IsInt32 0 by decide)
    · have hiso : ∀ (l : List Photon) (r : List Rec), Many Fmt.isotropicPhoton l r → ∀ p ∈ l, p.isIso = true := by
        intro l
        induction l with
        | nil => simp
        | cons q l ih =>
          intro r hm p hp
          obtain ⟨u, v, -, ⟨c, -, rfl⟩, hv⟩ := many_cons.mp hm
          rcases List.mem_cons.mp hp with rfl | hp
          · rfl
          · exact ih v hv p hp
      have hoth : ∀ (l : List Photon) (r : List Rec), Many (Fmt.anisotropicPhoton a.l2) l r → ∀ p ∈ l, p.isIso = false ∧ p.ltt = a.l2 := by
        intro l
        induction l with
        | nil => simp
        | cons q l ih =>
          intro r hm p hp
          obtain ⟨u, v, -, hq, hv⟩ := many_cons.mp hm
          rcases List.mem_cons.mp hp with rfl | hp
          · cases p with
            | isotropic => exact absurd hq id
            | legendre => exact ⟨rfl, hq.1.symm⟩
            | tabulated => exact ⟨rfl, hq.1.symm⟩
          · exact ih v hv p hp
      have hlines : ∀ (l : List Photon) (pre r post : List Rec), Many Fmt.isotropicPhoton l r → r1 ++ r2 = pre ++ r ++ post → (∀ y ∈ pre, recLines y = 1) →
          ∀ i p, l[i]? = some p → ∃ c, LineShows (1 + (pre.length + i)) s c ∧ Get.Photon14.EG p = c.c1 ∧ Get.Photon14.ES p = c.c2 ∧ p.ltt = 0 := by
        intro l
        induction l with
        | nil => simp
        | cons q l ih =>
          intro pre r post hm hs hp i p hi
          obtain ⟨u, v, rfl, ⟨c, rfl, rfl⟩, hv⟩ := many_cons.mp hm
          have hsum : (pre.map recLines).sum = pre.length := by
            clear hs hi
            induction pre with
            | nil => rfl
            | cons y pre ih =>
              have := ih (fun z hz => hp z (by simp [hz]))
              simp only [List.map_cons, List.sum_cons, List.length_cons, this, hp y (by simp)]; omega
          cases i with
          | zero =>
            cases hi
            have := hr pre (.cont c) (v ++ post) c (by rw [hs]; simp) rfl
            rw [hsum] at this
            exact ⟨c, this, rfl, rfl, rfl⟩
          | succ i =>
            have := ih (pre ++ [.cont c]) v post hv (by rw [hs]; simp) (by
              intro y hy
              rcases List.mem_append.mp hy with hy | hy
              · exact hp y hy
              · simp at hy; subst hy; rfl) i p (by simpa using hi)
            simp only [List.length_append, List.length_cons, List.length_nil] at this
            rw [show pre.length + (i + 1) = pre.length + (0 + 1) + i from by omega]
            exact this
      refine .inr ⟨b0, ?_, ?_, ?_⟩
      · simp only [Get.MF14.NI, MF14Data.NI, b3, List.countP_append]
        rw [List.countP_eq_length.mpr (hiso _ _ b6), List.countP_eq_zero.mpr (fun p hp => by simp [(hoth _ _ b7 p hp).1])]
        rw [asInt_lt (by omega)]; omega
      · intro i p hi hp
        rw [b3, List.getElem?_append_left (by omega)] at hp
        obtain ⟨c, hc, hc2⟩ := hlines iso [] r1 r2 b6 rfl (by simp) i p hp
        exact ⟨c, by simpa [Nat.add_comm] using hc, hc2⟩
      · intro i p hi hp
        rw [b3, List.getElem?_append_right (by omega)] at hp
        exact (hoth _ _ b7 p (List.mem_of_getElem? hp)).2

/-! ### MF15 and MF28 -/

theorem C62_made_mf15 {mt za : Int} {awr : Dbl} {partials : List Partial15} {x : Sect (List Partial15)} (h : Make.mf15 mt za awr partials = .ok x)
    (hn : (partials.length : Int) < 2147483648) : x.ZA = za ∧ x.AWR = awr ∧ x.MT = mt ∧ Get.MF15.NK x = partials.length ∧ x.data = partials := by
  obtain ⟨h1, h2, h3, h4⟩ := C62_made_base h
  split at h4
  · cases h4
  · have e := Except.ok.inj h4
    refine ⟨h1, h2, h3, ?_, e.symm⟩
    rw [Get.MF15.NK, ← e]; exact asInt_lt hn

/-- NK is N1 of the HEAD record; the first probability starts on the next line. -/
theorem C62_text_mf15 {s s' : St} {x : Sect (List Partial15)} (h : (SectionType.mf15).defn.parse s = .ok (x, s')) :
    ∃ a b p ps, LineShows 0 s a ∧ LineShows 1 s b ∧ Get.MF15.NK x = toInt32 a.n1 ∧ x.data = p :: ps ∧ Get.Probability5.U p.1 = b.c1 ∧
      Get.Probability5.LF p.1 = toInt32 b.l2 ∧ toInt32 b.l2 = 1 ∧ p.1.NR = b.n1 ∧ p.1.NP = b.n2 := by
  obtain ⟨a, mt, rs, l0, hb, hr⟩ := C62_records .mf15 h
  obtain ⟨b1, b2, b3⟩ := hb
  cases hx : x.data with
  | nil => exact absurd hx b2
  | cons p ps =>
    rw [hx, many_cons] at b3
    obtain ⟨r1, r2, rfl, ⟨hl, r, rfl, -⟩, -⟩ := b3
    exact ⟨a, _, p, ps, l0, hr [] _ _ _ rfl rfl, asInt_of b1, rfl, rfl, rfl, hl, rfl, rfl⟩

theorem C62_made_mf28 {mt za : Int} {awr : Dbl} {subshells : List LIST} {x : Sect (List LIST)} (h : Make.mf28 mt za awr subshells = .ok x)
    (hn : (subshells.length : Int) < 2147483648) : x.ZA = za ∧ x.AWR = awr ∧ x.MT = mt ∧ Get.MF28.NSS x = subshells.length ∧ x.data = subshells := by
  have e := build_eq h
  subst e
  exact ⟨rfl, rfl, rfl, asInt_lt hn, rfl⟩

/-- NSS is N1 of the HEAD record; subshell i is on the line after the subshells before it: SUBI is C1, NTR is N2. -/
theorem C62_text_mf28 {s s' : St} {x : Sect (List LIST)} (h : (SectionType.mf28).defn.parse s = .ok (x, s')) :
    ∃ a, LineShows 0 s a ∧ Get.MF28.NSS x = toInt32 a.n1 ∧
      ∀ i l, x.data[i]? = some l → ∃ c, LineShows (1 + linesBefore .list x.data i) s c ∧ l.c1 = c.c1 ∧ (l.npl : Int) = c.n1 ∧ l.n2 = c.n2 := by
  obtain ⟨a, mt, rs, l0, hb, hr⟩ := C62_records .mf28 h
  obtain ⟨b1, b2, -⟩ := hb
  refine ⟨a, l0, asInt_of b1, fun i l hi => ?_⟩
  have := nth_line (f := Rec.list) (pre := []) (post := []) (l := x.data) hr (by rw [b2]; simp) hi rfl
  exact ⟨_, this, rfl, rfl, rfl⟩

end ENDFtk.Props

import Verif.Section.Build2
import Verif.Props.Build
/-
  C61: what the constructors make from data can be written and read back.  Part 2: files 5, 6 and 26.
-/
set_option linter.unusedVariables false
set_option linter.unusedSectionVars false
set_option linter.unusedSimpArgs false
namespace ENDFtk
namespace Props
variable [Disco]

theorem seq_count {α : Type} {l : List α} (h : (l.length : Int) < 2147483648) : (l.length : Int) = asInt l.length := (toInt32_of ⟨by omega, h⟩).symm

theorem verified_ok {f : LIST → Except Err Unit} {l l' : LIST} (h : verified f l = .ok l') : l' = l ∧ f l = .ok () := by
  unfold verified at h
  split at h
  · cases h; rename_i h; exact ⟨rfl, h⟩
  · cases h

theorem require_ok {P : LIST → Prop} [DecidablePred P] {l : LIST} (h : require P l = .ok ()) : P l := by
  unfold require at h
  split at h
  · assumption
  · cases h

theorem built_list {l l' : LIST} {P : LIST → Prop} [DecidablePred P] (h : verified (require P) l = .ok l') : l' = l ∧ P l := by
  obtain ⟨e, h⟩ := verified_ok h
  exact ⟨e, require_ok h⟩

/-! ### MF5 -/

theorem table_fits {r : TAB1} (h : Make.TableBuilt r) (hi : r.Ints) : r.Fits := by
  obtain ⟨_, _, _, _, h⟩ := h
  exact tab1_fits h hi

theorem spectrum_valid {b : Spectrum} (h : Make.SpectrumBuilt b) (hi : Make.SpectrumInts b) : b.Valid := by
  cases h with
  | tabulated hd h =>
    obtain ⟨tab2, h1, h2⟩ := bind_eq h
    refine (iseq_valid h1 h2 hi fun x hx hI => ?_).1
    obtain ⟨rfl, _⟩ := iseq_make h2
    obtain ⟨_, _, _, _, _, h⟩ := hd x hx
    exact tab1_fits h hI
  | general h1 h2 => exact ⟨table_fits h1 hi.1, table_fits h2 hi.2⟩
  | maxwell h => exact table_fits h hi
  | evaporation h => exact table_fits h hi
  | watt h1 h2 => exact ⟨table_fits h1 hi.1, table_fits h2 hi.2⟩
  | madland h => exact tab1_fits h hi

/-- A partial distribution keeps the probability and the spectrum; the constructor throws exactly if the LF of the probability is not that of the spectrum. -/
theorem C61_partialDistribution {p : TAB1} {d : Spectrum} :
    (toInt32 p.base.l2 = d.lf → Make.partialDistribution p d = .ok ⟨p, d⟩) ∧ (toInt32 p.base.l2 ≠ d.lf → Make.partialDistribution p d = .error .exc) := by
  unfold Make.partialDistribution
  constructor
  · intro h; rw [if_neg (by simp [h])]
  · intro h; rw [if_pos h]

theorem partial5_valid {b : Partial5} (h : Make.PartialBuilt b) (hi : Make.PartialInts b) : partial5C.Valid b := by
  obtain ⟨p, d, ⟨_, _, _, _, _, _, hp⟩, hd, h⟩ := h
  unfold Make.partialDistribution at h
  split at h
  · cases h
  cases h
  rename_i hl
  exact ⟨tab1_fits hp hi.1, spectrum_valid hd hi.2, by simpa using hl⟩

/-- Energy distributions (MF5). -/
theorem C61_mf5 {mt za : Int} {awr : Dbl} {partials : List Partial5} {s : Sect (List Partial5)} (hb : ∀ x ∈ partials, Make.PartialBuilt x)
    (h : Make.mf5 mt za awr partials = .ok s) :
    s = ⟨za, awr, mt, partials⟩ ∧ (IsInt32 za → mt ≤ 999 → SeqInts Make.PartialInts partials → ReadsBack .mf5 s) := by
  have h0 : asInt partials.length ≠ 0 := by
    intro h0
    unfold Make.mf5 at h
    rw [if_pos h0] at h
    cases (build_ok h).1
  have h' := h
  unfold Make.mf5 at h'
  rw [if_neg h0] at h'
  have e : s = ⟨za, awr, mt, partials⟩ := build_eq h'
  refine ⟨e, fun hz hm hi => built_round (T := .mf5) h hz hm ?_ trivial⟩
  subst e
  exact ⟨fun x hx => partial5_valid (hb x hx) (hi.2 x hx), seq_count hi.1, h0⟩

/-- Without a partial distribution the constructor throws. -/
theorem C61_mf5_empty (mt za : Int) (awr : Dbl) : Make.mf5 mt za awr [] = .error .exc := by
  by_cases h : 1 ≤ za ∧ Disco.ltD awr Disco.zero = false ∧ (mf5.fixedMT = none → 1 ≤ mt)
  · unfold Make.mf5 SecDef.build checkBase
    obtain ⟨h1, h2, h3⟩ := h
    have h3 := h3 rfl
    rw [if_neg (by omega), if_neg (by simp [h2])]
    have : ¬mt < 1 := by omega
    simp [mf5, this, asInt, toInt32]
  · exact build_rejects h

/-! ### MF6 -/

theorem lang_eq {l : Int} (h : l = 1 ∨ l = 2 ∨ l = 3 ∨ l = 11 ∨ l = 12 ∨ l = 13 ∨ l = 14 ∨ l = 15) : toInt32 l = l := by
  refine toInt32_of ⟨?_, ?_⟩ <;> omega

theorem continuumCheck_tab {lang : Int} {l : LIST} (h : lang = 11 ∨ lang = 12 ∨ lang = 13 ∨ lang = 14 ∨ lang = 15) : continuumCheck lang l = continuumCheck 11 l := by
  unfold continuumCheck
  rcases h with h | h | h | h | h <;> subst h <;> simp

theorem continuumData_built {lang : Int} {l : LIST} (h : Make.ContinuumDataBuilt lang l) :
    (lang = 1 ∨ lang = 2 ∨ lang = 3 ∨ lang = 11 ∨ lang = 12 ∨ lang = 13 ∨ lang = 14 ∨ lang = 15) ∧ continuumCheck lang l = .ok () := by
  cases h with
  | legendre h =>
    unfold ContinuumData.makeLegendre at h
    split at h
    · cases h
    split at h
    · cases h
    obtain ⟨e, h⟩ := verified_ok h
    exact ⟨.inl rfl, by rw [e]; exact h⟩
  | kalbach3 h =>
    obtain ⟨e, h⟩ := verified_ok h
    exact ⟨.inr (.inl rfl), by rw [e]; exact h⟩
  | kalbach4 h =>
    obtain ⟨e, h⟩ := verified_ok h
    exact ⟨.inr (.inl rfl), by rw [e]; exact h⟩
  | thermal => exact ⟨.inr (.inr (.inl rfl)), rfl⟩
  | thermalCosines => exact ⟨.inr (.inr (.inl rfl)), rfl⟩
  | tabulated h =>
    unfold ContinuumData.makeTabulated at h
    split at h
    · cases h
    split at h
    · cases h
    obtain ⟨l', h1, h⟩ := bind_eq h
    split at h
    · rename_i hl
      cases h
      obtain ⟨e, h1⟩ := verified_ok h1
      exact ⟨.inr (.inr (.inr hl)), by rw [continuumCheck_tab hl, e]; exact h1⟩
    · cases h

/-- The LANG flag of the record is that of the first distribution; the constructor accepts only distributions with the same LANG. -/
theorem C61_continuumEnergyAngle {lep : Int} {bounds ints : List Int} {distributions : List (Int × LIST)} {r : ISeq LIST}
    (hd : ∀ x ∈ distributions, Make.ContinuumDataBuilt x.1 x.2) (h : Make.continuumEnergyAngle lep bounds ints distributions = .ok r) :
    ∃ lang, r = ⟨⟨Disco.zero, Disco.zero, lang, lep, bounds, ints⟩, distributions.map (·.2)⟩ ∧ ∀ x ∈ distributions, x.1 = lang := by
  unfold Make.continuumEnergyAngle at h
  split at h
  · cases h
  rename_i d ds
  obtain ⟨tab2, h1, h⟩ := bind_eq h
  obtain ⟨r', h2, h⟩ := bind_eq h
  split at h
  · rename_i ha
    cases h
    obtain ⟨rfl, _⟩ := TAB2.make_ok.mp h1
    refine ⟨d.1, (iseq_make h2).1, fun x hx => ?_⟩
    rw [ha x hx]
    exact lang_eq (continuumData_built (hd d (by simp))).1
  · cases h

theorem C61_continuumEnergyAngle_empty (lep : Int) (bounds ints : List Int) : Make.continuumEnergyAngle lep bounds ints [] = .error .ub := rfl

theorem continuum_valid {lep : Int} {bounds ints : List Int} {distributions : List (Int × LIST)} {r : ISeq LIST}
    (hd : ∀ x ∈ distributions, Make.ContinuumDataBuilt x.1 x.2) (h : Make.continuumEnergyAngle lep bounds ints distributions = .ok r) (hi : r.Ints LIST.Ints) :
    continuumC.Valid r := by
  obtain ⟨lang, e, ha⟩ := C61_continuumEnergyAngle hd h
  unfold Make.continuumEnergyAngle at h
  split at h
  · cases h
  rename_i d ds
  obtain ⟨tab2, h1, h⟩ := bind_eq h
  obtain ⟨r', h2, h⟩ := bind_eq h
  split at h
  · cases h
    refine iseqD_valid h1 h2 hi fun x hx hI => ?_
    subst e
    obtain ⟨y, hy, rfl⟩ := List.mem_map.mp hx
    obtain ⟨q1, q2⟩ := continuumData_built (hd y hy)
    rw [ha y hy] at q1 q2
    unfold continuumElemC
    rw [if_pos q1]
    exact ⟨list_fits hI, q2⟩
  · cases h

theorem twoBodyData_built {l : LIST} (h : Make.TwoBodyDataBuilt l) (hi : IsInt32 l.l1) : twoBodyOk l := by
  cases h with
  | legendre h =>
    obtain ⟨e, h⟩ := built_list h
    rw [e]; exact h
  | tabulated h =>
    unfold TwoBodyData.makeTabulated at h
    split at h
    · cases h
    obtain ⟨e, h1, h2⟩ := built_list h
    subst e
    rw [toInt32_of hi] at h1
    exact .inr ⟨h1, h2⟩

theorem chargedData_built {l : LIST} (h : Make.ChargedDataBuilt l) (hi : IsInt32 l.l1) : chargedOk l := by
  cases h with
  | amplitude h =>
    unfold ChargedData.makeAmplitude at h
    split at h
    · cases h
    split at h
    · cases h
    split at h
    · cases h
    obtain ⟨e, h⟩ := built_list h
    rw [e]; exact h
  | legendre h =>
    obtain ⟨e, h⟩ := built_list h
    rw [e]; exact h
  | interference h =>
    unfold ChargedData.makeInterference at h
    split at h
    · cases h
    obtain ⟨e, h1, h2⟩ := built_list h
    subst e
    rw [toInt32_of hi] at h1
    exact .inr (.inr ⟨h1, h2⟩)

/-- Legendre coefficients of LAW = 5: NL is one less than the number of coefficients. -/
theorem C61_chargedLegendre (energy : Dbl) {coefficients : List Dbl} (h : (coefficients.length : Int) < 2147483648) :
    Make.chargedLegendre energy coefficients = .ok ⟨Disco.zero, energy, 2, 0, (coefficients.length : Int) - 1, coefficients⟩ := by
  refine verified_of_ok (if_pos (.inr (.inl ⟨rfl, ?_⟩)))
  simp only [LIST.npl]
  rw [toInt32_of ⟨by omega, h⟩, toInt32_of ⟨by omega, by omega⟩]; omega

theorem law6_valid {b : Law6} (h : Make.LawBuilt b) (hi : Make.LawInts b) : b.Valid := by
  cases h with
  | elsewhere h =>
    unfold Make.definedElsewhere at h
    split at h
    · cases h
    rename_i hl
    cases h
    show _ ∨ _
    apply Decidable.byContradiction; intro hn
    exact hl ⟨fun e => hn (.inl e), fun e => hn (.inr (.inl e)), fun e => hn (.inr (.inr (.inl e))), fun e => hn (.inr (.inr (.inr e)))⟩
  | unknown => trivial
  | continuum hd h => exact continuum_valid hd h hi
  | twoBody hd h =>
    obtain ⟨tab2, h1, h2⟩ := bind_eq h
    refine iseqD_valid h1 h2 hi fun x hx hI => ⟨list_fits hI.1, ?_⟩
    obtain ⟨rfl, _⟩ := iseq_make h2
    exact twoBodyData_built (hd x hx) hI.2
  | isotropic => trivial
  | recoils => trivial
  | charged hd h =>
    obtain ⟨tab2, h1, h2⟩ := bind_eq h
    refine iseqD_valid h1 h2 hi fun x hx hI => ⟨list_fits hI.1, ?_⟩
    obtain ⟨rfl, _⟩ := iseq_make h2
    exact chargedData_built (hd x hx) hI.2
  | nBody => exact hi
  | laboratory hd h =>
    obtain ⟨tab2, h1, h2⟩ := bind_eq h
    refine (iseq_valid h1 h2 hi fun x hx hI => ?_).1
    obtain ⟨rfl, _⟩ := iseq_make h2
    obtain ⟨energy, bounds, ints, ds, hx', h⟩ := hd x hx
    obtain ⟨tab2, h3, h4⟩ := bind_eq h
    refine (iseq_valid (I := TAB1.Ints) h3 h4 hI fun y hy hJ => ?_).1
    obtain ⟨rfl, _⟩ := iseq_make h4
    obtain ⟨_, _, _, _, _, h⟩ := hx' y hy
    exact tab1_fits h hJ

/-- A reaction product keeps the multiplicity and the law; the constructor throws exactly if the LAW of the multiplicity is not that of the law. -/
theorem C61_reactionProduct6 {m : TAB1} {d : Law6} :
    (toInt32 m.base.l2 = d.law → Make.reactionProduct6 m d = .ok ⟨m, d⟩) ∧ (toInt32 m.base.l2 ≠ d.law → Make.reactionProduct6 m d = .error .exc) := by
  unfold Make.reactionProduct6
  constructor
  · intro h; rw [if_neg (by simp [h])]
  · intro h; rw [if_pos h]

theorem product6_valid {b : Product6} (h : Make.Product6Built b) (hi : Make.Product6Ints b) : b.Valid := by
  obtain ⟨p, d, ⟨_, _, _, _, _, _, _, _, hp⟩, hd, h⟩ := h
  unfold Make.reactionProduct6 at h
  split at h
  · cases h
  cases h
  rename_i hl
  exact ⟨tab1_fits hp hi.1, law6_valid hd hi.2, by simpa using hl⟩

/-- Energy-angle distributions (MF6), if the laws LAW < 0 are only used for MT = 18. -/
theorem C61_mf6_partial {mt za : Int} {awr : Dbl} {jp lct : Int} {products : List Product6} {s : Sect MF6Data} (hb : ∀ x ∈ products, Make.Product6Built x)
    (h : Make.mf6 mt za awr jp lct products = .ok s) :
    (s.za = za ∧ s.awr = awr ∧ s.mt = mt ∧ s.data.products = products ∧ (IsInt32 jp → s.data.jp = jp) ∧ (IsInt32 lct → s.data.lct = lct)) ∧
    (IsInt32 za → mt ≤ 999 → SeqInts Make.Product6Ints products → (∀ x ∈ products, x.dist.law < 0 → mt = 18) → ReadsBack .mf6 s) := by
  have e : s = ⟨za, awr, mt, ⟨toInt32 jp, toInt32 lct, products⟩⟩ := build_eq h
  refine ⟨?_, fun hz hm hi hk => built_round (T := .mf6) h hz hm ?_ ?_⟩
  · subst e; exact ⟨rfl, rfl, rfl, rfl, fun h => toInt32_of h, fun h => toInt32_of h⟩
  · subst e
    exact ⟨isInt32_toInt32 _, isInt32_toInt32 _, fun x hx => product6_valid (hb x hx) (hi.2 x hx), seq_count hi.1⟩
  · subst e
    intro x hx
    have hv := (product6_valid (hb x hx) (hi.2 x hx)).2.1
    have hl := hk x hx
    cases hd : x.dist with
    | elsewhere l =>
      rw [hd] at hv hl
      show mt = 18
      refine hl ?_
      show l < 0
      rcases hv with h | h | h | h <;> omega
    | _ => trivial

/-! ### MF26 -/

theorem law26_valid {b : Law26} (h : Make.Law26Built b) (hi : Make.Law26Ints b) : (law26C b.law).Valid b := by
  cases h with
  | continuum hd h =>
    unfold Make.continuumEnergyAngle26 at h
    obtain ⟨tab2, h1, h⟩ := bind_eq h
    obtain ⟨r', h2, h⟩ := bind_eq h
    split at h
    · cases h
      refine (show (law26C 1).Valid (Law26.continuum _) from ?_)
      unfold law26C
      rw [if_pos rfl]
      refine ⟨_, rfl, ?_⟩
      refine iseqD_valid h1 h2 hi fun x hx hI => ?_
      obtain ⟨rfl, _⟩ := iseq_make h2
      obtain ⟨rfl, _⟩ := TAB2.make_ok.mp h1
      unfold continuum26ElemC
      rw [if_pos rfl]
      obtain ⟨_, _, _, _, _, h⟩ := hd x hx
      exact ⟨list_fits hI, (continuumData_built (.legendre h)).2⟩
    · cases h
  | twoBody hd h =>
    obtain ⟨tab2, h1, h2⟩ := bind_eq h
    refine (show (law26C 2).Valid (Law26.twoBody _) from ?_)
    unfold law26C
    rw [if_neg (by decide), if_pos rfl]
    refine ⟨_, rfl, ?_⟩
    refine (iseq_valid (c := listC.checked twoBody26Ok) (I := LIST.Ints) h1 h2 hi fun x hx hI => ⟨list_fits hI, ?_⟩).1
    obtain ⟨rfl, _⟩ := iseq_make h2
    obtain ⟨_, _, _, _, h⟩ := hd x hx
    unfold TwoBodyData.makeTabulated at h
    split at h
    · cases h
    obtain ⟨e, hq⟩ := built_list h
    subst e; exact hq
  | transfer h =>
    refine (show (law26C 8).Valid (Law26.transfer _) from ?_)
    unfold law26C
    rw [if_neg (by decide), if_neg (by decide), if_pos rfl]
    exact ⟨_, rfl, table_fits h hi⟩

/-- A reaction product keeps the multiplicity and the law; the constructor throws exactly if the LAW of the multiplicity is not that of the law. -/
theorem C61_reactionProduct26 {m : TAB1} {d : Law26} :
    (toInt32 m.base.l2 = d.law → Make.reactionProduct26 m d = .ok ⟨m, d⟩) ∧ (toInt32 m.base.l2 ≠ d.law → Make.reactionProduct26 m d = .error .exc) := by
  unfold Make.reactionProduct26
  constructor
  · intro h; rw [if_neg (by simp [h])]
  · intro h; rw [if_pos h]

/-- Secondary distributions of photo- and electro-atomic data (MF26). -/
theorem C61_mf26 {mt za : Int} {awr : Dbl} {products : List Product26} {s : Sect (List Product26)} (hb : ∀ x ∈ products, Make.Product26Built x)
    (h : Make.mf26 mt za awr products = .ok s) :
    s = ⟨za, awr, mt, products⟩ ∧ (IsInt32 za → mt ≤ 999 → SeqInts Make.Product26Ints products → ReadsBack .mf26 s) := by
  have e : s = ⟨za, awr, mt, products⟩ := build_eq h
  refine ⟨e, fun hz hm hi => built_round (T := .mf26) h hz hm ?_ trivial⟩
  subst e
  refine ⟨fun x hx => ?_, seq_count hi.1⟩
  obtain ⟨p, d, ⟨_, _, _, _, _, _, _, hp⟩, hd, h⟩ := hb x hx
  have hI := hi.2 x hx
  unfold Make.reactionProduct26 at h
  split at h
  · cases h
  cases h
  rename_i hl
  exact ⟨tab1_fits hp hI.1, by simpa using hl, law26_valid hd hI.2⟩

end Props
end ENDFtk

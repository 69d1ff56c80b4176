import Verif.Rounded.Low
/-
  Rounding the reals of the section types of files 7, 8, 9, 10, 12 - 15, 26 and 28.
-/
set_option linter.unusedVariables false
set_option linter.unusedSectionVars false
set_option linter.unusedSimpArgs false
namespace ENDFtk
variable [Disco] [Rounding]

/-! ### MF7 -/

def TabLists.rnd (b : TabLists) : TabLists := (b.1.rnd, b.2.map LIST.rnd)

theorem tabListsC_rounds : tabListsC.Rounds TabLists.rnd :=
  Comp.Rounds.weaken (P := fun x => True ∧ ∀ y ∈ x.2, True)
    (andThen_rounds (d := fun p : TAB1 => seqC listC p.base.l1) tab1C_rounds (fun p => seqC_rounds listC_rounds p.base.l1) (fun _ => rfl)) (fun _ _ => ⟨trivial, fun _ _ => trivial⟩)

theorem TAB1.np_rnd (r : TAB1) : r.rnd.np = r.np := by simp [TAB1.np, TAB1.rnd]

theorem coherentC_rounds : coherentC.Rounds TabLists.rnd :=
  checked_rounds tabListsC_rounds (fun b _ h l hl => by
    obtain ⟨l', h', rfl⟩ := List.mem_map.mp hl
    rw [LIST.npl_rnd, h l' h', ← TAB1.np_rnd b.1]; rfl)

def Elastic.rnd : Elastic → Elastic
  | .coherent b => .coherent b.rnd
  | .incoherent b => .incoherent b.rnd
  | .mixed c i => .mixed c.rnd i.rnd

theorem elasticP_rounds : elasticP.Rounds Elastic.rnd where
  print := fun v t => by
    cases v with
    | coherent b => exact coherentC_rounds.print b t
    | incoherent b => exact TAB1.print_rnd b t
    | mixed c i =>
      show coherentC.print c.rnd t ++ i.rnd.print t = _
      rw [coherentC_rounds.print, TAB1.print_rnd]; rfl
  reals := fun {v} _ => by
    cases v with
    | coherent b => exact coherentC_rounds.reals (a := b) trivial
    | incoherent b => exact tab1C_rounds.reals (a := b) trivial
    | mixed c i =>
      show coherentC.reals c.rnd ++ tab1C.reals i.rnd = (coherentC.reals c ++ tab1C.reals i).map ENDFtk.rnd
      rw [coherentC_rounds.reals trivial, tab1C_rounds.reals trivial, List.map_append]

theorem elasticC_rounds (lthr : Int) : (elasticC lthr).Rounds Elastic.rnd :=
  ite_rounds (via_rounds coherentC_rounds elasticP_rounds (fun _ => rfl))
    (ite_rounds (via_rounds tab1C_rounds elasticP_rounds (fun _ => rfl))
      (ite_rounds (via_rounds (andThen_rounds coherentC_rounds (fun _ => tab1C_rounds) (fun _ => rfl)) elasticP_rounds (fun _ => rfl))
        (none_rounds elasticP_rounds)))

theorem Elastic.lthr_rnd (b : Elastic) : b.rnd.lthr = b.lthr := by cases b <;> rfl

theorem mf7mt2_rounds : mf7mt2.Rounds Elastic.rnd where
  valid := fun {b} h => by
    show (elasticC b.rnd.lthr).Valid b.rnd
    rw [Elastic.lthr_rnd]; exact (elasticC_rounds _).valid h
  head := fun b => by simp only [mf7mt2, Elastic.lthr_rnd]
  body := fun _ => elasticP_rounds.print
  reals := fun h => elasticP_rounds.reals h
  mtOk := fun _ _ h => h

theorem scatteringFunctionC_rounds : scatteringFunctionC.Rounds TabLists.rnd :=
  checked_rounds tabListsC_rounds (fun b _ h l hl => by
    obtain ⟨l', h', rfl⟩ := List.mem_map.mp hl
    exact Rounding.eq (h l' h'))

theorem tabulatedFunctionsC_rounds : tabulatedFunctionsC.Rounds (ISeq.rnd TabLists.rnd) :=
  (iseqC_rounds scatteringFunctionC_rounds).weaken (fun _ _ _ _ => trivial)

theorem constantsCheck_rnd (l : LIST) : constantsCheck l.rnd = constantsCheck l := by
  unfold constantsCheck
  rw [LIST.npl_rnd]; rfl

theorem constantsC_rounds : constantsC.Rounds LIST.rnd :=
  checkedE_rounds listC_rounds (fun a _ h => by rw [constantsCheck_rnd]; exact h)

theorem functionTypes_rnd (b : LIST) : functionTypes b.rnd = (functionTypes b).map ENDFtk.rnd := by
  simp only [functionTypes, LIST.rnd, ← List.map_drop, strideL_map]

theorem sigma0_rnd (b : LIST) : sigma0 b.rnd = ENDFtk.rnd (sigma0 b) := by
  unfold sigma0
  cases h : b.data with
  | nil => simp [LIST.rnd, h, ENDFtk.rnd, Rounding.zero]
  | cons x xs => simp [LIST.rnd, h]

theorem scatteringLawC_rnd {b : LIST} {v : Option (ISeq TabLists)} (h : (scatteringLawC b).Valid v) :
    (scatteringLawC b.rnd).Valid (v.map (ISeq.rnd TabLists.rnd)) := by
  cases v with
  | none =>
    show Disco.eqD (sigma0 b.rnd) Disco.zero = true
    rw [sigma0_rnd, ENDFtk.rnd, Rounding.eqZero]; exact h
  | some f =>
    refine ⟨?_, tabulatedFunctionsC_rounds.valid h.2⟩
    rw [sigma0_rnd, ENDFtk.rnd, Rounding.eqZero]; exact h.1

theorem scatteringLawC_print_rnd (b : LIST) (v : Option (ISeq TabLists)) (t : Nums) :
    (scatteringLawC b.rnd).print (v.map (ISeq.rnd TabLists.rnd)) t = (scatteringLawC b).print v t := by
  cases v with
  | none => rfl
  | some f => exact tabulatedFunctionsC_rounds.print f t

theorem scatteringLawC_reals_rnd (b : LIST) (v : Option (ISeq TabLists)) :
    (scatteringLawC b.rnd).reals (v.map (ISeq.rnd TabLists.rnd)) = ((scatteringLawC b).reals v).map ENDFtk.rnd := by
  cases v with
  | none => rfl
  | some f => exact tabulatedFunctionsC_rounds.reals (a := f) trivial

theorem optTemperatureC_rnd {type : Dbl} {v : Option TAB1} (h : (optTemperatureC type).Valid v) :
    (optTemperatureC (ENDFtk.rnd type)).Valid (v.map TAB1.rnd) := by
  cases v with
  | none =>
    show ¬ Disco.eqD (ENDFtk.rnd type) Disco.zero = true
    rw [ENDFtk.rnd, Rounding.eqZero]; exact h
  | some f =>
    refine ⟨?_, TAB1.fits_rnd h.2⟩
    rw [ENDFtk.rnd, Rounding.eqZero]; exact h.1

theorem temperaturesC_rnd {types : List Dbl} : ∀ {v : List (Option TAB1)}, (temperaturesC types).Valid v →
    (temperaturesC (types.map ENDFtk.rnd)).Valid (v.map (Option.map TAB1.rnd)) := by
  induction types with
  | nil =>
    rintro v ⟨a, rfl, _⟩
    exact ⟨(), rfl, trivial⟩
  | cons x xs ih =>
    intro v h
    cases v with
    | nil => exact h
    | cons o os => exact ⟨optTemperatureC_rnd h.1, ih h.2⟩

theorem temperaturesC_print_rnd (types : List Dbl) (t : Nums) : ∀ (v : List (Option TAB1)),
    (temperaturesC (types.map ENDFtk.rnd)).print (v.map (Option.map TAB1.rnd)) t = (temperaturesC types).print v t := by
  induction types with
  | nil => intro v; rfl
  | cons x xs ih =>
    intro v
    cases v with
    | nil => rfl
    | cons o os =>
      show (optTemperatureC _).print _ t ++ (temperaturesC _).print _ t = (optTemperatureC _).print _ t ++ (temperaturesC _).print _ t
      rw [ih]
      congr 1
      cases o with
      | none => rfl
      | some r => exact TAB1.print_rnd r t

theorem temperaturesC_reals_rnd (types : List Dbl) : ∀ (v : List (Option TAB1)),
    (temperaturesC (types.map ENDFtk.rnd)).reals (v.map (Option.map TAB1.rnd)) = ((temperaturesC types).reals v).map ENDFtk.rnd := by
  induction types with
  | nil => intro v; rfl
  | cons x xs ih =>
    intro v
    cases v with
    | nil => rfl
    | cons o os =>
      show (optTemperatureC _).reals _ ++ (temperaturesC _).reals _ = ((optTemperatureC _).reals _ ++ (temperaturesC _).reals _).map ENDFtk.rnd
      rw [ih, List.map_append]
      congr 1
      cases o with
      | none => rfl
      | some r => exact tab1C_rounds.reals (a := r) trivial

def ScatteringData.rnd (b : ScatteringData) : ScatteringData :=
  ⟨b.lat, b.lasym, b.constants.rnd, b.law.map (ISeq.rnd TabLists.rnd), b.principal.rnd, b.secondary.map (Option.map TAB1.rnd)⟩

theorem mf7mt4_rounds : mf7mt4.Rounds ScatteringData.rnd where
  valid := fun {b} h => by
    refine ⟨h.1, h.2.1, constantsC_rounds.valid h.2.2.1, scatteringLawC_rnd h.2.2.2.1, TAB1.fits_rnd h.2.2.2.2.1, ?_⟩
    show (temperaturesC (functionTypes b.constants.rnd)).Valid _
    rw [functionTypes_rnd]
    exact temperaturesC_rnd h.2.2.2.2.2
  head := fun b => rfl
  body := fun _ b t => by
    simp only [mf7mt4, ScatteringData.rnd, LIST.print_rnd, TAB1.print_rnd, scatteringLawC_print_rnd, functionTypes_rnd, temperaturesC_print_rnd]
  reals := fun {b} _ => by
    simp only [mf7mt4, ScatteringData.rnd, scatteringLawC_reals_rnd, functionTypes_rnd, temperaturesC_reals_rnd, List.map_append]
    rw [constantsC_rounds.reals trivial, tab1C_rounds.reals trivial]
  mtOk := fun _ _ h => h

theorem checkedNpl_rounds {Q : LIST → Prop} [DecidablePred Q] {ov : LIST → Prop} [DecidablePred ov] (h : ∀ l : LIST, Q l.rnd ↔ Q l) : (listC.checked Q ov).Rounds LIST.rnd :=
  checked_rounds listC_rounds (fun a _ hq => (h a).mpr hq)

theorem elementC_rounds : elementC.Rounds LIST.rnd :=
  checkedNpl_rounds (fun l => by unfold elementOk; rw [LIST.npl_rnd]; exact Iff.rfl)

theorem mf7mt451_rounds : mf7mt451.Rounds (List.map LIST.rnd) where
  valid := fun {b} h => ⟨forall_map elementC_rounds.valid h.1, by simpa using h.2⟩
  head := fun b => by simp only [mf7mt451, List.length_map]
  body := fun _ b t => flatMap_print_rnd listC_rounds.print b t
  reals := fun _ => flatMap_reals_rnd (fun a _ => listC_rounds.reals trivial)
  mtOk := fun _ _ h => h

/-! ### MF8 -/

theorem yieldsC_rounds : yieldsC.Rounds LIST.rnd :=
  checkedNpl_rounds (fun l => by unfold yieldsOk; rw [LIST.npl_rnd]; exact Iff.rfl)

theorem mf8yields_rounds (mt : Int) : (mf8yields mt).Rounds (List.map LIST.rnd) where
  valid := fun {b} h => ⟨forall_map yieldsC_rounds.valid h.1, by simpa using h.2⟩
  head := fun b => by simp only [mf8yields, List.length_map]
  body := fun _ b t => flatMap_print_rnd listC_rounds.print b t
  reals := fun _ => flatMap_reals_rnd (fun a _ => listC_rounds.reals trivial)
  mtOk := fun _ _ h => h

theorem decayEnergiesC_rounds : decayEnergiesC.Rounds LIST.rnd :=
  checkedNpl_rounds (fun l => by unfold decayEnergiesOk; rw [LIST.npl_rnd])
theorem decayModesC_rounds : decayModesC.Rounds LIST.rnd :=
  checkedNpl_rounds (fun l => by unfold decayModesOk; rw [LIST.npl_rnd]; exact Iff.rfl)
theorem discreteC_rounds : discreteC.Rounds LIST.rnd :=
  checkedNpl_rounds (fun l => by unfold discreteOk; rw [LIST.npl_rnd])

def DecaySpectrum.rnd (b : DecaySpectrum) : DecaySpectrum := (b.1.rnd, b.2.1.map LIST.rnd, b.2.2.map TAB1.rnd)

theorem decaySpectrumOk_rnd {b : DecaySpectrum} (h : decaySpectrumOk b) : decaySpectrumOk (DecaySpectrum.rnd b) := by
  refine ⟨?_, h.2⟩
  have e : (DecaySpectrum.rnd b).2.1.length = b.2.1.length := by simp [DecaySpectrum.rnd]
  rw [e]; exact h.1

theorem decaySpectrumC_rounds : decaySpectrumC.Rounds DecaySpectrum.rnd :=
  Comp.Rounds.weaken (P := fun x => True ∧ (∀ y ∈ x.2.1, True) ∧ ∀ y ∈ x.2.2, True)
    (checked_rounds (m := DecaySpectrum.rnd)
      (andThen_rounds (d := fun l => (seqC discreteC l.n2).andThen (fun _ => optC (toInt32 l.l1 ≠ 0) tab1C)) listC_rounds
        (fun l => andThen_rounds (d := fun _ => optC (toInt32 l.l1 ≠ 0) tab1C) (seqC_rounds discreteC_rounds l.n2)
          (fun _ => optC_rounds tab1C_rounds (toInt32 l.l1 ≠ 0)) (fun _ => rfl)) (fun _ => rfl))
      (fun b _ h => decaySpectrumOk_rnd h)) (fun _ _ => ⟨trivial, fun _ _ => trivial, fun _ _ => trivial⟩)

def DecayData.rnd (b : DecayData) : DecayData := ⟨b.lis, b.liso, b.energies.rnd, b.modes.rnd, b.spectra.map DecaySpectrum.rnd⟩

theorem mf8mt457_rounds : mf8mt457.Rounds DecayData.rnd where
  valid := fun {b} h => ⟨h.1, h.2.1, decayEnergiesC_rounds.valid h.2.2.1, decayModesC_rounds.valid h.2.2.2.1,
    forall_map decaySpectrumC_rounds.valid h.2.2.2.2.1, by simpa [DecayData.rnd] using h.2.2.2.2.2⟩
  head := fun b => by simp only [mf8mt457, DecayData.rnd, List.length_map]; rfl
  body := fun _ b t => by
    show b.energies.rnd.print t ++ (b.modes.rnd.print t ++ (b.spectra.map DecaySpectrum.rnd).flatMap (fun x => decaySpectrumC.print x t)) = _
    rw [LIST.print_rnd, LIST.print_rnd, flatMap_print_rnd decaySpectrumC_rounds.print]
    rfl
  reals := fun {b} _ => by
    show listC.reals b.energies.rnd ++ (listC.reals b.modes.rnd ++ (b.spectra.map DecaySpectrum.rnd).flatMap decaySpectrumC.reals) =
      (listC.reals b.energies ++ (listC.reals b.modes ++ b.spectra.flatMap decaySpectrumC.reals)).map ENDFtk.rnd
    rw [List.map_append, List.map_append, listC_rounds.reals trivial, listC_rounds.reals trivial,
      flatMap_reals_rnd (fun a _ => decaySpectrumC_rounds.reals trivial)]
  mtOk := fun _ _ h => h

/-! ### MF9, MF10, MF12, MF13 -/

def Products.rnd (b : Products) : Products := ⟨b.lis, b.products.map TAB1.rnd⟩

theorem mfProducts_rounds (mf : Int) : (mfProducts mf).Rounds Products.rnd where
  valid := fun {b} h => ⟨h.1, forall_map TAB1.fits_rnd h.2.1, by simpa [Products.rnd] using h.2.2⟩
  head := fun b => by simp only [mfProducts, Products.rnd, List.length_map]
  body := fun _ b t => flatMap_print_rnd tab1C_rounds.print b.products t
  reals := fun _ => flatMap_reals_rnd (fun a _ => tab1C_rounds.reals trivial)
  mtOk := fun _ _ h => h

def TotalPartials.rnd (b : TotalPartials) : TotalPartials := (b.1.map TAB1.rnd, b.2.map TAB1.rnd)

theorem totalPartialsC_rounds (nk : Int) : (totalPartialsC nk).Rounds TotalPartials.rnd :=
  (checked_rounds (andThen_rounds (optC_rounds tab1C_rounds _) (fun _ => seqC_rounds tab1C_rounds _) (fun _ => rfl)) (fun b _ h => by
    show 0 < asInt (b.2.map TAB1.rnd).length
    rw [List.length_map]; exact h)).weaken (fun _ _ => ⟨fun _ _ => trivial, fun _ _ => trivial⟩)

theorem TotalPartials.length_rnd (b : TotalPartials) : (TotalPartials.rnd b).2.length = b.2.length := by simp [TotalPartials.rnd]

theorem TotalPartials.ok_rnd {b : TotalPartials} (h : TotalPartials.Ok b) : TotalPartials.Ok (TotalPartials.rnd b) := by
  unfold TotalPartials.Ok at h ⊢
  rw [TotalPartials.length_rnd]
  exact (totalPartialsC_rounds _).valid h

theorem mf13_rounds : mf13.Rounds TotalPartials.rnd where
  valid := TotalPartials.ok_rnd
  head := fun b => by simp only [mf13, TotalPartials.length_rnd]
  body := fun _ b t => by
    simp only [mf13, TotalPartials.length_rnd]
    exact (totalPartialsC_rounds _).print b t
  reals := fun {b} _ => by
    simp only [mf13, TotalPartials.length_rnd]
    exact (totalPartialsC_rounds _).reals trivial
  mtOk := fun _ _ h => h

theorem transitionLG_rnd (l : LIST) : transitionLG l.rnd = transitionLG l := by
  unfold transitionLG; rw [LIST.npl_rnd]; rfl

theorem transitionC_rounds : transitionC.Rounds LIST.rnd :=
  checkedE_rounds listC_rounds (fun a _ h => by
    unfold transitionCheck at h ⊢
    rw [transitionLG_rnd]; exact h)

def PhotonProduction.rnd : PhotonProduction → PhotonProduction
  | .multiplicities b => .multiplicities (TotalPartials.rnd b)
  | .transitions l => .transitions l.rnd

theorem mf12_rounds : mf12.Rounds PhotonProduction.rnd where
  valid := fun {b} h => by
    cases b with
    | multiplicities b => exact TotalPartials.ok_rnd h
    | transitions l => exact transitionC_rounds.valid h
  head := fun b => by
    cases b with
    | multiplicities b => simp only [mf12, PhotonProduction.rnd, PhotonProduction.head, TotalPartials.length_rnd]
    | transitions l => simp only [mf12, PhotonProduction.rnd, PhotonProduction.head, transitionLG_rnd]; rfl
  body := fun _ b t => by
    cases b with
    | multiplicities b =>
      simp only [mf12, PhotonProduction.rnd, TotalPartials.length_rnd]
      exact (totalPartialsC_rounds _).print b t
    | transitions l => exact transitionC_rounds.print l t
  reals := fun {b} _ => by
    cases b with
    | multiplicities b =>
      simp only [mf12, PhotonProduction.rnd, TotalPartials.length_rnd]
      exact (totalPartialsC_rounds _).reals trivial
    | transitions l => exact transitionC_rounds.reals trivial
  mtOk := fun _ _ h => h

/-! ### MF14, MF15 -/

def Photon.rnd : Photon → Photon
  | .isotropic eg es => .isotropic (ENDFtk.rnd eg) (ENDFtk.rnd es)
  | .legendre b => .legendre (b.rnd LIST.rnd)
  | .tabulated b => .tabulated (b.rnd TAB1.rnd)

theorem photonP_rounds : photonP.Rounds Photon.rnd where
  print := fun v t => by
    cases v with
    | isotropic eg es => exact printCont_rnd ⟨eg, es, 0, 0, 0, 0⟩ t
    | legendre b => exact legendreC_rounds.print b t
    | tabulated b => exact tabulatedC_rounds.print b t
  reals := fun {v} _ => by
    cases v with
    | isotropic eg es => rfl
    | legendre b => exact legendreC_rounds.reals (a := b) trivial
    | tabulated b => exact tabulatedC_rounds.reals (a := b) trivial

theorem Photon.ltt_rnd (p : Photon) : p.rnd.ltt = p.ltt := by cases p <;> rfl
theorem Photon.isIso_rnd (p : Photon) : p.rnd.isIso = p.isIso := by cases p <;> rfl

theorem isotropicPhotonC_rounds : isotropicPhotonC.Rounds Photon.rnd where
  valid := fun {v} h => by
    show v.rnd.ltt = 0
    rw [Photon.ltt_rnd]; exact h
  print := photonP_rounds.print
  reals := fun h => photonP_rounds.reals h

theorem anisotropicC_rounds (ltt : Int) : (anisotropicC ltt).Rounds Photon.rnd :=
  ite_rounds (via_rounds legendreC_rounds photonP_rounds (fun _ => rfl))
    (ite_rounds (via_rounds tabulatedC_rounds photonP_rounds (fun _ => rfl)) (none_rounds photonP_rounds))

def MF14Data.rnd (b : MF14Data) : MF14Data := ⟨b.nk, b.photons.map Photon.rnd⟩

theorem MF14Data.LTT_rnd (b : MF14Data) : b.rnd.LTT = b.LTT := by
  unfold MF14Data.LTT MF14Data.rnd
  simp only [List.getLast?_map]
  cases b.photons.getLast? with
  | none => rfl
  | some p => exact Photon.ltt_rnd p

theorem MF14Data.NI_rnd (b : MF14Data) : b.rnd.NI = b.NI := by
  unfold MF14Data.NI MF14Data.rnd
  simp only [List.countP_map]
  congr 2
  funext p
  exact Photon.isIso_rnd p

theorem mf14_rounds : mf14.Rounds MF14Data.rnd where
  valid := fun {b} h => by
    obtain ⟨h1, h2, ⟨iso, rest, h3, h4, h5⟩, h6⟩ := h
    refine ⟨h1, by simpa [MF14Data.rnd] using h2, ⟨iso.map Photon.rnd, rest.map Photon.rnd, by simp [MF14Data.rnd, h3],
      forall_map isotropicPhotonC_rounds.valid h4, ?_⟩, by simpa [MF14Data.rnd] using h6⟩
    rw [MF14Data.LTT_rnd]
    exact forall_map (anisotropicC_rounds _).valid h5
  head := fun b => by
    simp only [mf14, MF14Data.LTT_rnd, MF14Data.NI_rnd]
    have e : (b.rnd.photons = []) ↔ (b.photons = []) := by simp [MF14Data.rnd]
    have e' : b.rnd.photons.length = b.photons.length := by simp [MF14Data.rnd]
    simp only [MF14Data.LI, MF14Data.NK, e']
    by_cases h : b.photons = []
    · rw [if_pos h, if_pos (e.mpr h), if_pos h, if_pos (e.mpr h)]; rfl
    · rw [if_neg h, if_neg (mt e.mp h), if_neg h, if_neg (mt e.mp h)]
  body := fun _ b t => by
    simp only [mf14, MF14Data.rnd, List.flatMap_map, photonP_rounds.print]
  reals := fun _ => flatMap_reals_rnd (fun a _ => photonP_rounds.reals trivial)
  mtOk := fun _ _ h => h

def Partial15.rnd (b : Partial15) : Partial15 := (b.1.rnd, b.2.rnd TAB1.rnd)

theorem partial15C_rounds : partial15C.Rounds Partial15.rnd :=
  (andThen_rounds (checked_rounds tab1C_rounds (fun _ _ h => h)) (fun _ => tabulatedC_rounds) (fun _ => rfl)).weaken (fun _ _ => ⟨trivial, trivial⟩)

theorem mf15_rounds : mf15.Rounds (List.map Partial15.rnd) where
  valid := fun h => ⟨forall_map partial15C_rounds.valid h.1, by simpa using h.2⟩
  head := fun b => by simp [mf15]
  body := fun _ b t => flatMap_print_rnd partial15C_rounds.print b t
  reals := fun _ => flatMap_reals_rnd (fun a _ => partial15C_rounds.reals trivial)
  mtOk := fun _ _ h => h

/-! ### MF26, MF28 -/

theorem continuum26C_rounds : continuum26C.Rounds (ISeq.rnd LIST.rnd) :=
  (iseqD_rounds (fun r => rfl) (fun r => checkedE_rounds (ite_rounds listC_rounds (checked_rounds listC_rounds (fun _ _ h => h)))
    (fun _ _ h => continuumCheck_rnd h))).weaken (fun _ _ _ _ => trivial)

theorem twoBody26C_rounds : twoBody26C.Rounds (ISeq.rnd LIST.rnd) :=
  (iseqC_rounds (checkedNpl_rounds (fun l => by unfold twoBody26Ok; rw [LIST.npl_rnd]; exact Iff.rfl))).weaken (fun _ _ _ _ => trivial)

def Law26.rnd : Law26 → Law26
  | .continuum b => .continuum (b.rnd LIST.rnd)
  | .twoBody b => .twoBody (b.rnd LIST.rnd)
  | .transfer b => .transfer b.rnd

theorem law26P_rounds : law26P.Rounds Law26.rnd where
  print := fun v t => by
    cases v with
    | continuum b => exact continuum26C_rounds.print b t
    | twoBody b => exact twoBody26C_rounds.print b t
    | transfer b => exact TAB1.print_rnd b t
  reals := fun {v} _ => by
    cases v with
    | continuum b => exact continuum26C_rounds.reals (a := b) trivial
    | twoBody b => exact twoBody26C_rounds.reals (a := b) trivial
    | transfer b => exact tab1C_rounds.reals (a := b) trivial

theorem law26C_rounds (law : Int) : (law26C law).Rounds Law26.rnd :=
  ite_rounds (via_rounds continuum26C_rounds law26P_rounds (fun _ => rfl))
    (ite_rounds (via_rounds twoBody26C_rounds law26P_rounds (fun _ => rfl))
      (ite_rounds (via_rounds tab1C_rounds law26P_rounds (fun _ => rfl)) (none_rounds law26P_rounds)))

theorem Law26.law_rnd (b : Law26) : b.rnd.law = b.law := by cases b <;> rfl

def Product26.rnd (b : Product26) : Product26 := ⟨b.multiplicity.rnd, b.dist.rnd⟩

theorem product26C_rounds : product26C.Rounds Product26.rnd where
  valid := fun {b} h => by
    refine ⟨TAB1.fits_rnd h.1, ?_, ?_⟩
    · show toInt32 b.multiplicity.base.l2 = b.dist.rnd.law
      rw [Law26.law_rnd]; exact h.2.1
    · show (law26C b.dist.rnd.law).Valid b.dist.rnd
      rw [Law26.law_rnd]; exact (law26C_rounds _).valid h.2.2
  print := fun b t => by simp only [product26C, Product26.rnd, TAB1.print_rnd, law26P_rounds.print]
  reals := fun {b} _ => by
    show tab1C.reals b.multiplicity.rnd ++ law26P.reals b.dist.rnd = (tab1C.reals b.multiplicity ++ law26P.reals b.dist).map ENDFtk.rnd
    rw [tab1C_rounds.reals trivial, law26P_rounds.reals trivial, List.map_append]

theorem mf26_rounds : mf26.Rounds (List.map Product26.rnd) where
  valid := fun h => ⟨forall_map product26C_rounds.valid h.1, by simpa using h.2⟩
  head := fun b => by simp [mf26]
  body := fun _ b t => flatMap_print_rnd product26C_rounds.print b t
  reals := fun _ => flatMap_reals_rnd (fun a _ => product26C_rounds.reals trivial)
  mtOk := fun _ _ h => h

theorem subshellC_rounds : subshellC.Rounds LIST.rnd :=
  checkedNpl_rounds (fun l => by unfold subshellOk; rw [LIST.npl_rnd]; exact Iff.rfl)

theorem mf28_rounds : mf28.Rounds (List.map LIST.rnd) where
  valid := fun {b} h => ⟨forall_map subshellC_rounds.valid h.1, by simpa using h.2⟩
  head := fun b => by simp only [mf28, List.length_map]
  body := fun _ b t => flatMap_print_rnd listC_rounds.print b t
  reals := fun _ => flatMap_reals_rnd (fun a _ => listC_rounds.reals trivial)
  mtOk := fun _ _ h => h

end ENDFtk

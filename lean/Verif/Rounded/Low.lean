import Verif.Rounded.Base
/-
  Rounding the reals of the section types of files 1, 3, 4, 5, 6, 23 and 27.
-/
set_option linter.unusedVariables false
set_option linter.unusedSectionVars false
set_option linter.unusedSimpArgs false
namespace ENDFtk
variable [Disco] [Rounding]

theorem mf3_rounds : mf3.Rounds TAB1.rnd := ⟨TAB1.fits_rnd, fun _ => rfl, fun _ => TAB1.print_rnd, fun h => tab1C_rounds.reals h, fun _ _ h => h⟩
theorem mf23_rounds : mf23.Rounds TAB1.rnd := ⟨TAB1.fits_rnd, fun _ => rfl, fun _ => TAB1.print_rnd, fun h => tab1C_rounds.reals h, fun _ _ h => h⟩
theorem mf27_rounds : mf27.Rounds TAB1.rnd := ⟨TAB1.fits_rnd, fun _ => rfl, fun _ => TAB1.print_rnd, fun h => tab1C_rounds.reals h, fun _ _ h => h⟩

/-! ### MF1 -/

def Info451.rnd (b : Info451) : Info451 := { b with p0 := b.p0.rnd, p1 := b.p1.rnd, p2 := b.p2.rnd }

theorem mf1mt451_rounds : mf1mt451.Rounds Info451.rnd where
  valid := fun h => h
  head := fun _ => rfl
  body := fun _ b t => by simp [mf1mt451, Info451.print, Info451.rnd, printCont_rnd]
  reals := fun _ => rfl
  mtOk := fun _ _ h => h

def Nubar.rnd : Nubar → Nubar
  | .poly r => .poly r.rnd
  | .tab r => .tab r.rnd

theorem Nubar.valid_rnd {b : Nubar} (h : b.Valid) : b.rnd.Valid := by
  cases b with
  | poly r => exact LIST.fits_rnd h
  | tab r => exact TAB1.fits_rnd h
theorem Nubar.print_rnd (b : Nubar) (t : Nums) : b.rnd.print t = b.print t := by
  cases b with
  | poly r => exact LIST.print_rnd r t
  | tab r => exact TAB1.print_rnd r t
theorem Nubar.reals_rnd (b : Nubar) : b.rnd.reals = b.reals.map ENDFtk.rnd := by
  cases b with
  | poly r => exact listC_rounds.reals (a := r) trivial
  | tab r => exact tab1C_rounds.reals (a := r) trivial
theorem Nubar.lnu_rnd (b : Nubar) : b.rnd.lnu = b.lnu := by cases b <;> rfl

theorem mf1nubar_rounds (mt : Int) : (mf1nubar mt).Rounds Nubar.rnd where
  valid := Nubar.valid_rnd
  head := fun b => by simp [mf1nubar, Nubar.lnu_rnd]
  body := fun _ => Nubar.print_rnd
  reals := fun _ => Nubar.reals_rnd _
  mtOk := fun _ _ h => h

theorem decayC_rounds : decayC.Rounds LIST.rnd := checked_rounds listC_rounds (fun a _ h => by
  have e := LIST.length_rnd a
  generalize a.rnd.data.length = n at e ⊢
  subst e; exact h)

theorem nnf_rnd (r : LIST) : nnf r.rnd = nnf r := by unfold nnf; rw [LIST.length_rnd]

theorem head_nnf_rnd (l : List LIST) : ((l.map LIST.rnd).head?).map nnf = l.head?.map nnf := by
  cases l with
  | nil => rfl
  | cons a l => exact congrArg some (nnf_rnd a)

theorem sameNNF_rnd {l : List LIST} (h : ∀ x ∈ l, some (nnf x) = l.head?.map nnf) :
    ∀ x ∈ l.map LIST.rnd, some (nnf x) = (l.map LIST.rnd).head?.map nnf := by
  intro x hx
  obtain ⟨y, hy, rfl⟩ := List.mem_map.mp hx
  rw [head_nnf_rnd, nnf_rnd]
  exact h y hy

theorem decayDepC_rounds : decayDepC.Rounds (ISeq.rnd LIST.rnd) :=
  (checked_rounds (iseqC_rounds decayC_rounds) (fun r _ h => sameNNF_rnd h)).weaken (fun _ _ _ _ => trivial)

def Decay.rnd : Decay → Decay
  | .indep r => .indep r.rnd
  | .dep r => .dep (r.rnd LIST.rnd)

theorem Decay.print_rnd (b : Decay) (t : Nums) : b.rnd.print t = b.print t := by
  cases b with
  | indep r => exact LIST.print_rnd r t
  | dep r => exact decayDepC_rounds.print r t
theorem Decay.reals_rnd (b : Decay) : b.rnd.reals = b.reals.map ENDFtk.rnd := by
  cases b with
  | indep r => exact listC_rounds.reals (a := r) trivial
  | dep r => exact decayDepC_rounds.reals (a := r) trivial

def Delayed.rnd (b : Delayed) : Delayed := ⟨b.lambda.rnd, b.nubar.rnd⟩

theorem mf1mt455_rounds : mf1mt455.Rounds Delayed.rnd where
  valid := fun {b} h => by
    refine ⟨?_, Nubar.valid_rnd h.2⟩
    have h1 := h.1
    show b.lambda.rnd.Valid
    cases hb : b.lambda with
    | indep r => rw [hb] at h1; exact LIST.fits_rnd h1
    | dep r => rw [hb] at h1; exact decayDepC_rounds.valid h1
  head := fun b => by
    simp only [mf1mt455, Delayed.rnd, Nubar.lnu_rnd]
    cases b.lambda <;> rfl
  body := fun _ b t => by simp only [mf1mt455, Delayed.rnd, Nubar.print_rnd, Decay.print_rnd]
  reals := fun {b} _ => by simp only [mf1mt455, Delayed.rnd, Nubar.reals_rnd, Decay.reals_rnd, List.map_append]
  mtOk := fun _ _ h => h

def Photons.rnd : Photons → Photons
  | .discrete l => .discrete (l.map TAB1.rnd)
  | .continuous r => .continuous r.rnd

theorem mf1mt460_rounds : mf1mt460.Rounds Photons.rnd where
  valid := fun {b} h => by
    cases b with
    | discrete l => exact ⟨forall_map TAB1.fits_rnd h.1, by simpa using h.2.1, by simpa using h.2.2⟩
    | continuous r => exact ⟨LIST.fits_rnd h.1, by rw [LIST.length_rnd]; exact h.2⟩
  head := fun b => by cases b <;> simp [mf1mt460, Photons.rnd, Photons.lo, Photons.ng]
  body := fun _ b t => by
    cases b with
    | discrete l => exact flatMap_print_rnd tab1C_rounds.print l t
    | continuous r => exact LIST.print_rnd r t
  reals := fun {b} _ => by
    cases b with
    | discrete l => exact flatMap_reals_rnd (fun a _ => tab1C_rounds.reals trivial)
    | continuous r => exact listC_rounds.reals (a := r) trivial
  mtOk := fun _ _ h => h

theorem thermalC_rounds : thermalC.Rounds LIST.rnd := checked_rounds listC_rounds (fun a _ h => by rw [LIST.npl_rnd]; exact h)
theorem releaseC_rounds : releaseC.Rounds TAB1.rnd := checked_rounds tab1C_rounds (fun a _ h => h)

def TabComp.rnd (b : TabComp) : TabComp := ⟨b.nfc, b.values.rnd, b.comps.map (Option.map TAB1.rnd)⟩

theorem TabComp.valid_rnd {b : TabComp} (h : b.Valid) : b.rnd.Valid := by
  obtain ⟨h1, h2, h3, h4⟩ := h
  refine ⟨thermalC_rounds.valid h1, by simpa [TabComp.rnd] using h2, ?_, ?_⟩
  · show b.nfc = ((b.comps.map (Option.map TAB1.rnd)).filter Option.isSome).length
    rw [h3, List.filter_map, List.length_map]
    congr 3
    funext o
    cases o <;> rfl
  · intro i r hr
    simp only [TabComp.rnd, List.getElem?_map, Option.map_eq_some_iff] at hr
    obtain ⟨o, ho, hr⟩ := hr
    obtain ⟨r', rfl, rfl⟩ := hr
    exact ⟨releaseC_rounds.valid (h4 i r' ho).1, (h4 i r' ho).2⟩

theorem TabComp.print_rnd (b : TabComp) (t : Nums) : b.rnd.print t = b.print t := by
  simp only [TabComp.print, TabComp.rnd, LIST.print_rnd, List.flatMap_map]
  congr 2
  funext o
  cases o with
  | none => rfl
  | some r => exact TAB1.print_rnd r t

theorem TabComp.reals_rnd (b : TabComp) : b.rnd.reals = b.reals.map ENDFtk.rnd := by
  simp only [TabComp.reals, TabComp.rnd, List.map_append]
  refine congr (congrArg _ (thermalC_rounds.reals trivial)) ?_
  refine flatMap_reals_rnd (fun o _ => ?_)
  cases o with
  | none => rfl
  | some r => exact tab1C_rounds.reals (a := r) trivial

def Release.rnd : Release → Release
  | .thermal r => .thermal r.rnd
  | .poly r => .poly r.rnd
  | .tab b => .tab b.rnd

theorem mf1mt458_rounds : mf1mt458.Rounds Release.rnd where
  valid := fun {b} h => by
    cases b with
    | thermal r => exact ⟨LIST.fits_rnd h.1, by rw [LIST.npl_rnd]; exact h.2.1, h.2.2⟩
    | poly r => exact ⟨LIST.fits_rnd h.1, by rw [LIST.npl_rnd]; exact h.2.1, by rw [LIST.npl_rnd]; exact h.2.2.1, h.2.2.2⟩
    | tab r => exact TabComp.valid_rnd h
  head := fun b => by cases b <;> rfl
  body := fun _ b t => by
    cases b with
    | thermal r => exact LIST.print_rnd r t
    | poly r => exact LIST.print_rnd r t
    | tab r => exact TabComp.print_rnd r t
  reals := fun {b} _ => by
    cases b with
    | thermal r => exact listC_rounds.reals (a := r) trivial
    | poly r => exact listC_rounds.reals (a := r) trivial
    | tab r => exact TabComp.reals_rnd r
  mtOk := fun _ _ h => h

/-! ### MF4 -/

theorem legendreC_rounds : legendreC.Rounds (ISeq.rnd LIST.rnd) := (iseqC_rounds listC_rounds).weaken (fun _ _ _ _ => trivial)
theorem tabulatedC_rounds : tabulatedC.Rounds (ISeq.rnd TAB1.rnd) := (iseqC_rounds tab1C_rounds).weaken (fun _ _ _ _ => trivial)

def Mixed.rnd (b : Mixed) : Mixed := ⟨b.legendre.rnd LIST.rnd, b.tabulated.rnd TAB1.rnd⟩

theorem mixedC_rounds : mixedC.Rounds Mixed.rnd where
  valid := fun {b} h => by
    refine ⟨legendreC_rounds.valid h.1, tabulatedC_rounds.valid h.2.1, ?_⟩
    have h3 := h.2.2
    simp only [Mixed.lined, Mixed.rnd, ISeq.rnd, List.getLast?_map, List.head?_map] at h3 ⊢
    cases h1 : b.legendre.seq.getLast? with
    | none => simp
    | some l =>
      cases h2 : b.tabulated.seq.head? with
      | none => simp
      | some r =>
        rw [h1, h2] at h3
        exact Rounding.eq h3
  print := fun b t => by
    show legendreC.print _ t ++ tabulatedC.print _ t = _
    rw [show b.rnd.legendre = b.legendre.rnd LIST.rnd from rfl, show b.rnd.tabulated = b.tabulated.rnd TAB1.rnd from rfl,
      legendreC_rounds.print, tabulatedC_rounds.print]
    rfl
  reals := fun {b} _ => by
    show legendreC.reals _ ++ tabulatedC.reals _ = (legendreC.reals _ ++ tabulatedC.reals _).map ENDFtk.rnd
    rw [List.map_append]
    exact congr (congrArg _ (legendreC_rounds.reals trivial)) (tabulatedC_rounds.reals trivial)

def Angular.rnd : Angular → Angular
  | .isotropic => .isotropic
  | .legendre b => .legendre (b.rnd LIST.rnd)
  | .tabulated b => .tabulated (b.rnd TAB1.rnd)
  | .mixed b => .mixed b.rnd

theorem Angular.valid_rnd {b : Angular} (h : b.Valid) : b.rnd.Valid := by
  cases b with
  | isotropic => trivial
  | legendre b => exact legendreC_rounds.valid h
  | tabulated b => exact tabulatedC_rounds.valid h
  | mixed b => exact mixedC_rounds.valid h
theorem Angular.print_rnd (b : Angular) (t : Nums) : b.rnd.print t = b.print t := by
  cases b with
  | isotropic => rfl
  | legendre b => exact legendreC_rounds.print b t
  | tabulated b => exact tabulatedC_rounds.print b t
  | mixed b => exact mixedC_rounds.print b t
theorem Angular.reals_rnd (b : Angular) : b.rnd.reals = b.reals.map ENDFtk.rnd := by
  cases b with
  | isotropic => rfl
  | legendre b => exact legendreC_rounds.reals (a := b) trivial
  | tabulated b => exact tabulatedC_rounds.reals (a := b) trivial
  | mixed b => exact mixedC_rounds.reals (a := b) trivial
theorem Angular.ltt_rnd (b : Angular) : b.rnd.ltt = b.ltt := by cases b <;> rfl

def MF4Data.rnd (b : MF4Data) : MF4Data := ⟨b.lct, b.dist.rnd⟩

theorem mf4_rounds : mf4.Rounds MF4Data.rnd where
  valid := fun h => ⟨h.1, Angular.valid_rnd h.2⟩
  head := fun b => by simp only [mf4, MF4Data.rnd, Angular.ltt_rnd]
  body := fun awr b t => by
    simp only [mf4, MF4Data.rnd, Angular.print_rnd, Angular.li, Angular.ltt_rnd]
    rw [← printCont_rnd ⟨Disco.zero, awr, _, _, _, _⟩]
    simp only [Cont.rnd, ENDFtk.rnd, Rounding.zero]
  reals := fun {b} _ => by
    show Disco.zero :: b.dist.rnd.reals = _
    rw [Angular.reals_rnd]
    simp [mf4, ENDFtk.rnd, Rounding.zero]
  mtOk := fun _ _ h => h

/-! ### MF5 -/

def Spectrum.rnd : Spectrum → Spectrum
  | .tabulated b => .tabulated (b.rnd TAB1.rnd)
  | .general a b => .general a.rnd b.rnd
  | .maxwell a => .maxwell a.rnd
  | .evaporation a => .evaporation a.rnd
  | .watt a b => .watt a.rnd b.rnd
  | .madland a => .madland a.rnd

theorem Spectrum.valid_rnd {b : Spectrum} (h : b.Valid) : b.rnd.Valid := by
  cases b with
  | tabulated b => exact tabulatedC_rounds.valid h
  | general a b => exact ⟨TAB1.fits_rnd h.1, TAB1.fits_rnd h.2⟩
  | watt a b => exact ⟨TAB1.fits_rnd h.1, TAB1.fits_rnd h.2⟩
  | _ => exact TAB1.fits_rnd h
theorem Spectrum.print_rnd (b : Spectrum) (t : Nums) : b.rnd.print t = b.print t := by
  cases b with
  | tabulated b => exact tabulatedC_rounds.print b t
  | general a b => simp only [Spectrum.rnd, Spectrum.print, TAB1.print_rnd]
  | watt a b => simp only [Spectrum.rnd, Spectrum.print, TAB1.print_rnd]
  | _ r => exact TAB1.print_rnd r t
theorem Spectrum.reals_rnd (b : Spectrum) : b.rnd.reals = b.reals.map ENDFtk.rnd := by
  cases b with
  | tabulated b => exact tabulatedC_rounds.reals (a := b) trivial
  | general a b =>
    show tab1C.reals _ ++ tab1C.reals _ = (_ ++ _ : List Dbl).map _
    rw [List.map_append, tab1C_rounds.reals trivial, tab1C_rounds.reals trivial]
  | watt a b =>
    show tab1C.reals _ ++ tab1C.reals _ = (_ ++ _ : List Dbl).map _
    rw [List.map_append, tab1C_rounds.reals trivial, tab1C_rounds.reals trivial]
  | _ r => exact tab1C_rounds.reals (a := r) trivial
theorem Spectrum.lf_rnd (b : Spectrum) : b.rnd.lf = b.lf := by cases b <;> rfl

def Partial5.rnd (b : Partial5) : Partial5 := ⟨b.probability.rnd, b.dist.rnd⟩

theorem partial5C_rounds : partial5C.Rounds Partial5.rnd where
  valid := fun {b} h => ⟨TAB1.fits_rnd h.1, Spectrum.valid_rnd h.2.1, by
    show toInt32 b.probability.base.l2 = b.dist.rnd.lf
    rw [Spectrum.lf_rnd]; exact h.2.2⟩
  print := fun b t => by simp only [partial5C, Partial5.rnd, TAB1.print_rnd, Spectrum.print_rnd]
  reals := fun {b} _ => by
    simp only [partial5C, Partial5.rnd, Spectrum.reals_rnd, List.map_append]
    rw [tab1C_rounds.reals trivial]

theorem mf5_rounds : mf5.Rounds (List.map Partial5.rnd) where
  valid := fun h => ⟨forall_map partial5C_rounds.valid h.1, by simpa using h.2⟩
  head := fun b => by simp [mf5]
  body := fun _ b t => flatMap_print_rnd partial5C_rounds.print b t
  reals := fun _ => flatMap_reals_rnd (fun a _ => partial5C_rounds.reals trivial)
  mtOk := fun _ _ h => h

/-! ### MF6 -/

theorem filterMap_map_rnd {α β : Type} (is : List Nat) (f : α → β) (F : Nat → Option α) :
    is.filterMap (fun i => (F i).map f) = (is.filterMap F).map f := by
  induction is with
  | nil => rfl
  | cons i is ih =>
    simp only [List.filterMap_cons]
    cases F i <;> simp [ih]

theorem strideL_map {α β : Type} (n : Nat) (l : List α) (f : α → β) : strideL n (l.map f) = (strideL n l).map f := by
  simp only [strideL, List.length_map, List.getElem?_map]
  exact filterMap_map_rnd _ f _

theorem continuumCheck_iff {lang : Int} {l : LIST} : continuumCheck lang l = .ok () ↔ lang = 3 ∨
    (¬(2 + l.l2 ≤ 0 ∨ l.l1 < 0 ∨ ((strideL (2 + l.l2).toNat l.data).length : Int) < l.l1) ∧
      isSorted Disco.ltD ((strideL (2 + l.l2).toNat l.data).drop l.l1.toNat) = true ∧
      ¬(Over (toInt32 l.l2 + 2) ∨ Over (toInt32 l.n2 * (toInt32 l.l2 + 2))) ∧ toInt32 l.npl = toInt32 l.n2 * (toInt32 l.l2 + 2) ∧
      ¬(lang = 2 ∧ toInt32 l.l2 ≠ 1 ∧ toInt32 l.l2 ≠ 2)) := by
  unfold continuumCheck
  split
  · simp [*]
  split
  · simp [*]
  split
  · simp_all
  split
  · rename_i h; simp_all
  split
  · simp_all
  split <;> simp_all

theorem continuumCheck_rnd {lang : Int} {l : LIST} (h : continuumCheck lang l = .ok ()) : continuumCheck lang l.rnd = .ok () := by
  rw [continuumCheck_iff] at h ⊢
  rcases h with h | ⟨h1, h2, h0, h3, h4⟩
  · exact .inl h
  have e : strideL (2 + l.l2).toNat (l.data.map ENDFtk.rnd) = (strideL (2 + l.l2).toNat l.data).map ENDFtk.rnd := strideL_map _ _ _
  refine .inr ⟨?_, ?_, h0, ?_, h4⟩
  · simpa only [LIST.rnd, e, List.length_map] using h1
  · simp only [LIST.rnd, e, ← List.map_drop]
    exact isSorted_rnd h2
  · rw [LIST.npl_rnd]; exact h3

theorem continuumElemC_rounds (r : TAB2) : (continuumElemC r).Rounds LIST.rnd :=
  checkedE_rounds (ite_rounds listC_rounds (checked_rounds listC_rounds (fun _ _ h => h))) (fun _ _ h => continuumCheck_rnd h)

theorem continuumC_rounds : continuumC.Rounds (ISeq.rnd LIST.rnd) :=
  (iseqD_rounds (fun r => rfl) continuumElemC_rounds).weaken (fun _ _ _ _ => trivial)

theorem twoBodyC_rounds : twoBodyC.Rounds (ISeq.rnd LIST.rnd) :=
  (iseqD_rounds (fun r => rfl) (fun r => checked_rounds listC_rounds (fun a _ h => by
    unfold twoBodyOk at h ⊢; rw [LIST.npl_rnd]; exact h))).weaken (fun _ _ _ _ => trivial)

theorem chargedC_rounds : chargedC.Rounds (ISeq.rnd LIST.rnd) :=
  (iseqD_rounds (fun r => rfl) (fun r => checked_rounds listC_rounds (fun a _ h => by
    unfold chargedOk at h ⊢; rw [LIST.npl_rnd]; exact h))).weaken (fun _ _ _ _ => trivial)

theorem laboratoryC_rounds : laboratoryC.Rounds (ISeq.rnd (ISeq.rnd TAB1.rnd)) :=
  (iseqC_rounds (iseqC_rounds tab1C_rounds)).weaken (fun _ _ _ _ _ _ => trivial)

def Law6.rnd : Law6 → Law6
  | .continuum b => .continuum (b.rnd LIST.rnd)
  | .twoBody b => .twoBody (b.rnd LIST.rnd)
  | .charged b => .charged (b.rnd LIST.rnd)
  | .nBody b => .nBody b.rnd
  | .laboratory b => .laboratory (b.rnd (ISeq.rnd TAB1.rnd))
  | b => b

theorem Law6.valid_rnd {b : Law6} (h : b.Valid) : b.rnd.Valid := by
  cases b with
  | continuum b => exact continuumC_rounds.valid h
  | twoBody b => exact twoBodyC_rounds.valid h
  | charged b => exact chargedC_rounds.valid h
  | nBody b => exact Cont.fits_rnd h
  | laboratory b => exact laboratoryC_rounds.valid h
  | _ => exact h
theorem Law6.print_rnd (b : Law6) (t : Nums) : b.rnd.print t = b.print t := by
  cases b with
  | continuum b => exact continuumC_rounds.print b t
  | twoBody b => exact twoBodyC_rounds.print b t
  | charged b => exact chargedC_rounds.print b t
  | nBody b => exact printCont_rnd b t
  | laboratory b => exact laboratoryC_rounds.print b t
  | _ => rfl
theorem Law6.reals_rnd (b : Law6) : b.rnd.reals = b.reals.map ENDFtk.rnd := by
  cases b with
  | continuum b => exact continuumC_rounds.reals (a := b) trivial
  | twoBody b => exact twoBodyC_rounds.reals (a := b) trivial
  | charged b => exact chargedC_rounds.reals (a := b) trivial
  | nBody b => exact contC_rounds.reals (a := b) trivial
  | laboratory b => exact laboratoryC_rounds.reals (a := b) trivial
  | _ => rfl
theorem Law6.law_rnd (b : Law6) : b.rnd.law = b.law := by cases b <;> rfl
theorem Law6.mtOk_rnd {mt : Int} {b : Law6} (h : b.mtOk mt) : b.rnd.mtOk mt := by cases b <;> exact h

def Product6.rnd (b : Product6) : Product6 := ⟨b.multiplicity.rnd, b.dist.rnd⟩

theorem Product6.valid_rnd {b : Product6} (h : b.Valid) : b.rnd.Valid :=
  ⟨TAB1.fits_rnd h.1, Law6.valid_rnd h.2.1, by
    show toInt32 b.multiplicity.base.l2 = b.dist.rnd.law
    rw [Law6.law_rnd]; exact h.2.2⟩
theorem Product6.print_rnd (b : Product6) (t : Nums) : b.rnd.print t = b.print t := by
  simp only [Product6.print, Product6.rnd, TAB1.print_rnd, Law6.print_rnd]
theorem Product6.reals_rnd (b : Product6) : b.rnd.reals = b.reals.map ENDFtk.rnd := by
  simp only [Product6.reals, Product6.rnd, Law6.reals_rnd, List.map_append]
  rw [tab1C_rounds.reals trivial]

def MF6Data.rnd (b : MF6Data) : MF6Data := ⟨b.jp, b.lct, b.products.map Product6.rnd⟩

theorem mf6_rounds : mf6.Rounds MF6Data.rnd where
  valid := fun h => ⟨h.1, h.2.1, forall_map Product6.valid_rnd h.2.2.1, by simpa [MF6Data.rnd] using h.2.2.2⟩
  head := fun b => by simp [mf6, MF6Data.rnd]
  body := fun _ b t => by simp only [mf6, MF6Data.rnd, List.flatMap_map, Product6.print_rnd]
  reals := fun _ => flatMap_reals_rnd (fun a _ => Product6.reals_rnd a)
  mtOk := fun mt b h x hx => by
    obtain ⟨y, hy, rfl⟩ := List.mem_map.mp hx
    exact Law6.mtOk_rnd (h y hy)

end ENDFtk

import Verif.Section.MF31
/-
  The resonance parameters: section/2/151.
-/
set_option linter.unusedVariables false
set_option linter.unusedSectionVars false
set_option linter.unusedSimpArgs false
namespace ENDFtk
variable [Disco]

/-- 0 or 1: a `bool` printed as an integer. -/
def ofBool (b : Bool) : Int := if b then 1 else 0

/-- A `long` converted to `bool`. -/
def toBool (n : Int) : Bool := n != 0

theorem toBool_ofBool (b : Bool) : toBool (ofBool b) = b := by cases b <;> rfl
theorem fits_ofBool (b : Bool) : fits 11 (ofBool b) := by cases b <;> decide

/-! ### a CONT record followed by components -/

/-- What a class keeps of a CONT record it reads, and the CONT record it prints (which also has the number of the components that follow):
  `of`: what is kept, `count`: the number of components to read, `cont`: what is printed, `ok`: what holds for the members. -/
structure Header (σ : Type) where
  of : Cont → σ
  count : Cont → Int
  cont : σ → Nat → Cont
  ok : σ → Prop

/-- The requirements on a `Header`. -/
structure Header.Law {σ : Type} (H : Header σ) : Prop where
  ok_of : ∀ {c : Cont}, c.Fits → H.ok (H.of c)
  of_cont : ∀ {h} {n : Nat}, H.ok h → H.of (H.cont h n) = h
  count_cont : ∀ {h} {n : Nat}, (n : Int) < 2147483648 → toInt32 (H.count (H.cont h n)) = n
  fits : ∀ {h} {n : Nat}, H.ok h → (n : Int) < 2147483648 → (H.cont h n).Fits

/-- A CONT record, a component `m`, and as many components `c` as the CONT record says. -/
def contSeqC {σ μ α : Type} (H : Header σ) (m : Comp μ) (c : Comp α) : Comp (σ × μ × List α) where
  read := fun t => do
    let r ← readCont t
    let x ← m.read t
    let xs ← (seqC c (H.count r)).read t
    pure (H.of r, x, xs)
  print := fun b t => printCont (H.cont b.1 b.2.2.length) t ++ (m.print b.2.1 t ++ b.2.2.flatMap (fun x => c.print x t))
  nc := fun b => 1 + (m.nc b.2.1 + (b.2.2.map c.nc).sum)
  Valid := fun b => H.ok b.1 ∧ m.Valid b.2.1 ∧ (b.2.2.length : Int) < 2147483648 ∧ ∀ x ∈ b.2.2, c.Valid x
  reals := fun b => [(H.cont b.1 b.2.2.length).c1, (H.cont b.1 b.2.2.length).c2] ++ (m.reals b.2.1 ++ b.2.2.flatMap c.reals)

theorem contSeqC_law {σ μ α : Type} {H : Header σ} {m : Comp μ} {c : Comp α} {E : Err → Prop} [ErrSub StdErr E] (hH : H.Law) (hm : m.Law E) (hc : c.Law E) :
    (contSeqC H m c).Law E where
  round := by
    rintro ⟨h, x, xs⟩ t ⟨v1, v2, v3, v4⟩ hr ht
    have hr : Reps ([(H.cont h xs.length).c1, (H.cont h xs.length).c2] ++ (m.reals x ++ xs.flatMap c.reals)) := hr
    rw [reps_append, reps_append] at hr
    refine Rd.bind (contC_law.rd (a := H.cont h xs.length) (hH.fits v1 v3) hr.1 ht)
      (Rd.bind (hm.rd v2 hr.2.1 ht) (Rd.bindPure ((seqC_law hc _).rd (a := xs) ⟨hH.count_cont v3, v4⟩ hr.2.2 ht) ?_))
    rw [hH.of_cont v1]
  canon := fun {b t} hv ht => (contC_law.canon (hH.fits hv.1 hv.2.2.1) ht).append ((hm.canon hv.2.1 ht).append (hc.flatMap hv.2.2.2 ht))
  reads := fun t => RvK.toReads (RvK.bind (contC_law.reads t) fun r hr => RvK.bind (hm.reads t) fun x hx =>
    RvK.bind ((seqC_law hc _).reads t) fun xs hxs => RvK.pure ⟨hH.ok_of hr, hx, lt_of_count hxs.1.symm, hxs.2⟩
      (by simp [contSeqC, contC, seqC]; omega))

/-- At least one component (as an `int`). -/
def atLeastOne {σ μ α : Type} (b : σ × μ × List α) : Prop := 1 ≤ asInt b.2.2.length

instance {σ μ α : Type} : DecidablePred (atLeastOne (σ := σ) (μ := μ) (α := α)) := fun b => by unfold atLeastOne; exact inferInstance

/-! ### resolved resonances, LRF = 1, 2, 3 -/

/-- section/2/151/BreitWignerReichMooreLValueBase/src/verifySize.hpp 1-29 (NPL and NRS are `int`) -/
def lvalueOk (l : LIST) : Prop := 1 ≤ toInt32 l.npl ∧ 1 ≤ toInt32 l.n2 ∧ toInt32 l.npl = 6 * toInt32 l.n2

instance : DecidablePred lvalueOk := fun l => by unfold lvalueOk; exact inferInstance

/-- 6 * NRS overflows: section/2/151/BreitWignerReichMooreLValueBase/src/verifySize.hpp 21 -/
def lvalueOv (l : LIST) : Prop := 1 ≤ toInt32 l.npl ∧ 1 ≤ toInt32 l.n2 ∧ Over (6 * toInt32 l.n2)

instance : DecidablePred lvalueOv := fun l => by unfold lvalueOv; exact inferInstance

/-- BreitWignerLValue and ReichMooreLValue: section/2/151/BreitWignerReichMooreLValueBase/src/ctor.hpp 5-9, 55-61 -/
def lvalueC : Comp LIST := listC.checked lvalueOk lvalueOv

/-- section/2/151/BreitWignerReichMooreBase.hpp 14-17 -/
structure BwHeader where
  spi : Dbl
  ap : Dbl
  lad : Bool
  nlsc : Int

/-- section/2/151/BreitWignerReichMooreBase/src/ctor.hpp 31-39, print.hpp 14-16 -/
def bwHeader : Header BwHeader where
  of := fun c => ⟨c.c1, c.c2, toBool c.l1, toInt32 c.n2⟩
  count := fun c => c.n1
  cont := fun h n => ⟨h.spi, h.ap, ofBool h.lad, 0, asInt n, h.nlsc⟩
  ok := fun h => IsInt32 h.nlsc

theorem bwHeader_law : bwHeader.Law where
  ok_of := fun _ => isInt32_toInt32 _
  of_cont := fun {h n} hv => by simp only [bwHeader, toBool_ofBool, toInt32_of hv]
  count_cont := fun h => by simp only [bwHeader, asInt, toInt32_toInt32, toInt32_nat h]
  fits := fun hv _ => ⟨fits_ofBool _, fits0, fits_asInt _, fits_of_int32 hv⟩

/-- SingleLevelBreitWigner and MultiLevelBreitWigner: section/2/151/BreitWignerReichMooreBase/src/ctor.hpp 18-60, verifySize.hpp 1-11, print.hpp 11-21,
    NC.hpp 4-9 -/
def breitWignerC : Comp (BwHeader × Unit × List LIST) := (contSeqC bwHeader nilC lvalueC).checked atLeastOne

/-- section/2/151/ReichMoore/src/verifyNLSC.hpp 1-12 -/
def nlscOk (b : BwHeader × Unit × List LIST) : Prop := asInt b.2.2.length ≤ b.1.nlsc

instance : DecidablePred nlscOk := fun l => by unfold nlscOk; exact inferInstance

/-- section/2/151/ReichMoore/src/ctor.hpp 18-56 -/
def reichMooreC : Comp (BwHeader × Unit × List LIST) := breitWignerC.checked nlscOk

theorem lvalueC_law : lvalueC.Law UbErr := Comp.checked_lawU (E1 := StdErr) listC_law _
theorem breitWignerC_law : breitWignerC.Law UbErr := Comp.checked_law (contSeqC_law bwHeader_law nilC_law.weaken lvalueC_law) _
theorem reichMooreC_law : reichMooreC.Law UbErr := Comp.checked_law breitWignerC_law _

/-! ### unresolved resonances -/

/-- section/2/151/UnresolvedBase.hpp 12-14 -/
structure UrHeader where
  spi : Dbl
  ap : Dbl
  lssf : Bool

/-- section/2/151/UnresolvedBase/src/ctor.hpp 27-33, print.hpp 14-16 -/
def urHeader : Header UrHeader where
  of := fun c => ⟨c.c1, c.c2, toBool c.l1⟩
  count := fun c => c.n1
  cont := fun h n => ⟨h.spi, h.ap, ofBool h.lssf, 0, asInt n, 0⟩
  ok := fun _ => True

theorem urHeader_law : urHeader.Law where
  ok_of := fun _ => trivial
  of_cont := fun {h n} hv => by simp only [urHeader, toBool_ofBool]
  count_cont := fun h => by simp only [urHeader, asInt, toInt32_toInt32, toInt32_nat h]
  fits := fun hv _ => ⟨fits_ofBool _, fits0, fits_asInt _, fits0⟩

/-- section/2/151/UnresolvedEnergyIndependent/LValue/src/verifySize.hpp 1-12 -/
def lvalueAOk (l : LIST) : Prop := toInt32 l.npl = 6 * toInt32 l.n2

instance : DecidablePred lvalueAOk := fun l => by unfold lvalueAOk; exact inferInstance

/-- 6 * NJS overflows: section/2/151/UnresolvedEnergyIndependent/LValue/src/verifySize.hpp 4 -/
def lvalueAOv (l : LIST) : Prop := Over (6 * toInt32 l.n2)

instance : DecidablePred lvalueAOv := fun l => by unfold lvalueAOv; exact inferInstance

/-- section/2/151/UnresolvedEnergyIndependent (case A): LValue/src/ctor.hpp 5-9, 57-67, section/2/151/UnresolvedBase/src/ctor.hpp 17-52, print.hpp 11-21,
    NC.hpp 4-9, UnresolvedBaseWithoutSpin/src/ctor.hpp 14-20, verifySize.hpp 1-11 -/
def caseAC : Comp (UrHeader × Unit × List LIST) := (contSeqC urHeader nilC (listC.checked lvalueAOk lvalueAOv)).checked atLeastOne

/-- section/2/151/UnresolvedLValueBase.hpp: AWRI and L -/
structure LvHeader where
  awri : Dbl
  l : Int

/-- section/2/151/UnresolvedLValueBase/src/ctor.hpp 19-25, print.hpp 14-16 -/
def lvHeader : Header LvHeader where
  of := fun c => ⟨c.c1, toInt32 c.l1⟩
  count := fun c => c.n1
  cont := fun h n => ⟨h.awri, Disco.zero, h.l, 0, asInt n, 0⟩
  ok := fun h => IsInt32 h.l

theorem lvHeader_law : lvHeader.Law where
  ok_of := fun _ => isInt32_toInt32 _
  of_cont := fun {h n} hv => by simp only [lvHeader, toInt32_of hv]
  count_cont := fun h => by simp only [lvHeader, asInt, toInt32_toInt32, toInt32_nat h]
  fits := fun hv _ => ⟨fits_of_int32 hv, fits0, fits_asInt _, fits0⟩

/-- section/2/151/UnresolvedEnergyDependent/JValue.hpp 15-22, 146: the number of energies, `drop_exactly( 6 )` and `stride( 6 )`, as `unsigned int` -/
def jvalueNE (l : LIST) : Int := toUInt32 ((l.data.length - 6 + 5) / 6 : Nat)

/-- section/2/151/UnresolvedEnergyDependent/JValue/src/verifySize.hpp 1-17 (`unsigned int`); with fewer than six values `drop_exactly( 6 )` violates its
    precondition -/
def jvalueCheck (l : LIST) : Except Err Unit :=
  if l.data.length < 6 then .error .ub
  else if jvalueNE l = 0 then .error .exc
  else if toUInt32 l.npl ≠ toUInt32 (6 + jvalueNE l * 6) then .error .exc
  else .ok ()

theorem jvalueCheck_err (l : LIST) (e : Err) (h : jvalueCheck l = .error e) : UbErr e := by
  unfold jvalueCheck at h
  split at h
  · cases h; exact .inr rfl
  split at h
  · cases h; exact .inl rfl
  split at h
  · cases h; exact .inl rfl
  · cases h

/-- section/2/151/UnresolvedEnergyDependent/JValue/src/ctor.hpp 5-8, 62-72 -/
def jvalueC : Comp LIST := listC.checkedE jvalueCheck

theorem jvalueC_law : jvalueC.Law UbErr := Comp.checkedE_law (E1 := StdErr) listC_law _ jvalueCheck_err

/-- An l value of case C. -/
abbrev LValueC := LvHeader × Unit × List LIST

/-- section/2/151/UnresolvedEnergyDependent/LValue/src/ctor.hpp 31-41, UnresolvedLValueBase/src/ctor.hpp 9-44, verifySize.hpp 1-11, print.hpp 11-21,
    NC.hpp 4-9 -/
def lvalueCC : Comp LValueC := (contSeqC lvHeader nilC jvalueC).checked atLeastOne

/-- section/2/151/UnresolvedEnergyDependent (case C): src/ctor.hpp 40-50, UnresolvedBase as in case A -/
def caseCC : Comp (UrHeader × Unit × List LValueC) := (contSeqC urHeader nilC lvalueCC).checked atLeastOne

/-- section/2/151/UnresolvedEnergyDependentFissionWidths/JValue.hpp 128-144 (`drop_exactly( 6 )`), src/verifySize.hpp 1-9 -/
def jvalueBCheck (l : LIST) : Except Err Unit :=
  if l.data.length < 6 then .error .ub
  else if toUInt32 ((l.data.length - 6 : Nat) : Int) < 1 then .error .exc
  else .ok ()

/-- The number of energies of a j value of case B, as `unsigned int`. -/
def jvalueBNE (l : LIST) : Int := toUInt32 ((l.data.length - 6 : Nat) : Int)

theorem jvalueBCheck_err (l : LIST) (e : Err) (h : jvalueBCheck l = .error e) : UbErr e := by
  unfold jvalueBCheck at h
  split at h
  · cases h; exact .inr rfl
  split at h
  · cases h; exact .inl rfl
  · cases h

/-- section/2/151/UnresolvedEnergyDependentFissionWidths/JValue/src/ctor.hpp 5-8, 48-58 -/
def jvalueBC : Comp LIST := listC.checkedE jvalueBCheck

theorem jvalueBC_law : jvalueBC.Law UbErr := Comp.checkedE_law (E1 := StdErr) listC_law _ jvalueBCheck_err

/-- The number of energies of an l value of case B: section/2/151/UnresolvedEnergyDependentFissionWidths/LValue.hpp, that of the first j value. -/
def lvalueBNE (b : LValueC) : Int := match b.2.2 with
  | [] => 0
  | j :: _ => jvalueBNE j

/-- section/2/151/UnresolvedEnergyDependentFissionWidths/LValue/src/verifySize.hpp 1-16: the same number of energies in all j values -/
def sameNE (b : LValueC) : Prop := ∀ j ∈ b.2.2, jvalueBNE j = lvalueBNE b

instance : DecidablePred sameNE := fun b => by unfold sameNE; exact inferInstance

/-- section/2/151/UnresolvedEnergyDependentFissionWidths/LValue/src/ctor.hpp 34-47 -/
def lvalueBC : Comp LValueC := ((contSeqC lvHeader nilC jvalueBC).checked atLeastOne).checked sameNE

/-- section/2/151/UnresolvedBaseWithoutSpin/src/verifySize.hpp 1-11, UnresolvedEnergyDependentFissionWidths/src/verifySize.hpp 1-14 -/
def caseBOk (b : LIST × List LValueC) : Prop := 1 ≤ asInt b.2.length ∧ ∀ l ∈ b.2, toUInt32 b.1.npl = lvalueBNE l

instance : DecidablePred caseBOk := fun b => by unfold caseBOk; exact inferInstance

/-- section/2/151/UnresolvedEnergyDependentFissionWidths (case B): src/ctor.hpp 5-11, 49-85, print.hpp 11-19, NC.hpp 4-9 -/
def caseBC : Comp (LIST × List LValueC) := (listC.andThen (fun l => seqC lvalueBC l.n2)).checked caseBOk

theorem caseAC_law : caseAC.Law UbErr := Comp.checked_law (contSeqC_law urHeader_law nilC_law.weaken (Comp.checked_lawU (E1 := StdErr) listC_law _)) _
theorem lvalueCC_law : lvalueCC.Law UbErr := Comp.checked_law (contSeqC_law lvHeader_law nilC_law.weaken jvalueC_law) _
theorem caseCC_law : caseCC.Law UbErr := Comp.checked_law (contSeqC_law urHeader_law nilC_law.weaken lvalueCC_law) _
theorem lvalueBC_law : lvalueBC.Law UbErr := Comp.checked_law (Comp.checked_law (contSeqC_law lvHeader_law nilC_law.weaken jvalueBC_law) _) _
theorem caseBC_law : caseBC.Law UbErr :=
  Comp.checked_law (Comp.andThen_law (E1 := StdErr) (E2 := UbErr) listC_law (fun l => seqC_law lvalueBC_law _)) _

/-! ### resolved resonances, LRF = 7 -/

/-- section/2/151/RMatrixLimited/ParticlePairs/src/verifySize.hpp 1-29 (`NPL / 12. != NPP` is a comparison of doubles; as both are of type `int` it is
    true if and only if NPL and 12 * NPP differ) -/
def particlePairsOk (l : LIST) : Prop := 1 ≤ toInt32 l.npl ∧ 1 ≤ toInt32 l.l1 ∧ toInt32 l.npl = 12 * toInt32 l.l1

/-- section/2/151/RMatrixLimited/ResonanceChannels/src/verifySize.hpp 1-29 -/
def channelsOk (l : LIST) : Prop := 1 ≤ toInt32 l.npl ∧ 1 ≤ toInt32 l.n2 ∧ toInt32 l.npl = 6 * toInt32 l.n2

/-- section/2/151/RMatrixLimited/ResonanceParameters/src/verifySize.hpp 1-21 -/
def rmlParametersOk (l : LIST) : Prop := 1 ≤ toInt32 l.npl ∧ Int.tmod (toInt32 l.npl) 6 = 0

instance : DecidablePred particlePairsOk := fun l => by unfold particlePairsOk; exact inferInstance
instance : DecidablePred channelsOk := fun l => by unfold channelsOk; exact inferInstance
instance : DecidablePred rmlParametersOk := fun l => by unfold rmlParametersOk; exact inferInstance

/-- section/2/151/RMatrixLimited/ParticlePairs/src/ctor.hpp 5-8, 67-75 -/
def particlePairsC : Comp LIST := listC.checked particlePairsOk
/-- section/2/151/RMatrixLimited/ResonanceChannels/src/ctor.hpp 5-8, 98-106 -/
def channelsC : Comp LIST := listC.checked channelsOk
/-- section/2/151/RMatrixLimited/ResonanceParameters/src/ctor.hpp 5-8, 40-48 -/
def rmlParametersC : Comp LIST := listC.checked rmlParametersOk

/-- BackgroundRMatrix: section/2/151/RMatrixLimited/NoBackgroundRMatrix.hpp, TabulatedBackgroundRMatrix.hpp 13-14, SammyBackgroundRMatrix.hpp 13,
    FrohnerBackgroundRMatrix.hpp 13.  (The channel index is the position in the vector, see `backgroundsC`.) -/
inductive Background where
  | none
  | tabulated (re im : TAB1)
  | sammy (ed eu : Dbl) (r : List Dbl)
  | frohner (ed eu : Dbl) (r : List Dbl)

/-- `representation()`: NoBackgroundRMatrix.hpp 25, TabulatedBackgroundRMatrix.hpp 31, SammyBackgroundRMatrix.hpp 29, FrohnerBackgroundRMatrix.hpp 29 -/
def Background.lbk : Background → Int
  | .none => 0
  | .tabulated _ _ => 1
  | .sammy _ _ _ => 2
  | .frohner _ _ _ => 3

/-- What follows the CONT record: NoBackgroundRMatrix.hpp 34-51, TabulatedBackgroundRMatrix.hpp 127-146, SammyBackgroundRMatrix.hpp 73-93,
    FrohnerBackgroundRMatrix.hpp 63-83 (`NC()` is the constant 3 for the last two) -/
def backgroundP : Printer Background where
  print := fun b t => match b with
    | .none => []
    | .tabulated x y => x.print t ++ y.print t
    | .sammy ed eu r => LIST.print ⟨ed, eu, 0, 0, 0, r⟩ t
    | .frohner ed eu r => LIST.print ⟨ed, eu, 0, 0, 0, r⟩ t
  nc := fun b => match b with
    | .none => 0
    | .tabulated x y => x.nc + y.nc
    | .sammy _ _ _ => 2
    | .frohner _ _ _ => 2
  reals := fun b => match b with
    | .none => []
    | .tabulated x y => tab1C.reals x ++ tab1C.reals y
    | .sammy ed eu r => ed :: eu :: r
    | .frohner ed eu r => ed :: eu :: r

/-- TabulatedBackgroundRMatrix/src/verify.hpp 10-21: the same number of points and of interpolation regions (other differences are only reported) -/
def tabulatedOk (b : TAB1 × TAB1) : Prop := b.1.np = b.2.np ∧ b.1.base.nr = b.2.base.nr

instance : DecidablePred tabulatedOk := fun b => by unfold tabulatedOk; exact inferInstance

/-- SammyBackgroundRMatrix/src/extract.hpp 1-19 (5 values), FrohnerBackgroundRMatrix/src/extract.hpp 1-19 (3 values): L1, L2 and N2 of the LIST record
    are not kept -/
def valuesC (n : Nat) (mk : Dbl → Dbl → List Dbl → Background) : Comp Background where
  read := fun t => do
    let l ← readLIST t
    if l.npl ≠ n then Parser.fail .exc else pure (mk l.c1 l.c2 l.data)
  print := backgroundP.print
  nc := backgroundP.nc
  Valid := fun b => ∃ x y r, b = mk x y r ∧ r.length = n
  reals := backgroundP.reals

/-- The part of the constructors after the CONT record: TabulatedBackgroundRMatrix/src/ctor.hpp 6-14, 81-128, SammyBackgroundRMatrix/src/ctor.hpp 42-83,
    FrohnerBackgroundRMatrix/src/ctor.hpp 39-80, NoBackgroundRMatrix/src/ctor.hpp 21-49 -/
def backgroundBodyC (lbk : Int) : Comp Background :=
  if lbk = 0 then nilC.via backgroundP (fun _ => .none)
  else if lbk = 1 then ((tab1C.andThen (fun _ => tab1C)).checked tabulatedOk).via backgroundP (fun x => .tabulated x.1 x.2)
  else if lbk = 2 then valuesC 5 .sammy
  else if lbk = 3 then valuesC 3 .frohner
  else backgroundP.none

theorem valuesC_law {n : Nat} {mk : Dbl → Dbl → List Dbl → Background} (h0 : n < 2147483648)
    (h1 : ∀ x y r t, backgroundP.print (mk x y r) t = LIST.print ⟨x, y, 0, 0, 0, r⟩ t)
    (h2 : ∀ x y r, r.length = n → backgroundP.nc (mk x y r) = LIST.nc ⟨x, y, 0, 0, 0, r⟩)
    (h3 : ∀ x y r, backgroundP.reals (mk x y r) = x :: y :: r) : (valuesC n mk).Law where
  round := by
    rintro b t ⟨x, y, r, rfl, hn⟩ hr ht
    have hr : Reps (backgroundP.reals (mk x y r)) := hr
    rw [h3] at hr
    have hf : LIST.Fits ⟨x, y, 0, 0, 0, r⟩ := ⟨fits0, fits0, by show fits 11 (r.length : Int); rw [hn]; exact fits_nat (by omega), fits0⟩
    refine Rd.cast (Rd.bindPure (listC_law.rd (a := ⟨x, y, 0, 0, 0, r⟩) hf hr ht) ?_) (h1 x y r t) (h2 x y r hn)
    rw [if_neg]
    simp [LIST.npl, hn]
  canon := by
    rintro b t ⟨x, y, r, rfl, hn⟩ ht
    have hf : LIST.Fits ⟨x, y, 0, 0, 0, r⟩ := ⟨fits0, fits0, by show fits 11 (r.length : Int); rw [hn]; exact fits_nat (by omega), fits0⟩
    exact CanonicalText.cast (listC_law.canon (a := ⟨x, y, 0, 0, 0, r⟩) hf ht) (h1 x y r t) (h2 x y r hn)
  reads := fun t => RvK.toReads (RvK.bind (listC_law.reads t) fun l hl => RvK.ite (fun _ => RvK.fail rfl) fun hn => by
    have hn : l.data.length = n := by
      simp only [LIST.npl, ne_eq, Decidable.not_not] at hn; omega
    refine RvK.pure ⟨_, _, _, rfl, hn⟩ ?_
    simp only [listC, valuesC]
    rw [h2 _ _ _ hn]; simp [LIST.nc, LIST.npl])

theorem backgroundBodyC_law (lbk : Int) : (backgroundBodyC lbk).Law := by
  refine Comp.ite_law (Comp.via_law nilC_law (fun _ _ => rfl) (fun _ => rfl) (fun _ => rfl)) (Comp.ite_law ?_ (Comp.ite_law ?_ (Comp.ite_law ?_ (Printer.none_law _))))
  · exact Comp.via_law (E1 := StdErr) (Comp.checked_law (Comp.andThen_law tab1C_law (fun _ => tab1C_law)) _) (fun _ _ => rfl) (fun _ => rfl) (fun _ => rfl)
  · exact valuesC_law (by decide) (fun _ _ _ _ => rfl) (fun _ _ r h => by simp [backgroundP, LIST.nc, LIST.npl, h]) (fun _ _ _ => rfl)
  · exact valuesC_law (by decide) (fun _ _ _ _ => rfl) (fun _ _ r h => by simp [backgroundP, LIST.nc, LIST.npl, h]) (fun _ _ _ => rfl)

theorem backgroundBodyC_valid {lbk : Int} {b : Background} (h : (backgroundBodyC lbk).Valid b) : lbk = b.lbk := by
  unfold backgroundBodyC at h
  split at h
  · obtain ⟨a, rfl, _⟩ := h; assumption
  split at h
  · obtain ⟨a, rfl, _⟩ := h; assumption
  split at h
  · obtain ⟨x, y, r, rfl, _⟩ := h; assumption
  split at h
  · obtain ⟨x, y, r, rfl, _⟩ := h; assumption
  · exact h.elim

theorem backgroundBodyC_print (l : Int) : (backgroundBodyC l).print = backgroundP.print ∧ (backgroundBodyC l).nc = backgroundP.nc ∧
    (backgroundBodyC l).reals = backgroundP.reals := by
  unfold backgroundBodyC
  split
  · exact ⟨rfl, rfl, rfl⟩
  split
  · exact ⟨rfl, rfl, rfl⟩
  split
  · exact ⟨rfl, rfl, rfl⟩
  split <;> exact ⟨rfl, rfl, rfl⟩

theorem lbk_fits (b : Background) : fits 11 b.lbk ∧ toInt32 b.lbk = b.lbk := by
  cases b <;> refine ⟨?_, by simp [Background.lbk, toInt32]⟩
  · show fits 11 0; decide
  · show fits 11 1; decide
  · show fits 11 2; decide
  · show fits 11 3; decide

/-- One turn of the loop of section/2/151/RMatrixLimited/BackgroundChannels/src/readBackgroundMatrices.hpp 19-70: the channel index and the background
    R-matrix.  (The code reads the CONT record from a copy of the iterator to find out the type, and the constructor of the type reads it again.) -/
def backgroundC (nch : Int) : Comp (Int × Background) where
  read := fun t => do
    let c ← readCont t
    if toInt32 c.l1 ≤ 0 ∨ nch < toInt32 c.l1 then Parser.fail .exc
    else do
      let b ← (backgroundBodyC (toInt32 c.l2)).read t
      pure (toInt32 c.l1, b)
  print := fun b t => printCont ⟨Disco.zero, Disco.zero, b.1, b.2.lbk, 0, 0⟩ t ++ backgroundP.print b.2 t
  nc := fun b => 1 + backgroundP.nc b.2
  Valid := fun b => 1 ≤ b.1 ∧ b.1 ≤ nch ∧ IsInt32 b.1 ∧ (backgroundBodyC b.2.lbk).Valid b.2
  reals := fun b => Disco.zero :: Disco.zero :: backgroundP.reals b.2

theorem backgroundC_law (nch : Int) : (backgroundC nch).Law where
  round := by
    rintro ⟨i, b⟩ t ⟨v1, v2, v3, v4⟩ hr ht
    have hr : Reps ([Disco.zero, Disco.zero] ++ backgroundP.reals b) := hr
    rw [reps_append] at hr
    simp only at v1 v2 v3 v4
    refine Rd.bind (contC_law.rd (a := ⟨Disco.zero, Disco.zero, i, b.lbk, 0, 0⟩) ⟨fits_of_int32 v3, (lbk_fits b).1, fits0, fits0⟩ hr.1 ht) ?_
    simp only [toInt32_of v3, (lbk_fits b).2]
    refine Rd.ite_neg (by omega) (Rd.bindPure (Rd.cast ((backgroundBodyC_law b.lbk).rd v4 (by rw [(backgroundBodyC_print _).2.2]; exact hr.2) ht) ?_ ?_) rfl)
    · rw [(backgroundBodyC_print _).1]
    · rw [(backgroundBodyC_print _).2.1]
  canon := fun {b t} hv ht => (contC_law.canon (a := ⟨Disco.zero, Disco.zero, b.1, b.2.lbk, 0, 0⟩) ⟨fits_of_int32 hv.2.2.1, (lbk_fits b.2).1, fits0, fits0⟩ ht).append
    (by have := (backgroundBodyC_law _).canon hv.2.2.2 ht; rw [(backgroundBodyC_print _).1, (backgroundBodyC_print _).2.1] at this; exact this)
  reads := fun t => RvK.toReads (RvK.bind (contC_law.reads t) fun c hc => RvK.ite (fun _ => RvK.fail rfl) fun hi =>
    RvK.bind ((backgroundBodyC_law _).reads t) fun b hb => RvK.pure
      ⟨by simp only; omega, by simp only; omega, isInt32_toInt32 _, by rw [← backgroundBodyC_valid hb]; exact hb⟩
      (by simp [contC, backgroundC, (backgroundBodyC_print _).2.1]))

/-- The background R-matrices that are present, with their channel indices, in the order of the channels, the first channel having index `i`. -/
def presentFrom : Nat → List (Option Background) → List (Int × Background)
  | _, [] => []
  | i, none :: bs => presentFrom (i + 1) bs
  | i, some b :: bs => ((i : Int), b) :: presentFrom (i + 1) bs

/-- The number of channels with a background R-matrix: section/2/151/RMatrixLimited/BackgroundChannels.hpp 51-58 -/
def countPresent (bs : List (Option Background)) : Nat := (bs.filter Option.isSome).length

/-- `background[ LCH - 1 ] = ...` for one after the other. -/
def placeAll (bs : List (Option Background)) (items : List (Int × Background)) : List (Option Background) :=
  items.foldl (fun acc x => acc.set (x.1 - 1).toNat (some x.2)) bs

/-- BackgroundChannels as part of a spin group: section/2/151/RMatrixLimited/BackgroundChannels.hpp 17, src/readBackgroundMatrices.hpp 1-72, print.hpp 11-23,
    NC.hpp 4-17; `kbk` is KBK of the resonance channels, compared with the number of background R-matrices in SpinGroup/src/verify.hpp 1-20.
    (The index stored in an element is its position plus one: src/makeBackgroundMatrices.hpp 1-31 and readBackgroundMatrices.hpp 36-61.) -/
def backgroundsC (nch kbk : Int) : Comp (List (Option Background)) where
  read := fun t =>
    if kbk < 0 ∨ nch < kbk then Parser.fail .exc
    else do
      let items ← (manyC (backgroundC nch) kbk).read t
      let bs := placeAll (List.replicate nch.toNat none) items
      if kbk ≠ asInt (countPresent bs) then Parser.fail .exc else pure bs
  print := fun bs t => (presentFrom 1 bs).flatMap (fun x => (backgroundC nch).print x t)
  nc := fun bs => ((presentFrom 1 bs).map (backgroundC nch).nc).sum
  Valid := fun bs => (bs.length : Int) = nch ∧ (bs.length : Int) < 2147483648 ∧ kbk = countPresent bs ∧ ∀ x ∈ presentFrom 1 bs, (backgroundC nch).Valid x
  reals := fun bs => (presentFrom 1 bs).flatMap (backgroundC nch).reals

theorem placeAll_length (items : List (Int × Background)) (bs : List (Option Background)) : (placeAll bs items).length = bs.length := by
  induction items generalizing bs with
  | nil => rfl
  | cons x xs ih => simp only [placeAll, List.foldl_cons] at ih ⊢; rw [ih]; simp

theorem placeAll_present (bs pre : List (Option Background)) :
    placeAll (pre ++ List.replicate bs.length none) (presentFrom (pre.length + 1) bs) = pre ++ bs := by
  induction bs generalizing pre with
  | nil => simp [presentFrom, placeAll]
  | cons b bs ih =>
    have := ih (pre ++ [b])
    cases b with
    | none =>
      simp only [presentFrom]
      simpa [List.replicate_succ] using this
    | some b =>
      simp only [presentFrom, placeAll, List.foldl_cons]
      have e : (((pre.length + 1 : Nat) : Int) - 1).toNat = pre.length := by omega
      rw [e, List.set_append_right _ _ (Nat.le_refl _)]
      simpa [List.replicate_succ, placeAll] using this

theorem presentFrom_length (i : Nat) (bs : List (Option Background)) : (presentFrom i bs).length = countPresent bs := by
  induction bs generalizing i with
  | nil => rfl
  | cons b bs ih => cases b <;> simp_all [presentFrom, countPresent]

theorem present_set_none (b : Background) (bs : List (Option Background)) (i k : Nat) (h : bs[i]? = some none) :
    (presentFrom k (bs.set i (some b))).Perm ((((k + i : Nat) : Int), b) :: presentFrom k bs) := by
  induction bs generalizing i k with
  | nil => simp at h
  | cons c cs ih =>
    cases i with
    | zero =>
      simp only [List.getElem?_cons_zero, Option.some.injEq] at h
      subst h
      simp [presentFrom]
    | succ i =>
      simp only [List.getElem?_cons_succ] at h
      have := ih i (k + 1) h
      have e : k + 1 + i = k + (i + 1) := by omega
      rw [e] at this
      cases c with
      | none => simpa [presentFrom] using this
      | some c =>
        simp only [List.set_cons_succ, presentFrom]
        exact (List.Perm.cons _ this).trans (List.Perm.swap _ _ _)

theorem count_set_some (b c : Background) (bs : List (Option Background)) (i : Nat) (h : bs[i]? = some (some c)) :
    countPresent (bs.set i (some b)) = countPresent bs := by
  induction bs generalizing i with
  | nil => simp at h
  | cons d ds ih =>
    cases i with
    | zero =>
      simp only [List.getElem?_cons_zero, Option.some.injEq] at h
      subst h
      simp [countPresent]
    | succ i =>
      simp only [List.getElem?_cons_succ] at h
      have := ih i h
      cases d <;> simp_all [countPresent]

/-- If as many channels have a background R-matrix as were read, none was overwritten. -/
theorem placeAll_perm (items : List (Int × Background)) (bs : List (Option Background))
    (hi : ∀ x ∈ items, 1 ≤ x.1 ∧ x.1 ≤ bs.length) :
    countPresent (placeAll bs items) ≤ countPresent bs + items.length ∧
    (countPresent (placeAll bs items) = countPresent bs + items.length → (presentFrom 1 (placeAll bs items)).Perm (items ++ presentFrom 1 bs)) := by
  induction items generalizing bs with
  | nil => simp [placeAll]
  | cons x xs ih =>
    obtain ⟨h1, h2⟩ := hi x (by simp)
    have hlt : (x.1 - 1).toNat < bs.length := by omega
    have ih' := ih (bs.set (x.1 - 1).toNat (some x.2)) (fun y hy => by simpa using hi y (by simp [hy]))
    have hp : placeAll bs (x :: xs) = placeAll (bs.set (x.1 - 1).toNat (some x.2)) xs := rfl
    rw [hp]
    cases hc : bs[(x.1 - 1).toNat]? with
    | none => simp at hc; omega
    | some c =>
      cases c with
      | none =>
        have hs := present_set_none x.2 bs (x.1 - 1).toNat 1 hc
        have e : (((1 + (x.1 - 1).toNat : Nat) : Int)) = x.1 := by omega
        rw [e] at hs
        have hl := hs.length_eq
        simp only [presentFrom_length, List.length_cons] at hl
        refine ⟨by have := ih'.1; simp only [List.length_cons]; omega, fun h => ?_⟩
        simp only [List.length_cons] at h
        refine (ih'.2 (by omega)).trans ?_
        refine (List.Perm.append_left xs hs).trans ?_
        exact List.perm_middle
      | some c =>
        have hs := count_set_some x.2 c bs _ hc
        refine ⟨by have := ih'.1; simp only [List.length_cons]; omega, fun h => ?_⟩
        have := ih'.1
        simp only [List.length_cons] at h
        omega

theorem countPresent_replicate (n : Nat) : countPresent (List.replicate n none) = 0 ∧ presentFrom 1 (List.replicate n none) = [] := by
  have h : ∀ k, presentFrom k (List.replicate n none) = [] := by
    induction n with
    | zero => intro k; rfl
    | succ n ih => intro k; simp only [List.replicate_succ, presentFrom]; exact ih _
  exact ⟨by rw [← presentFrom_length 1, h]; rfl, h 1⟩

theorem countPresent_le (bs : List (Option Background)) : countPresent bs ≤ bs.length := List.length_filter_le _ _

theorem backgroundsC_law (nch kbk : Int) (hn : nch < 2147483648) : (backgroundsC nch kbk).Law where
  round := by
    rintro bs t ⟨v1, v2, v3, v4⟩ hr ht
    have hle := countPresent_le bs
    refine Rd.ite_neg (by omega) (Rd.bindPure ((manyC_law (backgroundC_law nch) kbk).rd (a := presentFrom 1 bs) ⟨?_, v4⟩ hr ht) ?_)
    · rw [presentFrom_length, v3]; simp
    · have h := placeAll_present bs []
      have hz : nch.toNat = bs.length := by omega
      simp only [List.nil_append, List.length_nil, Nat.zero_add] at h
      rw [hz, h, if_neg]
      simp only [ne_eq, Decidable.not_not, asInt]
      rw [v3, toInt32_nat (by omega)]
  canon := fun hv ht => (backgroundC_law nch).flatMap hv.2.2.2 ht
  reads := fun t => RvK.toReads (RvK.ite (fun _ => RvK.fail rfl) fun hk => RvK.bind ((manyC_law (backgroundC_law nch) kbk).reads t) fun items hi =>
    RvK.ite (fun _ => RvK.fail rfl) fun hc => by
      have hnn : ((nch.toNat : Nat) : Int) = nch := by omega
      have hlen : (placeAll (List.replicate nch.toNat none) items).length = nch.toNat := by rw [placeAll_length]; simp
      have hle := countPresent_le (placeAll (List.replicate nch.toNat none) items)
      have hcount : (countPresent (placeAll (List.replicate nch.toNat none) items) : Int) = kbk := by
        simp only [ne_eq, Decidable.not_not, asInt] at hc
        rw [hc, toInt32_nat (by omega)]
      have hp := (placeAll_perm items (List.replicate nch.toNat none) (fun x hx => by
        have := hi.2 x hx
        simp only [List.length_replicate, hnn]
        exact ⟨this.1, this.2.1⟩)).2 (by have := hi.1; rw [(countPresent_replicate _).1]; omega)
      rw [(countPresent_replicate _).2, List.append_nil] at hp
      refine RvK.pure ⟨by rw [hlen]; exact hnn, by rw [hlen]; omega, hcount.symm, fun x hx => hi.2 x (hp.mem_iff.mp hx)⟩ ?_
      simp only [manyC, backgroundsC, Nat.zero_add]
      exact ((hp.map _).sum_nat).symm)

/-- section/2/151/RMatrixLimited/SpinGroup.hpp: resonance channels, resonance parameters, background channels -/
abbrev SpinGroup := (LIST × LIST) × List (Option Background)

/-- `channels.NCH()` passed as `int`: section/2/151/RMatrixLimited/ResonanceChannels.hpp 75 -/
def channelsNCH (l : LIST) : Int := toInt32 (l.npl / 6)

/-- section/2/151/RMatrixLimited/SpinGroup: src/ctor.hpp 8-16, 33-81, verify.hpp 1-20 (the second comparison is always true after reading), print.hpp 11-17 -/
def spinGroupC : Comp SpinGroup :=
  (channelsC.andThen (fun _ => rmlParametersC)).andThen (fun x => backgroundsC (channelsNCH x.1) (toInt32 x.1.l1))

theorem spinGroupC_law : spinGroupC.Law := Comp.andThen_law (E1 := StdErr) (E2 := StdErr)
  (Comp.andThen_law (E1 := StdErr) (E2 := StdErr) (Comp.checked_law listC_law _) (fun _ => Comp.checked_law listC_law _))
  (fun x => backgroundsC_law _ _ (toInt32_range _).2)

/-- section/2/151/RMatrixLimited.hpp: the members apart from the particle pairs and the spin groups -/
structure RmlHeader where
  ifg : Bool
  krl : Bool
  krm : Int

/-- section/2/151/RMatrixLimited/src/ctor.hpp 58-63, print.hpp 14-16 -/
def rmlHeader : Header RmlHeader where
  of := fun c => ⟨toBool c.l1, toBool c.n2, toInt32 c.l2⟩
  count := fun c => c.n1
  cont := fun h n => ⟨Disco.zero, Disco.zero, ofBool h.ifg, h.krm, asInt n, ofBool h.krl⟩
  ok := fun h => IsInt32 h.krm

theorem rmlHeader_law : rmlHeader.Law where
  ok_of := fun _ => isInt32_toInt32 _
  of_cont := fun {h n} hv => by simp only [rmlHeader, toBool_ofBool, toInt32_of hv]
  count_cont := fun h => by simp only [rmlHeader, asInt, toInt32_toInt32, toInt32_nat h]
  fits := fun hv _ => ⟨fits_ofBool _, fits_of_int32 hv, fits_asInt _, fits_ofBool _⟩

/-- section/2/151/RMatrixLimited: src/ctor.hpp 18-88, verifySize.hpp 1-11, print.hpp 11-22, NC.hpp 4-9 -/
def rmlC : Comp (RmlHeader × LIST × List SpinGroup) := (contSeqC rmlHeader particlePairsC spinGroupC).checked atLeastOne

theorem rmlC_law : rmlC.Law := Comp.checked_law (contSeqC_law rmlHeader_law (Comp.checked_law listC_law _) spinGroupC_law) _

/-! ### the alternatives -/

/-- ResonanceRange::ResonanceParameters: section/2/151/ResonanceRange.hpp -/
inductive ResParams where
  | special (spi ap : Dbl)
  | slbw (b : BwHeader × Unit × List LIST)
  | mlbw (b : BwHeader × Unit × List LIST)
  | reichMoore (b : BwHeader × Unit × List LIST)
  | rml (b : RmlHeader × LIST × List SpinGroup)
  | caseA (b : UrHeader × Unit × List LIST)
  | caseB (b : LIST × List LValueC)
  | caseC (b : UrHeader × Unit × List LValueC)

namespace ResParams

/-- `LRU()`: SpecialCase.hpp 26, BreitWignerReichMooreBase.hpp 36, RMatrixLimited.hpp 54, UnresolvedEnergyIndependent.hpp 39,
    UnresolvedEnergyDependentFissionWidths.hpp 49, UnresolvedEnergyDependent.hpp 39 -/
def lru : ResParams → Int
  | special _ _ => 0
  | slbw _ | mlbw _ | reichMoore _ | rml _ => 1
  | caseA _ | caseB _ | caseC _ => 2

/-- `LRF()`: SpecialCase.hpp 36, SingleLevelBreitWigner.hpp 34, MultiLevelBreitWigner.hpp 34, ReichMoore.hpp 36, RMatrixLimited.hpp 64,
    UnresolvedEnergyIndependent.hpp 44, UnresolvedEnergyDependentFissionWidths.hpp 54, UnresolvedEnergyDependent.hpp 44 -/
def lrf : ResParams → Int
  | special _ _ => 0
  | slbw _ => 1
  | mlbw _ => 2
  | reichMoore _ => 3
  | rml _ => 7
  | caseA _ => 1
  | caseB _ => 1
  | caseC _ => 2

/-- What LFW has to be for the parameters to be read back: section/2/151/Isotope/src/readParameters.hpp 43-60 -/
def lfwOk (lfw : Int) : ResParams → Prop
  | caseA _ => lfw = 0
  | caseB _ => lfw = 1
  | _ => True

/-- The `print` and `NC` of the alternatives. -/
def printer : Printer ResParams where
  print := fun b t => match b with
    | special spi ap => printCont ⟨spi, ap, 0, 0, 0, 0⟩ t
    | slbw b => breitWignerC.print b t
    | mlbw b => breitWignerC.print b t
    | reichMoore b => reichMooreC.print b t
    | rml b => rmlC.print b t
    | caseA b => caseAC.print b t
    | caseB b => caseBC.print b t
    | caseC b => caseCC.print b t
  nc := fun b => match b with
    | special _ _ => 1
    | slbw b => breitWignerC.nc b
    | mlbw b => breitWignerC.nc b
    | reichMoore b => reichMooreC.nc b
    | rml b => rmlC.nc b
    | caseA b => caseAC.nc b
    | caseB b => caseBC.nc b
    | caseC b => caseCC.nc b
  reals := fun b => match b with
    | special spi ap => [spi, ap]
    | slbw b => breitWignerC.reals b
    | mlbw b => breitWignerC.reals b
    | reichMoore b => reichMooreC.reals b
    | rml b => rmlC.reals b
    | caseA b => caseAC.reals b
    | caseB b => caseBC.reals b
    | caseC b => caseCC.reals b

end ResParams

/-- section/2/151/SpecialCase: src/ctor.hpp 15-48, print.hpp 11-15 -/
def specialC : Comp ResParams where
  read := fun t => do
    let c ← readCont t
    pure (.special c.c1 c.c2)
  print := ResParams.printer.print
  nc := ResParams.printer.nc
  Valid := fun b => ∃ x y, b = .special x y
  reals := ResParams.printer.reals

theorem specialC_law : specialC.Law where
  round := by
    rintro b t ⟨x, y, rfl⟩ hr ht
    exact Rd.bindPure (contC_law.rd (a := ⟨x, y, 0, 0, 0, 0⟩) ⟨fits0, fits0, fits0, fits0⟩ hr ht) rfl
  canon := by
    rintro b t ⟨x, y, rfl⟩ ht
    exact contC_law.canon (a := ⟨x, y, 0, 0, 0, 0⟩) ⟨fits0, fits0, fits0, fits0⟩ ht
  reads := fun t => RvK.toReads (RvK.bind (contC_law.reads t) fun c hc => RvK.pure ⟨_, _, rfl⟩ rfl)

/-- section/2/151/Isotope/src/readParameters.hpp 1-83 -/
def resParamsC (lru lrf lfw : Int) : Comp ResParams :=
  if lru = 0 then specialC
  else if lru = 1 then
    if lrf = 1 then breitWignerC.via ResParams.printer .slbw
    else if lrf = 2 then breitWignerC.via ResParams.printer .mlbw
    else if lrf = 3 then reichMooreC.via ResParams.printer .reichMoore
    else if lrf = 7 then rmlC.via ResParams.printer .rml
    else ResParams.printer.none
  else if lru = 2 then
    if lrf = 1 then
      if lfw = 0 then caseAC.via ResParams.printer .caseA
      else if lfw = 1 then caseBC.via ResParams.printer .caseB
      else ResParams.printer.none
    else if lrf = 2 then caseCC.via ResParams.printer .caseC
    else ResParams.printer.none
  else ResParams.printer.none

theorem resParamsC_law (a b c : Int) : (resParamsC a b c).Law UbErr := by
  have r1 : ∀ (x : _) (t : Nums), ResParams.printer.print (.slbw x) t = breitWignerC.print x t := fun _ _ => rfl
  refine Comp.ite_law specialC_law.weaken (Comp.ite_law ?_ (Comp.ite_law ?_ (Printer.none_law _)))
  · refine Comp.ite_law (Comp.via_law breitWignerC_law ?_ ?_ ?_) (Comp.ite_law (Comp.via_law breitWignerC_law ?_ ?_ ?_)
      (Comp.ite_law (Comp.via_law reichMooreC_law ?_ ?_ ?_) (Comp.ite_law (Comp.via_law rmlC_law ?_ ?_ ?_) (Printer.none_law _)))) <;> intros <;> rfl
  · refine Comp.ite_law (Comp.ite_law (Comp.via_law caseAC_law ?_ ?_ ?_) (Comp.ite_law (Comp.via_law caseBC_law ?_ ?_ ?_) (Printer.none_law _)))
      (Comp.ite_law (Comp.via_law caseCC_law ?_ ?_ ?_) (Printer.none_law _)) <;> intros <;> rfl

theorem resParamsC_print (a b c : Int) : (resParamsC a b c).print = ResParams.printer.print ∧ (resParamsC a b c).nc = ResParams.printer.nc ∧
    (resParamsC a b c).reals = ResParams.printer.reals := by
  unfold resParamsC
  repeat' split
  all_goals exact ⟨rfl, rfl, rfl⟩

/-- The class invariants of the parameters. -/
def ResParams.Valid : ResParams → Prop
  | special _ _ => True
  | slbw b | mlbw b => breitWignerC.Valid b
  | reichMoore b => reichMooreC.Valid b
  | rml b => rmlC.Valid b
  | caseA b => caseAC.Valid b
  | caseB b => caseBC.Valid b
  | caseC b => caseCC.Valid b

theorem resParamsC_valid {a b c : Int} {x : ResParams} (h : (resParamsC a b c).Valid x) : a = x.lru ∧ (x.lru ≠ 0 → b = x.lrf) ∧ x.lfwOk c ∧ x.Valid := by
  unfold resParamsC at h
  split at h
  · obtain ⟨x, y, rfl⟩ := h
    rename_i ha
    exact ⟨ha, fun h => (h rfl).elim, trivial, trivial⟩
  · split at h
    · rename_i ha
      repeat' split at h
      all_goals first
        | exact h.elim
        | (obtain ⟨y, rfl, hy⟩ := h
           rename_i hb
           exact ⟨ha, fun _ => hb, trivial, hy⟩)
    · split at h
      · rename_i ha
        split at h
        · rename_i hb
          split at h
          · obtain ⟨y, rfl, hy⟩ := h
            rename_i hc
            exact ⟨ha, fun _ => hb, hc, hy⟩
          split at h
          · obtain ⟨y, rfl, hy⟩ := h
            rename_i hc
            exact ⟨ha, fun _ => hb, hc, hy⟩
          · exact h.elim
        · split at h
          · obtain ⟨y, rfl, hy⟩ := h
            rename_i hb
            exact ⟨ha, fun _ => hb, trivial, hy⟩
          · exact h.elim
      · exact h.elim

theorem resParamsC_of_valid {c : Int} {x : ResParams} (h1 : x.lfwOk c) (h2 : x.Valid) : (resParamsC x.lru x.lrf c).Valid x := by
  cases x with
  | special x y => exact ⟨x, y, rfl⟩
  | slbw b => exact ⟨b, rfl, h2⟩
  | mlbw b => exact ⟨b, rfl, h2⟩
  | reichMoore b => exact ⟨b, rfl, h2⟩
  | rml b => exact ⟨b, rfl, h2⟩
  | caseA b =>
    have h1 : c = 0 := h1
    subst h1; exact ⟨b, rfl, h2⟩
  | caseB b =>
    have h1 : c = 1 := h1
    subst h1; exact ⟨b, rfl, h2⟩
  | caseC b => exact ⟨b, rfl, h2⟩

/-! ### resonance ranges and isotopes -/

/-- section/2/151/ResonanceRange.hpp -/
structure ResRange where
  el : Dbl
  eh : Dbl
  naps : Int
  parameters : ResParams
  radius : Option TAB1

/-- section/2/151/ResonanceRange/src/verifyOptions.hpp 1-39 -/
def optionsOk (r : ResRange) : Prop :=
  (r.radius = none → 0 ≤ r.naps ∧ r.naps ≤ 1) ∧
  (r.radius ≠ none → 0 ≤ r.naps ∧ r.naps ≤ 2 ∧ r.parameters.lru ≠ 0 ∧ ¬(r.parameters.lru = 1 ∧ r.parameters.lrf = 7))

instance : DecidablePred optionsOk := fun r => by unfold optionsOk; exact inferInstance

/-- NRO: section/2/151/ResonanceRange.hpp, `bool( scattering_radius_ )` -/
def ResRange.nro (r : ResRange) : Int := ofBool r.radius.isSome

/-- section/2/151/Isotope/src/readScatteringRadius.hpp 1-28; ScatteringRadius is a TAB1 record -/
def radiusC (nro : Int) : Comp (Option TAB1) := (optC (nro = 1) tab1C).checked (fun _ => nro = 0 ∨ nro = 1)

/-- One turn of the loop of section/2/151/Isotope/src/readRanges.hpp 19-37, section/2/151/ResonanceRange/src/ctor.hpp 14-27, print.hpp 11-21, NC.hpp 4-11.
    (For an unknown NRO the code throws before reading on.) -/
def resRangeC (lfw : Int) : Comp ResRange where
  read := fun t => do
    let c ← readCont t
    let radius ← (radiusC (toInt32 c.n1)).read t
    let parameters ← (resParamsC (toInt32 c.l1) (toInt32 c.l2) lfw).read t
    if optionsOk ⟨c.c1, c.c2, toInt32 c.n2, parameters, radius⟩ then pure ⟨c.c1, c.c2, toInt32 c.n2, parameters, radius⟩ else Parser.fail .exc
  print := fun r t => printCont ⟨r.el, r.eh, r.parameters.lru, r.parameters.lrf, r.nro, r.naps⟩ t ++
    ((radiusC r.nro).print r.radius t ++ ResParams.printer.print r.parameters t)
  nc := fun r => 1 + ((radiusC r.nro).nc r.radius + ResParams.printer.nc r.parameters)
  Valid := fun r => IsInt32 r.naps ∧ (radiusC r.nro).Valid r.radius ∧ r.parameters.lfwOk lfw ∧ r.parameters.Valid ∧ optionsOk r
  reals := fun r => [r.el, r.eh] ++ ((radiusC r.nro).reals r.radius ++ ResParams.printer.reals r.parameters)

theorem radiusC_law (n : Int) : (radiusC n).Law := Comp.checked_law (optC_law tab1C_law) _

theorem radiusC_valid {n : Int} {r : Option TAB1} (h : (radiusC n).Valid r) : n = ofBool r.isSome := by
  obtain ⟨h1, h2⟩ := h
  cases r with
  | none => have h1 : ¬ n = 1 := h1; rcases h2 with h2 | h2 <;> simp_all [ofBool]
  | some r => exact h1.1

theorem small_fits (n : Int) (h : 0 ≤ n ∧ n ≤ 7) : IsInt32 n := ⟨by omega, by omega⟩
theorem lru_range (x : ResParams) : 0 ≤ x.lru ∧ x.lru ≤ 7 := by cases x <;> simp [ResParams.lru]
theorem lrf_range (x : ResParams) : 0 ≤ x.lrf ∧ x.lrf ≤ 7 := by cases x <;> simp [ResParams.lrf]
theorem ofBool_range (b : Bool) : 0 ≤ ofBool b ∧ ofBool b ≤ 7 := by cases b <;> simp [ofBool]

theorem resRange_fits (r : ResRange) (h : IsInt32 r.naps) : Cont.Fits ⟨r.el, r.eh, r.parameters.lru, r.parameters.lrf, r.nro, r.naps⟩ :=
  ⟨fits_of_int32 (small_fits _ (lru_range _)), fits_of_int32 (small_fits _ (lrf_range _)), fits_of_int32 (small_fits _ (ofBool_range _)), fits_of_int32 h⟩

theorem special_of_lru {x : ResParams} (h : x.lru = 0) : ∃ a b, x = .special a b := by cases x <;> simp_all [ResParams.lru]

theorem resRangeC_law (lfw : Int) : (resRangeC lfw).Law UbErr where
  round := by
    rintro r t ⟨v1, v2, v3, v4, v5⟩ hr ht
    have hr : Reps ([r.el, r.eh] ++ ((radiusC r.nro).reals r.radius ++ ResParams.printer.reals r.parameters)) := hr
    rw [reps_append, reps_append] at hr
    refine Rd.bind (contC_law.rd (a := ⟨r.el, r.eh, r.parameters.lru, r.parameters.lrf, r.nro, r.naps⟩) (resRange_fits r v1) hr.1 ht) ?_
    simp only [toInt32_of (small_fits _ (lru_range r.parameters)), toInt32_of (small_fits _ (lrf_range r.parameters)), ResRange.nro,
      toInt32_of (small_fits _ (ofBool_range r.radius.isSome)), toInt32_of v1]
    refine Rd.bind ((radiusC_law _).rd v2 hr.2.1 ht) (Rd.bindPure (Rd.cast ((resParamsC_law _ _ _).rd (resParamsC_of_valid v3 v4)
      (by rw [(resParamsC_print _ _ _).2.2]; exact hr.2.2) ht) ?_ ?_) ?_)
    · rw [(resParamsC_print _ _ _).1]
    · rw [(resParamsC_print _ _ _).2.1]
    · rw [if_pos v5]
  canon := fun {r t} hv ht => (contC_law.canon (resRange_fits r hv.1) ht).append (((radiusC_law _).canon hv.2.1 ht).append (by
    have := (resParamsC_law _ _ _).canon (resParamsC_of_valid hv.2.2.1 hv.2.2.2.1) ht
    rw [(resParamsC_print _ _ _).1, (resParamsC_print _ _ _).2.1] at this; exact this))
  reads := fun t => RvK.toReads (RvK.bind (contC_law.reads t) fun c hc => RvK.bind ((radiusC_law _).reads t) fun radius hra =>
    RvK.bind ((resParamsC_law _ _ _).reads t) fun p hp => RvK.ite (fun ho => by
      have h1 := radiusC_valid hra
      obtain ⟨g1, g2, g3, g4⟩ := resParamsC_valid hp
      refine RvK.pure ⟨isInt32_toInt32 _, ?_, g3, g4, ho⟩ ?_
      · show (radiusC (ofBool radius.isSome)).Valid radius
        rw [← h1]; exact hra
      · simp only [resRangeC, ResRange.nro, ← h1, (resParamsC_print _ _ _).2.1, contC]
        omega) (fun _ => RvK.fail (.inl rfl)))

/-- section/2/151/Isotope.hpp 13-16 -/
structure Isotope where
  zai : Int
  abn : Dbl
  lfw : Bool
  ranges : List ResRange

namespace Isotope

/-- section/2/151/Isotope/src/ctor.hpp 17-55, readRanges.hpp 1-39: LFW is stored as a `bool`, while the ranges are read with LFW as an `int` -/
def read (t : Nums) : Parser Isotope := Parser.mapErr catchStd do
  let c ← readCont t
  let ranges ← (seqC (resRangeC (toInt32 c.l2)) c.n1).read t
  pure ⟨toInt32 (Disco.round c.c1), c.c2, toBool c.l2, ranges⟩

/-- section/2/151/Isotope/src/print.hpp 1-8 -/
def print (b : Isotope) (t : Nums) : Text :=
  printCont ⟨Disco.ofInt b.zai, b.abn, 0, ofBool b.lfw, asInt b.ranges.length, 0⟩ t ++ b.ranges.flatMap (fun x => (resRangeC 0).print x t)

/-- section/2/151/Isotope/src/NC.hpp 1-6 -/
def nc (b : Isotope) : Nat := 1 + (b.ranges.map (resRangeC 0).nc).sum

def Valid (b : Isotope) : Prop := IsInt32 b.zai ∧ (b.ranges.length : Int) < 2147483648 ∧ ∀ x ∈ b.ranges, ∃ lfw, (resRangeC lfw).Valid x

def reals (b : Isotope) : List Dbl := [Disco.ofInt b.zai, b.abn] ++ b.ranges.flatMap (resRangeC 0).reals

/-- The LFW flag is the one with which the ranges can be read. -/
def lfwOk (b : Isotope) : Prop := ∀ x ∈ b.ranges, x.parameters.lfwOk (ofBool b.lfw)

theorem fits (b : Isotope) : Cont.Fits ⟨Disco.ofInt b.zai, b.abn, 0, ofBool b.lfw, asInt b.ranges.length, 0⟩ :=
  ⟨fits0, fits_ofBool _, fits_asInt _, fits0⟩

theorem rd {b : Isotope} {t : Nums} (hv : b.Valid) (hr : Reps b.reals) (ht : t.Fit) (hl : b.lfwOk) : Rd (read t) (b.print t) b b.nc := by
  obtain ⟨v1, v2, v3⟩ := hv
  have hr : Reps ([Disco.ofInt b.zai, b.abn] ++ b.ranges.flatMap (resRangeC 0).reals) := hr
  rw [reps_append] at hr
  refine Rd.mapErr (Rd.bind (contC_law.rd (a := ⟨Disco.ofInt b.zai, b.abn, 0, ofBool b.lfw, asInt b.ranges.length, 0⟩) b.fits hr.1 ht) ?_)
  have hb : toInt32 (ofBool b.lfw) = ofBool b.lfw := toInt32_of (small_fits _ (ofBool_range _))
  refine Rd.bindPure ((seqC_law (resRangeC_law _) _).rd (a := b.ranges) ⟨?_, ?_⟩ hr.2 ht) ?_
  · simp only [asInt, toInt32_toInt32, toInt32_nat v2]
  · intro x hx
    obtain ⟨f, g1, g2, g3, g4, g5⟩ := v3 x hx
    exact ⟨g1, g2, by rw [hb]; exact hl x hx, g4, g5⟩
  · simp only [toBool_ofBool]
    rw [Disco.round_ofInt _ v1.1 v1.2, toInt32_of v1]

theorem canon {b : Isotope} {t : Nums} (hv : b.Valid) (ht : t.Fit) : CanonicalText t b.nc (b.print t) := by
  refine (contC_law.canon b.fits ht).append (CanonicalText.flatMap (nc := (resRangeC 0).nc) fun x hx => ?_)
  obtain ⟨f, hf⟩ := hv.2.2 x hx
  exact (resRangeC_law f).canon hf ht

theorem reads (t : Nums) : Reads UbErr (fun b ls => Isotope.Valid b ∧ AllTail t ls ∧ ls.length = b.nc) (read t) :=
  RvK.toReads (RvK.mapErr (fun e => ErrOk.again e) (RvK.bind (contC_law.reads t) fun c hc =>
    RvK.bind ((seqC_law (resRangeC_law _) _).reads t) fun xs hx => RvK.pure
      ⟨isInt32_toInt32 _, lt_of_count hx.1.symm, fun x h => ⟨_, hx.2 x h⟩⟩ (by simp only [nc, contC, seqC]; simp [resRangeC])))

end Isotope

/-- section::Type< 2, 151 >: section/2/151/src/ctor.hpp 16-20, 62-78, verifyNIS.hpp 1-10, print.hpp 10-21, NC.hpp 4-9 -/
def mf2mt151 : SecDef (List Isotope) where
  mf := 2
  fixedMT := some 151
  checksHead := false
  head := fun b => (0, 0, asInt b.length, 0)
  read := fun head t => do
    let b ← readSequence (Isotope.read t) head.base.n1
    if asInt b.length < 1 then Parser.fail .exc else pure b
  body := fun _ b t => b.flatMap (fun x => x.print t)
  nc := fun b => (b.map Isotope.nc).sum
  Valid := fun b => (b.length : Int) < 2147483648 ∧ 1 ≤ b.length ∧ ∀ x ∈ b, x.Valid
  reals := fun b => b.flatMap Isotope.reals
  mtOk := fun _ b => ∀ x ∈ b, x.lfwOk
  strict := false

theorem mf2mt151_law : mf2mt151.Law UbErr where
  mf_pos := by simp [mf2mt151]
  mt_fits := by intro mt h; cases h; exact ⟨by decide, by show fits 3 151; decide⟩
  head_fits := fun hv => ⟨fits0, fits0, fits_asInt _, fits0⟩
  round := by
    rintro b t awr head ⟨v1, v2, v3⟩ ha hr ht hh hm
    simp only [mf2mt151, Prod.mk.injEq] at hh
    have hr : ∀ x ∈ b, Reps x.reals := reps_flatMap.mp hr
    refine Rd.bindPure (Rd.seq (nc := Isotope.nc) ?_ fun x hx => Isotope.rd (v3 x hx) (hr x hx) ht (hm x hx)) ?_
    · rw [hh.2.2.1, asInt, toInt32_toInt32, toInt32_nat v1]
    · rw [if_neg]
      simp only [asInt, toInt32_nat v1]; omega
  canon := fun _ hv ht => CanonicalText.flatMap (nc := Isotope.nc) fun x hx => Isotope.canon (hv.2.2 x hx) ht
  reads := fun head t _ => RvK.toReads (RvK.seqR (Isotope.reads t) fun b hb hv => RvK.ite (fun _ => RvK.fail (.inl rfl)) fun h1 =>
    RvK.pure ⟨lt_of_count hb, by simp only [asInt, toInt32_nat (lt_of_count hb)] at h1; omega, hv⟩ (by simp [mf2mt151]))
  mt_reads := by intro h; simp [mf2mt151] at h
  mt_any := by intro h; simp [mf2mt151] at h

end ENDFtk

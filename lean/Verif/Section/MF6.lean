import Verif.Section.MF5
/-
  The section type of file 6: section/6.
-/
set_option linter.unusedVariables false
set_option linter.unusedSectionVars false
set_option linter.unusedSimpArgs false
namespace ENDFtk
variable [Disco]

/-! ### LAW = 1 -/

/-- `ranges::views::stride( n )`: every `n`-th element. -/
def strideL {α : Type} (n : Nat) (l : List α) : List α := (List.range ((l.length + n - 1) / n)).filterMap (fun i => l[i * n]?)

/-- The constructors of the elements of section/6/ContinuumEnergyAngle (all of them are LIST records, the alternative of the variant is determined by
    LANG): Base/src/ctor.hpp 9-15, Base.hpp 63-66, verifySize.hpp 1-14, section/6/src/verifySorted.hpp 1-16, KalbachMann/src/ctor.hpp 11-15,
    verifyNA.hpp 1-11, LegendreCoefficients/src/ctor.hpp 43-52, TabulatedDistribution/src/ctor.hpp 13-17, checkLANG.hpp 1-12,
    ThermalScatteringData/src/ctor.hpp 14-15.
    `views::stride( n )` requires `n > 0` and `views::drop_exactly( n )` requires at least `n` elements and `n >= 0`: otherwise the behaviour is
    undefined.  NA + 2 and NEP * ( NA + 2 ) in verifySize.hpp 4 are operations on `int`s, which may overflow. -/
def continuumCheck (lang : Int) (l : LIST) : Except Err Unit :=
  if lang = 3 then .ok ()
  else if 2 + l.l2 ≤ 0 ∨ l.l1 < 0 ∨ ((strideL (2 + l.l2).toNat l.data).length : Int) < l.l1 then .error .ub
  else if !isSorted Disco.ltD ((strideL (2 + l.l2).toNat l.data).drop l.l1.toNat) then .error .exc
  else if Over (toInt32 l.l2 + 2) ∨ Over (toInt32 l.n2 * (toInt32 l.l2 + 2)) then .error .ub
  else if toInt32 l.npl ≠ toInt32 l.n2 * (toInt32 l.l2 + 2) then .error .exc
  else if lang = 2 ∧ toInt32 l.l2 ≠ 1 ∧ toInt32 l.l2 ≠ 2 then .error .exc
  else .ok ()

/-- The `switch` of section/6/ContinuumEnergyAngle/src/readSequence.hpp 15-42 -/
def continuumElemC (r : TAB2) : Comp LIST :=
  (if r.l1 = 1 ∨ r.l1 = 2 ∨ r.l1 = 3 ∨ r.l1 = 11 ∨ r.l1 = 12 ∨ r.l1 = 13 ∨ r.l1 = 14 ∨ r.l1 = 15 then listC
    else listC.checked (fun _ => False)).checkedE (continuumCheck r.l1)

/-- section/6/ContinuumEnergyAngle: ContinuumEnergyAngle/src/ctor.hpp 12-18, 53-93, verifyLANG.hpp 1-20 (all elements have the LANG of the TAB2
    record, because of the `switch`), print.hpp 11-15, section/6/ContinuumEnergyAngle.hpp 134.
    (For an unknown LANG the code throws before it reads the LIST record.) -/
def continuumC : Comp (ISeq LIST) := iseqD continuumElemC

/-! ### LAW = 2 -/

/-- section/6/DiscreteTwoBodyScattering/src/readSequence.hpp 14-35, LegendreCoefficients/src/ctor.hpp 12-17, verifyLANG.hpp, verifySize.hpp,
    TabulatedDistribution/src/ctor.hpp 12-17, verifyLANG.hpp, verifySize.hpp. -/
def twoBodyOk (l : LIST) : Prop :=
  (l.l1 = 0 ∧ toInt32 l.npl = toInt32 l.n2) ∨ ((l.l1 = 12 ∨ l.l1 = 14) ∧ toInt32 l.npl = 2 * toInt32 l.n2)

instance (l : LIST) : Decidable (twoBodyOk l) := by unfold twoBodyOk; exact inferInstance

/-- 2 * NL overflows: section/6/DiscreteTwoBodyScattering/TabulatedDistribution/src/verifySize.hpp 4 -/
def twoBodyOv (l : LIST) : Prop := (l.l1 = 12 ∨ l.l1 = 14) ∧ Over (2 * toInt32 l.n2)

instance : DecidablePred twoBodyOv := fun l => by unfold twoBodyOv; exact inferInstance

/-- section/6/DiscreteTwoBodyScattering: ctor.hpp 12-15, 44-85, print.hpp 11-15, section/6/DiscreteTwoBodyScattering.hpp 110 -/
def twoBodyC : Comp (ISeq LIST) := iseqD (fun _ => listC.checked twoBodyOk twoBodyOv)

/-! ### LAW = 5 -/

/-- section/6/ChargedParticleElasticScattering/src/readSequence.hpp 14-39, NuclearAmplitudeExpansion/src/ctor.hpp 12-17, verifySize.hpp 1-13,
    LegendreCoefficients/src/ctor.hpp 12-17, verifySize.hpp 1-12, NuclearPlusInterference/src/ctor.hpp 12-17, verifySize.hpp 1-12 -/
def chargedOk (l : LIST) : Prop :=
  (l.l1 = 1 ∧ (toInt32 l.npl = 3 * toInt32 l.n2 + 3 ∨ toInt32 l.npl = 4 * toInt32 l.n2 + 3)) ∨
  (l.l1 = 2 ∧ toInt32 l.npl = toInt32 l.n2 + 1) ∨
  ((l.l1 = 12 ∨ l.l1 = 14 ∨ l.l1 = 15) ∧ toInt32 l.npl = 2 * toInt32 l.n2)

instance (l : LIST) : Decidable (chargedOk l) := by unfold chargedOk; exact inferInstance

/-- An operation overflows: section/6/ChargedParticleElasticScattering/NuclearAmplitudeExpansion/src/verifySize.hpp 4 (the second comparison is made only
    if NW is not equal to the first number), LegendreCoefficients/src/verifySize.hpp 4, NuclearPlusInterference/src/verifySize.hpp 4 -/
def chargedOv (l : LIST) : Prop :=
  (l.l1 = 1 ∧ (Over (3 * toInt32 l.n2) ∨ Over (3 * toInt32 l.n2 + 3) ∨
    (toInt32 l.npl ≠ 3 * toInt32 l.n2 + 3 ∧ (Over (4 * toInt32 l.n2) ∨ Over (4 * toInt32 l.n2 + 3))))) ∨
  (l.l1 = 2 ∧ Over (toInt32 l.n2 + 1)) ∨
  ((l.l1 = 12 ∨ l.l1 = 14 ∨ l.l1 = 15) ∧ Over (2 * toInt32 l.n2))

instance : DecidablePred chargedOv := fun l => by unfold chargedOv; exact inferInstance

/-- section/6/ChargedParticleElasticScattering: ctor.hpp 12-15, 47-88, print.hpp 11-15, section/6/ChargedParticleElasticScattering.hpp 136 -/
def chargedC : Comp (ISeq LIST) := iseqD (fun _ => listC.checked chargedOk chargedOv)

/-! ### LAW = 7 -/

/-- section/6/LaboratoryAngleEnergy: LaboratoryAngleEnergy/src/ctor.hpp 43-59, AngularDistribution/src/ctor.hpp 38-49, EnergyDistribution (a TAB1
    record), print.hpp 11-15, section/6/LaboratoryAngleEnergy.hpp 105 -/
def laboratoryC : Comp (ISeq (ISeq TAB1)) := iseqC (iseqC tab1C)

theorem continuumC_law : continuumC.Law UbErr := by
  refine iseqD_law fun r => ?_
  have he : ∀ a e, continuumCheck r.l1 a = .error e → UbErr e := by
    intro a e h
    unfold continuumCheck at h
    split at h
    · cases h
    split at h
    · cases h; exact .inr rfl
    split at h
    · cases h; exact .inl rfl
    split at h
    · cases h; exact .inr rfl
    split at h
    · cases h; exact .inl rfl
    split at h
    · cases h; exact .inl rfl
    · cases h
  unfold continuumElemC
  split
  · exact Comp.checkedE_law (E1 := StdErr) listC_law _ he
  · exact Comp.checkedE_law (E1 := StdErr) (Comp.checked_law listC_law _) _ he

theorem twoBodyC_law : twoBodyC.Law UbErr := iseqD_law fun _ => Comp.checked_lawU (E1 := StdErr) listC_law _
theorem chargedC_law : chargedC.Law UbErr := iseqD_law fun _ => Comp.checked_lawU (E1 := StdErr) listC_law _
theorem laboratoryC_law : laboratoryC.Law := iseqC_law (iseqC_law tab1C_law)

/-! ### reaction products -/

/-- section/6.hpp 68-76 -/
inductive Law6 where
  | elsewhere (law : Int)
  | unknown
  | continuum (b : ISeq LIST)
  | twoBody (b : ISeq LIST)
  | isotropic
  | recoils
  | charged (b : ISeq LIST)
  | nBody (b : Cont)
  | laboratory (b : ISeq (ISeq TAB1))

namespace Law6

/-- `LAW()` of the alternatives -/
def law : Law6 → Int
  | .elsewhere l => l
  | .unknown => 0
  | .continuum _ => 1
  | .twoBody _ => 2
  | .isotropic => 3
  | .recoils => 4
  | .charged _ => 5
  | .nBody _ => 6
  | .laboratory _ => 7

/-- section/6/ReactionProduct/src/readDistribution.hpp 1-45, DefinedElsewhere/src/ctor.hpp, checkLAW.hpp, NBodyPhaseSpace/src/ctor.hpp 32-45 -/
def read (law : Int) (t : Nums) : Parser Law6 :=
  if law = -4 ∨ law = -5 ∨ law = -14 ∨ law = -15 then
    if t.mt ≠ 18 then Parser.fail .exc else pure (.elsewhere law)
  else if law = 0 then pure .unknown
  else if law = 1 then do
    let b ← continuumC.read t
    pure (.continuum b)
  else if law = 2 then do
    let b ← twoBodyC.read t
    pure (.twoBody b)
  else if law = 3 then pure .isotropic
  else if law = 4 then pure .recoils
  else if law = 5 then do
    let b ← chargedC.read t
    pure (.charged b)
  else if law = 6 then do
    let b ← readCont t
    pure (.nBody b)
  else if law = 7 then do
    let b ← laboratoryC.read t
    pure (.laboratory b)
  else Parser.fail .exc

/-- NoLawDataGiven.hpp 30-31 and the `print` of the others -/
def print : Law6 → Nums → Text
  | .elsewhere _, _ => []
  | .unknown, _ => []
  | .continuum b, t => continuumC.print b t
  | .twoBody b, t => twoBodyC.print b t
  | .isotropic, _ => []
  | .recoils, _ => []
  | .charged b, t => chargedC.print b t
  | .nBody b, t => printCont b t
  | .laboratory b, t => laboratoryC.print b t

/-- NoLawDataGiven.hpp 18 and the `NC` of the others -/
def nc : Law6 → Nat
  | .elsewhere _ => 0
  | .unknown => 0
  | .continuum b => continuumC.nc b
  | .twoBody b => twoBodyC.nc b
  | .isotropic => 0
  | .recoils => 0
  | .charged b => chargedC.nc b
  | .nBody _ => 1
  | .laboratory b => laboratoryC.nc b

/-- section/6/DefinedElsewhere/src/checkLAW.hpp and the invariants of the others -/
def Valid : Law6 → Prop
  | .elsewhere l => l = -4 ∨ l = -5 ∨ l = -14 ∨ l = -15
  | .unknown => True
  | .continuum b => continuumC.Valid b
  | .twoBody b => twoBodyC.Valid b
  | .isotropic => True
  | .recoils => True
  | .charged b => chargedC.Valid b
  | .nBody b => b.Fits
  | .laboratory b => laboratoryC.Valid b

/-- LAW < 0 is only read for MT = 18. -/
def mtOk (mt : Int) : Law6 → Prop
  | .elsewhere _ => mt = 18
  | _ => True

def reals : Law6 → List Dbl
  | .continuum b => continuumC.reals b
  | .twoBody b => twoBodyC.reals b
  | .charged b => chargedC.reals b
  | .nBody b => contC.reals b
  | .laboratory b => laboratoryC.reals b
  | _ => []

theorem rd {b : Law6} {t : Nums} (hv : b.Valid) (hr : Reps b.reals) (ht : t.Fit) (hm : b.mtOk t.mt) : Rd (read b.law t) (b.print t) b b.nc := by
  cases b
  case elsewhere l =>
    have hm : t.mt = 18 := hm
    exact Rd.ite_pos hv (Rd.ite_neg (by simp [hm]) (Rd.pure _))
  all_goals unfold read law; rd_cases
  case unknown => exact Rd.pure _
  case continuum b => exact Rd.bindPure (continuumC_law.rd hv hr ht) rfl
  case twoBody b => exact Rd.bindPure (twoBodyC_law.rd hv hr ht) rfl
  case isotropic => exact Rd.pure _
  case recoils => exact Rd.pure _
  case charged b => exact Rd.bindPure (chargedC_law.rd hv hr ht) rfl
  case nBody b => exact Rd.bindPure (contC_law.rd hv hr ht) rfl
  case laboratory b => exact Rd.bindPure (laboratoryC_law.rd hv hr ht) rfl

theorem canon {b : Law6} {t : Nums} (hv : b.Valid) (ht : t.Fit) : CanonicalText t b.nc (b.print t) := by
  cases b
  case continuum b => exact continuumC_law.canon hv ht
  case twoBody b => exact twoBodyC_law.canon hv ht
  case charged b => exact chargedC_law.canon hv ht
  case nBody b => exact contC_law.canon hv ht
  case laboratory b => exact laboratoryC_law.canon hv ht
  all_goals exact .nil t

theorem reads (l : Int) (t : Nums) :
    Reads UbErr (fun b ls => (Law6.Valid b ∧ b.law = l ∧ b.mtOk t.mt) ∧ AllTail t ls ∧ ls.length = b.nc) (read l t) :=
  RvK.toReads (
    RvK.ite (fun h => RvK.ite (fun _ => RvK.fail (.inl rfl)) fun h18 => RvK.pure ⟨h, rfl, (Decidable.not_not (p := t.mt = 18)).mp h18⟩ rfl) fun _ =>
    RvK.ite (fun h => RvK.pure ⟨trivial, h.symm, trivial⟩ rfl) fun _ =>
    RvK.ite (fun h => RvK.bind (continuumC_law.reads t) fun a ha => RvK.pure ⟨ha, h.symm, trivial⟩ (by simp [nc])) fun _ =>
    RvK.ite (fun h => RvK.bind (twoBodyC_law.reads t) fun a ha => RvK.pure ⟨ha, h.symm, trivial⟩ (by simp [nc])) fun _ =>
    RvK.ite (fun h => RvK.pure ⟨trivial, h.symm, trivial⟩ rfl) fun _ =>
    RvK.ite (fun h => RvK.pure ⟨trivial, h.symm, trivial⟩ rfl) fun _ =>
    RvK.ite (fun h => RvK.bind (chargedC_law.reads t) fun a ha => RvK.pure ⟨ha, h.symm, trivial⟩ (by simp [nc])) fun _ =>
    RvK.ite (fun h => RvK.bind (contC_law.reads t) fun a ha => RvK.pure ⟨ha, h.symm, trivial⟩ (by simp [nc, contC])) fun _ =>
    RvK.ite (fun h => RvK.bind (laboratoryC_law.reads t) fun a ha => RvK.pure ⟨ha, h.symm, trivial⟩ (by simp [nc])) fun _ => RvK.fail (.inl rfl))

end Law6

/-- section/6/ReactionProduct.hpp 13-15; `Multiplicity` is a TAB1 record (section/6/Multiplicity/src/ctor.hpp 43-51) -/
structure Product6 where
  multiplicity : TAB1
  dist : Law6

namespace Product6

/-- section/6/ReactionProduct/src/ctor.hpp 21-51, section/6/Multiplicity.hpp 52 (`LAW` is an `int`), verifyLAW.hpp 1-10 (always satisfied here) -/
def read (t : Nums) : Parser Product6 := do
  let m ← readTAB1 t
  let d ← Law6.read (toInt32 m.base.l2) t
  if toInt32 m.base.l2 ≠ d.law then Parser.fail .exc else pure ⟨m, d⟩

/-- section/6/ReactionProduct/src/print.hpp 11-17 -/
def print (b : Product6) (t : Nums) : Text := b.multiplicity.print t ++ b.dist.print t

/-- section/6/ReactionProduct.hpp 76-79 -/
def nc (b : Product6) : Nat := b.multiplicity.nc + b.dist.nc

/-- section/6/ReactionProduct/src/verifyLAW.hpp 1-10 -/
def Valid (b : Product6) : Prop := b.multiplicity.Fits ∧ b.dist.Valid ∧ toInt32 b.multiplicity.base.l2 = b.dist.law

def reals (b : Product6) : List Dbl := tab1C.reals b.multiplicity ++ b.dist.reals

theorem rd {b : Product6} {t : Nums} (hv : b.Valid) (hr : Reps b.reals) (ht : t.Fit) (hm : b.dist.mtOk t.mt) : Rd (read t) (b.print t) b b.nc := by
  obtain ⟨v1, v2, v3⟩ := hv
  refine Rd.bind (tab1C_law.rd v1 (reps_append.mp hr).1 ht) (Rd.bindPure (a := b.dist) ?_ (if_neg (not_not_intro v3)))
  rw [v3]; exact Law6.rd v2 (reps_append.mp hr).2 ht hm

theorem canon {b : Product6} {t : Nums} (hv : b.Valid) (ht : t.Fit) : CanonicalText t b.nc (b.print t) :=
  (tab1C_law.canon hv.1 ht).append (Law6.canon hv.2.1 ht)

theorem reads (t : Nums) : Reads UbErr (fun b ls => (Product6.Valid b ∧ b.dist.mtOk t.mt) ∧ AllTail t ls ∧ ls.length = b.nc) (read t) :=
  RvK.toReads (RvK.bind (tab1C_law.reads t) fun m hm => RvK.bind (Law6.reads _ t) fun d hd =>
    RvK.ite (fun _ => RvK.fail (.inl rfl)) fun _ => RvK.pure ⟨⟨hm, hd.1, hd.2.1.symm⟩, hd.2.2⟩ (by simp [nc, tab1C]))

end Product6

/-- section/6.hpp 82-85 -/
structure MF6Data where
  jp : Int
  lct : Int
  products : List Product6

/-- section::Type< 6 >: section/6/src/ctor.hpp 35-52, print.hpp 10-18, NC.hpp 4-9, section/6.hpp 119 (`NK()` as `int`) -/
def mf6 : SecDef MF6Data where
  mf := 6
  fixedMT := none
  head := fun b => (b.jp, b.lct, asInt b.products.length, 0)
  read := fun head t => do
    let b ← readSequence (Product6.read t) head.base.n1
    pure ⟨toInt32 head.base.l1, toInt32 head.base.l2, b⟩
  body := fun _ b t => b.products.flatMap (fun x => x.print t)
  nc := fun b => (b.products.map Product6.nc).sum
  Valid := fun b => IsInt32 b.jp ∧ IsInt32 b.lct ∧ (∀ x ∈ b.products, x.Valid) ∧ (b.products.length : Int) = asInt b.products.length
  reals := fun b => b.products.flatMap Product6.reals
  mtOk := fun mt b => ∀ x ∈ b.products, x.dist.mtOk mt

theorem mf6_reads (head : Division) (t : Nums) :
    Reads UbErr (fun b ls => (mf6.Valid b ∧ mf6.mtOk t.mt b) ∧ AllTail t ls ∧ ls.length = mf6.nc b) (mf6.read head t) :=
  RvK.toReads (RvK.seqR (Product6.reads t) fun xs h1 h2 => RvK.pure
    ⟨⟨isInt32_toInt32 _, isInt32_toInt32 _, fun x hx => (h2 x hx).1, asInt_of_count h1⟩, fun x hx => (h2 x hx).2⟩ (by simp [mf6]))

theorem mf6_law : mf6.Law UbErr where
  mf_pos := by simp [mf6]
  mt_fits := by simp [mf6]
  head_fits := fun hv => ⟨fits_of_int32 hv.1, fits_of_int32 hv.2.1, fits_asInt _, fits0⟩
  round := by
    rintro b t awr head ⟨v1, v2, v3, v4⟩ ha hr ht hh hm
    simp only [mf6, Prod.mk.injEq] at hh
    refine Rd.bindPure (Rd.seq (pr := fun x => x.print t) ?_ fun x hx => Product6.rd (v3 x hx) (reps_flatMap.mp hr x hx) ht (hm x hx)) ?_
    · rw [hh.2.2.1]; exact toInt32_asInt v4
    · rw [hh.1, hh.2.1, toInt32_of v1, toInt32_of v2]
  canon := fun _ hv ht => CanonicalText.flatMap (nc := Product6.nc) (fun x hx => Product6.canon (hv.2.2.1 x hx) ht)
  reads := fun head t _ => (mf6_reads head t).post (fun _ _ h => ⟨h.1.1, h.2⟩)
  mt_reads := fun _ {head t _ _ _} h => by
    obtain ⟨_, _, _, h⟩ := (mf6_reads head t).ok h
    exact h.1.2
  mt_any := by simp [mf6]

end ENDFtk

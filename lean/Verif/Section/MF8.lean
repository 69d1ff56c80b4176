import Verif.Section.MF7
/-
  The section types of file 8: section/8/454, section/8/457, section/8/459.
-/
set_option linter.unusedVariables false
set_option linter.unusedSectionVars false
set_option linter.unusedSimpArgs false
namespace ENDFtk
variable [Disco]

/-- A component that is present under some condition. -/
def optC {α : Type} (p : Prop) [Decidable p] (c : Comp α) : Comp (Option α) where
  read := fun t => if p then do
      let r ← c.read t
      pure (some r)
    else pure none
  print := fun v t => match v with
    | none => []
    | some r => c.print r t
  nc := fun v => match v with
    | none => 0
    | some r => c.nc r
  Valid := fun v => match v with
    | none => ¬p
    | some r => p ∧ c.Valid r
  reals := fun v => match v with
    | none => []
    | some r => c.reals r

theorem optC_law {α : Type} {p : Prop} [Decidable p] {c : Comp α} {E : Err → Prop} (hc : c.Law E) : (optC p c).Law E where
  round := by
    intro v t hv hr ht
    cases v with
    | none => exact Rd.ite_neg hv (Rd.pure _)
    | some f => exact Rd.ite_pos hv.1 (Rd.bindPure (hc.rd hv.2 hr ht) rfl)
  canon := by
    intro v t hv ht
    cases v with
    | none => exact .nil t
    | some f => exact hc.canon hv.2 ht
  reads := fun t => RvK.toReads (RvK.ite (fun h => RvK.bind (hc.reads t) fun f hf => RvK.pure ⟨h, hf⟩ (by simp [optC]))
    fun h => RvK.pure h rfl)

/-! ### MF8 MT454 and MT459 -/

/-- section/8/FissionYieldData/src/verifySize.hpp 1-12 (NPL and NFP are converted to `int`) -/
def yieldsOk (l : LIST) : Prop := toInt32 l.npl = toInt32 l.n2 * 4

instance (l : LIST) : Decidable (yieldsOk l) := by unfold yieldsOk; exact inferInstance

/-- NFP * 4 overflows: section/8/FissionYieldData/src/verifySize.hpp 4 -/
def yieldsOv (l : LIST) : Prop := Over (toInt32 l.n2 * 4)

instance : DecidablePred yieldsOv := fun l => by unfold yieldsOv; exact inferInstance

/-- section/8/FissionYieldData: FissionYieldData/src/ctor.hpp 6-10, 53-61 -/
def yieldsC : Comp LIST := listC.checked yieldsOk yieldsOv

/-- section::Type< 8, 454 > and section::Type< 8, 459 >: section/8/454/src/ctor.hpp 86-100, section/8/459/src/ctor.hpp 86-100,
    section/8/454/src/print.hpp 10-19, NC.hpp 4-9 (both are used by 459 as well, section/8/459.hpp 82-83); the number of components is printed as it is. -/
def mf8yields (mt : Int) : SecDef (List LIST) where
  mf := 8
  fixedMT := some mt
  checksHead := false
  head := fun b => (b.length, 0, 0, 0)
  read := fun head t => (seqC yieldsC head.base.l1).read t
  body := fun _ b t => b.flatMap (fun x => x.print t)
  nc := fun b => (b.map LIST.nc).sum
  Valid := fun b => (∀ x ∈ b, yieldsC.Valid x) ∧ (b.length : Int) < 2147483648
  reals := fun b => b.flatMap listC.reals

def mf8mt454 : SecDef (List LIST) := mf8yields 454
def mf8mt459 : SecDef (List LIST) := mf8yields 459

theorem yieldsC_law : yieldsC.Law UbErr := Comp.checked_lawU (E1 := StdErr) listC_law _

theorem toInt32_nat {n : Nat} (h : (n : Int) < 2147483648) : toInt32 n = (n : Int) := toInt32_of ⟨by omega, by omega⟩
theorem fits_nat {n : Nat} (h : (n : Int) < 2147483648) : fits 11 (n : Int) := fits_of_int32 ⟨by omega, by omega⟩
theorem lt_of_count {α : Type} {xs : List α} {n : Int} (h : (xs.length : Int) = toInt32 n) : (xs.length : Int) < 2147483648 := by
  have := toInt32_range n; omega

theorem mf8yields_law {mt : Int} (hmt : 1 ≤ mt ∧ fits 3 mt) : (mf8yields mt).Law UbErr where
  mf_pos := by simp [mf8yields]
  mt_fits := by intro mt h; cases h; exact hmt
  head_fits := fun hv => ⟨fits_nat hv.2, fits0, fits0, fits0⟩
  round := by
    rintro b t awr head ⟨v1, v2⟩ ha hr ht hh _
    simp only [mf8yields, Prod.mk.injEq] at hh
    exact (seqC_law yieldsC_law _).rd ⟨by rw [hh.1]; exact toInt32_nat v2, v1⟩ hr ht
  canon := fun _ hv ht => yieldsC_law.flatMap hv.1 ht
  reads := fun head t _ => ((seqC_law yieldsC_law _).reads t).post (by
    rintro b ls ⟨h1, h2⟩
    exact ⟨⟨h1.2, lt_of_count h1.1.symm⟩, h2⟩)

theorem mf8mt454_law : mf8mt454.Law UbErr := mf8yields_law ⟨by decide, by decide⟩
theorem mf8mt459_law : mf8mt459.Law UbErr := mf8yields_law ⟨by decide, by decide⟩

/-! ### MF8 MT457 -/

/-- section/8/457/AverageDecayEnergies/src/ctor.hpp 7-11, verifyNC.hpp 1-11, section/8/457/AverageDecayEnergies.hpp 44: NPL / 2 is 3 or 17 (an odd NPL
    is not detected) -/
def decayEnergiesOk (l : LIST) : Prop := toInt32 ((l.npl : Int) / 2) = 3 ∨ toInt32 ((l.npl : Int) / 2) = 17

instance (l : LIST) : Decidable (decayEnergiesOk l) := by unfold decayEnergiesOk; exact inferInstance

/-- section/8/457/AverageDecayEnergies: AverageDecayEnergies/src/ctor.hpp 56-64 -/
def decayEnergiesC : Comp LIST := listC.checked decayEnergiesOk

/-- section/8/457/DecayModes/src/ctor.hpp 9-13, verifyNDK.hpp 1-26 -/
def decayModesOk (l : LIST) : Prop := if toInt32 l.n2 = 0 then toInt32 l.npl = 6 else toInt32 l.npl = 6 * toInt32 l.n2

instance (l : LIST) : Decidable (decayModesOk l) := by unfold decayModesOk; exact inferInstance

/-- 6 * NDK overflows: section/8/457/DecayModes/src/verifyNDK.hpp 17 -/
def decayModesOv (l : LIST) : Prop := toInt32 l.n2 ≠ 0 ∧ Over (6 * toInt32 l.n2)

instance : DecidablePred decayModesOv := fun l => by unfold decayModesOv; exact inferInstance

/-- section/8/457/DecayModes: DecayModes/src/ctor.hpp 63-71 -/
def decayModesC : Comp LIST := listC.checked decayModesOk decayModesOv

/-- section/8/457/DiscreteSpectrum/src/ctor.hpp 10-14, verifyNT.hpp 1-11 -/
def discreteOk (l : LIST) : Prop := toInt32 l.npl = 4 ∨ toInt32 l.npl = 6 ∨ toInt32 l.npl = 12

instance (l : LIST) : Decidable (discreteOk l) := by unfold discreteOk; exact inferInstance

/-- section/8/457/DiscreteSpectrum: DiscreteSpectrum/src/ctor.hpp 96-104 -/
def discreteC : Comp LIST := listC.checked discreteOk

/-- section/8/457/DecaySpectrum.hpp 18-20: the LIST record, the discrete spectra, the continuous spectrum (a TAB1 record,
    ContinuousSpectrum/src/ctor.hpp 38-46) -/
abbrev DecaySpectrum := LIST × List LIST × Option TAB1

/-- section/8/457/DecaySpectrum/src/verifyDiscreteSize.hpp 1-9, verifyLCOV.hpp 1-9 -/
def decaySpectrumOk (b : DecaySpectrum) : Prop := ¬(toInt32 b.1.l1 = 2 ∧ asInt b.2.1.length = 0) ∧ toInt32 b.1.l2 = 0

instance (b : DecaySpectrum) : Decidable (decaySpectrumOk b) := by unfold decaySpectrumOk; exact inferInstance

/-- section/8/457/DecaySpectrum: DecaySpectrum/src/ctor.hpp 3-10, 84-129, readContinuous.hpp 1-13, print.hpp 11-16, NC.hpp 4-9 -/
def decaySpectrumC : Comp DecaySpectrum :=
  (listC.andThen (fun l => (seqC discreteC l.n2).andThen (fun _ => optC (toInt32 l.l1 ≠ 0) tab1C))).checked decaySpectrumOk

/-- section/8/457.hpp 41-47.  (`nst_` is not kept: it always is `NDK() == 0`, section/8/457/src/ctor.hpp 16-43.) -/
structure DecayData where
  lis : Int
  liso : Int
  energies : LIST
  modes : LIST
  spectra : List DecaySpectrum

/-- Conversion to `unsigned int`. -/
def toUInt32 (n : Int) : Int := n % 4294967296

/-- section/8/457.hpp 43, 81; section/8/457/src/ctor.hpp 40 -/
def DecayData.nst (b : DecayData) : Int := if toInt32 b.modes.n2 = 0 then 1 else 0

/-- section::Type< 8, 457 >: section/8/457/src/ctor.hpp 35-100, print.hpp 10-19, NC.hpp 4-10, section/8/457.hpp 91 (`NSP()` as `unsigned int`) -/
def mf8mt457 : SecDef DecayData where
  mf := 8
  fixedMT := some 457
  checksHead := false
  head := fun b => (b.lis, b.liso, b.nst, toUInt32 b.spectra.length)
  read := fun head t => do
    let e ← decayEnergiesC.read t
    let m ← decayModesC.read t
    let s ← (seqC decaySpectrumC head.base.n2).read t
    pure ⟨toUInt32 (toInt32 head.base.l1), toUInt32 (toInt32 head.base.l2), e, m, s⟩
  body := fun _ b t => b.energies.print t ++ (b.modes.print t ++ b.spectra.flatMap (fun x => decaySpectrumC.print x t))
  nc := fun b => b.energies.nc + (b.modes.nc + (b.spectra.map decaySpectrumC.nc).sum)
  Valid := fun b => (0 ≤ b.lis ∧ b.lis < 4294967296) ∧ (0 ≤ b.liso ∧ b.liso < 4294967296) ∧ decayEnergiesC.Valid b.energies ∧
    decayModesC.Valid b.modes ∧ (∀ x ∈ b.spectra, decaySpectrumC.Valid x) ∧ (b.spectra.length : Int) < 2147483648
  reals := fun b => listC.reals b.energies ++ (listC.reals b.modes ++ b.spectra.flatMap decaySpectrumC.reals)

theorem decayEnergiesC_law : decayEnergiesC.Law := Comp.checked_law listC_law _
theorem decayModesC_law : decayModesC.Law UbErr := Comp.checked_lawU (E1 := StdErr) listC_law _
theorem discreteC_law : discreteC.Law := Comp.checked_law listC_law _
theorem decaySpectrumC_law : decaySpectrumC.Law :=
  Comp.checked_law (Comp.andThen_law listC_law fun _ => Comp.andThen_law (E := StdErr) (seqC_law discreteC_law _) fun _ => optC_law tab1C_law) _

theorem fits_uint {n : Int} (h : 0 ≤ n ∧ n < 4294967296) : fits 11 n := by
  constructor
  · have : (10 : Int) ^ 11 = 100000000000 := by decide
    omega
  · have : (10 : Int) ^ (11 - 1) = 10000000000 := by decide
    omega

theorem toUInt32_of {n : Int} (h : 0 ≤ n ∧ n < 4294967296) : toUInt32 (toInt32 n) = n := by
  simp only [toUInt32, toInt32]; omega

theorem toUInt32_nat {n : Nat} (h : (n : Int) < 2147483648) : toUInt32 n = (n : Int) := by simp only [toUInt32]; omega

theorem toUInt32_range (n : Int) : 0 ≤ toUInt32 n ∧ toUInt32 n < 4294967296 := by simp only [toUInt32]; omega

theorem nst_fits (b : DecayData) : fits 11 b.nst := by
  unfold DecayData.nst
  split <;> decide

theorem mf8mt457_law : mf8mt457.Law UbErr where
  mf_pos := by simp [mf8mt457]
  mt_fits := by intro mt h; cases h; exact ⟨by decide, by show fits 3 457; decide⟩
  head_fits := fun hv => ⟨fits_uint hv.1, fits_uint hv.2.1, nst_fits _, fits_uint (toUInt32_range _)⟩
  round := by
    rintro b t awr head ⟨v1, v2, v3, v4, v5, v6⟩ ha hr ht hh _
    simp only [mf8mt457, Prod.mk.injEq] at hh
    obtain ⟨r1, hr⟩ := reps_append.mp hr
    obtain ⟨r2, r3⟩ := reps_append.mp hr
    refine Rd.bind (decayEnergiesC_law.rd v3 r1 ht) (Rd.bind (decayModesC_law.rd v4 r2 ht) (Rd.bindPure ((seqC_law decaySpectrumC_law _).rd ⟨?_, v5⟩ r3 ht) ?_))
    · rw [hh.2.2.2, toUInt32_nat v6]; exact toInt32_nat v6
    · rw [hh.1, hh.2.1, toUInt32_of v1, toUInt32_of v2]
  canon := fun _ hv ht => (decayEnergiesC_law.canon hv.2.2.1 ht).append ((decayModesC_law.canon hv.2.2.2.1 ht).append
    (decaySpectrumC_law.flatMap hv.2.2.2.2.1 ht))
  reads := fun head t _ => RvK.toReads (RvK.bind (decayEnergiesC_law.reads t) fun e he => RvK.bind (decayModesC_law.reads t) fun m hm =>
    RvK.bind ((seqC_law decaySpectrumC_law _).reads t) fun s hs =>
    RvK.pure ⟨toUInt32_range _, toUInt32_range _, he, hm, hs.2, lt_of_count hs.1.symm⟩
      (by simp [mf8mt457, seqC, decayEnergiesC, decayModesC, Comp.checked, listC]; omega))

end ENDFtk

import Verif.Section.MF4
/-
  The section type of file 5: section/5.
-/
set_option linter.unusedVariables false
set_option linter.unusedSectionVars false
set_option linter.unusedSimpArgs false
namespace ENDFtk
variable [Disco]

/-- Decides the conditions of a `switch` over literals. -/
macro "rd_cases" : tactic =>
  `(tactic| repeat first | refine Rd.ite_pos (by first | (simp [toInt32]; done) | assumption) ?_ | refine Rd.ite_neg (by simp [toInt32]; done) ?_)

/-- section/5.hpp 48-53: `std::variant` of the six spectra.  EffectiveTemperature, DistributionFunction and Parameter are TAB1 records
    (EffectiveTemperature/src/ctor.hpp 45-54, DistributionFunction/src/ctor.hpp 44-52, Parameter/src/ctor.hpp 44-52). -/
inductive Spectrum where
  | tabulated (b : ISeq TAB1)
  | general (temperature distribution : TAB1)
  | maxwell (r : TAB1)
  | evaporation (r : TAB1)
  | watt (a b : TAB1)
  | madland (r : TAB1)

namespace Spectrum

/-- `LF()` of section/5/TabulatedSpectrum.hpp 37, GeneralEvaporationSpectrum.hpp 22, MaxwellianFissionSpectrum.hpp 19, EvaporationSpectrum.hpp 19,
    WattSpectrum.hpp 24, MadlandNixSpectrum.hpp 19 -/
def lf : Spectrum → Int
  | .tabulated _ => 1
  | .general _ _ => 5
  | .maxwell _ => 7
  | .evaporation _ => 9
  | .watt _ _ => 11
  | .madland _ => 12

/-- The `switch` of section/5/PartialDistribution/src/readPartialDistribution.hpp 11-43 with the constructors TabulatedSpectrum/src/ctor.hpp 56-71,
    GeneralEvaporationSpectrum/src/ctor.hpp 23-63, MaxwellianFissionSpectrum/src/ctor.hpp 44-53, EvaporationSpectrum/src/ctor.hpp 43-51,
    WattSpectrum/src/ctor.hpp 41-54, readParameters.hpp 1-26, MadlandNixSpectrum/src/ctor.hpp 47-55 -/
def read (lf : Int) (t : Nums) : Parser Spectrum :=
  if lf = 1 then do
    let b ← tabulatedC.read t
    pure (.tabulated b)
  else if lf = 5 then do
    let a ← readTAB1 t
    let b ← readTAB1 t
    pure (.general a b)
  else if lf = 7 then do
    let a ← readTAB1 t
    pure (.maxwell a)
  else if lf = 9 then do
    let a ← readTAB1 t
    pure (.evaporation a)
  else if lf = 11 then do
    let a ← readTAB1 t
    let b ← readTAB1 t
    pure (.watt a b)
  else if lf = 12 then do
    let a ← readTAB1 t
    pure (.madland a)
  else Parser.fail .exc

/-- section/5/TabulatedSpectrum/src/print.hpp 11-14, GeneralEvaporationSpectrum/src/print.hpp 11-16, WattSpectrum/src/print.hpp 11-15; the others
    use the `print` of their TAB1 record -/
def print : Spectrum → Nums → Text
  | .tabulated b, t => tabulatedC.print b t
  | .general a b, t => a.print t ++ b.print t
  | .maxwell a, t => a.print t
  | .evaporation a, t => a.print t
  | .watt a b, t => a.print t ++ b.print t
  | .madland a, t => a.print t

/-- section/5/TabulatedSpectrum.hpp 111, GeneralEvaporationSpectrum/src/NC.hpp 4-6, WattSpectrum/src/NC.hpp 4-7; the others use the `NC` of their
    TAB1 record -/
def nc : Spectrum → Nat
  | .tabulated b => tabulatedC.nc b
  | .general a b => a.nc + b.nc
  | .maxwell a => a.nc
  | .evaporation a => a.nc
  | .watt a b => a.nc + b.nc
  | .madland a => a.nc

def Valid : Spectrum → Prop
  | .tabulated b => tabulatedC.Valid b
  | .general a b => a.Fits ∧ b.Fits
  | .maxwell a => a.Fits
  | .evaporation a => a.Fits
  | .watt a b => a.Fits ∧ b.Fits
  | .madland a => a.Fits

def reals : Spectrum → List Dbl
  | .tabulated b => tabulatedC.reals b
  | .general a b => tab1C.reals a ++ tab1C.reals b
  | .maxwell a => tab1C.reals a
  | .evaporation a => tab1C.reals a
  | .watt a b => tab1C.reals a ++ tab1C.reals b
  | .madland a => tab1C.reals a

theorem rd {b : Spectrum} {t : Nums} (hv : b.Valid) (hr : Reps b.reals) (ht : t.Fit) : Rd (read b.lf t) (b.print t) b b.nc := by
  cases b <;> unfold read lf <;> rd_cases
  case tabulated b => exact Rd.bindPure (tabulatedC_law.rd hv hr ht) rfl
  case general a b =>
    exact Rd.bind (tab1C_law.rd hv.1 (reps_append.mp hr).1 ht) (Rd.bindPure (tab1C_law.rd hv.2 (reps_append.mp hr).2 ht) rfl)
  case maxwell a => exact Rd.bindPure (tab1C_law.rd hv hr ht) rfl
  case evaporation a => exact Rd.bindPure (tab1C_law.rd hv hr ht) rfl
  case watt a b =>
    exact Rd.bind (tab1C_law.rd hv.1 (reps_append.mp hr).1 ht) (Rd.bindPure (tab1C_law.rd hv.2 (reps_append.mp hr).2 ht) rfl)
  case madland a => exact Rd.bindPure (tab1C_law.rd hv hr ht) rfl

theorem canon {b : Spectrum} {t : Nums} (hv : b.Valid) (ht : t.Fit) : CanonicalText t b.nc (b.print t) := by
  cases b
  case tabulated b => exact tabulatedC_law.canon hv ht
  case general a b => exact (tab1C_law.canon hv.1 ht).append (tab1C_law.canon hv.2 ht)
  case maxwell a => exact tab1C_law.canon hv ht
  case evaporation a => exact tab1C_law.canon hv ht
  case watt a b => exact (tab1C_law.canon hv.1 ht).append (tab1C_law.canon hv.2 ht)
  case madland a => exact tab1C_law.canon hv ht

theorem reads (l : Int) (t : Nums) : Reads StdErr (fun b ls => (Spectrum.Valid b ∧ b.lf = l) ∧ AllTail t ls ∧ ls.length = b.nc) (read l t) :=
  RvK.toReads (
    RvK.ite (fun h => RvK.bind (tabulatedC_law.reads t) fun a ha => RvK.pure ⟨ha, h.symm⟩ (by simp [nc])) fun _ =>
    RvK.ite (fun h => RvK.bind (tab1C_law.reads t) fun a ha => RvK.bind (tab1C_law.reads t) fun b hb =>
      RvK.pure ⟨⟨ha, hb⟩, h.symm⟩ (by simp [nc, tab1C])) fun _ =>
    RvK.ite (fun h => RvK.bind (tab1C_law.reads t) fun a ha => RvK.pure ⟨ha, h.symm⟩ (by simp [nc, tab1C])) fun _ =>
    RvK.ite (fun h => RvK.bind (tab1C_law.reads t) fun a ha => RvK.pure ⟨ha, h.symm⟩ (by simp [nc, tab1C])) fun _ =>
    RvK.ite (fun h => RvK.bind (tab1C_law.reads t) fun a ha => RvK.bind (tab1C_law.reads t) fun b hb =>
      RvK.pure ⟨⟨ha, hb⟩, h.symm⟩ (by simp [nc, tab1C])) fun _ =>
    RvK.ite (fun h => RvK.bind (tab1C_law.reads t) fun a ha => RvK.pure ⟨ha, h.symm⟩ (by simp [nc, tab1C])) fun _ => RvK.fail rfl)

end Spectrum

/-- section/5/PartialDistribution.hpp 7-8 -/
structure Partial5 where
  probability : TAB1
  dist : Spectrum

/-- section/5/PartialDistribution: readPartialDistribution.hpp 1-44 (`LF` is an `int`, section/5/Probability.hpp 34), ctor.hpp 7-38, verifyLF.hpp 1-13
    (LF of the probability and of the spectrum are the same by the `switch`), print.hpp 11-18, NC.hpp 4-9 -/
def partial5C : Comp Partial5 where
  read := fun t => do
    let p ← readTAB1 t
    let d ← Spectrum.read (toInt32 p.base.l2) t
    if toInt32 p.base.l2 ≠ d.lf then Parser.fail .exc else pure ⟨p, d⟩
  print := fun b t => b.probability.print t ++ b.dist.print t
  nc := fun b => b.probability.nc + b.dist.nc
  Valid := fun b => b.probability.Fits ∧ b.dist.Valid ∧ toInt32 b.probability.base.l2 = b.dist.lf
  reals := fun b => tab1C.reals b.probability ++ b.dist.reals

theorem partial5C_law : partial5C.Law where
  round := by
    rintro a t ⟨v1, v2, v3⟩ hr ht
    refine Rd.bind (tab1C_law.rd v1 (reps_append.mp hr).1 ht) (Rd.bindPure (a := a.dist) ?_ (if_neg (not_not_intro v3)))
    rw [v3]; exact Spectrum.rd v2 (reps_append.mp hr).2 ht
  canon := fun hv ht => (tab1C_law.canon hv.1 ht).append (Spectrum.canon hv.2.1 ht)
  reads := fun t => RvK.toReads (RvK.bind (tab1C_law.reads t) fun p hp => RvK.bind (Spectrum.reads _ t) fun d hd =>
    RvK.ite (fun _ => RvK.fail rfl) fun _ => RvK.pure ⟨hp, hd.1, hd.2.symm⟩ (by simp [partial5C, tab1C]))

/-- section::Type< 5 >: section/5/src/ctor.hpp 35-52, verifyNK.hpp 1-10, print.hpp 10-18, NC.hpp 4-9, section/5.hpp 77 (`NK()` as `int`) -/
def mf5 : SecDef (List Partial5) where
  mf := 5
  fixedMT := none
  head := fun b => (0, 0, asInt b.length, 0)
  read := fun head t => do
    let b ← readSequence (partial5C.read t) head.base.n1
    if asInt b.length = 0 then Parser.fail .exc else pure b
  body := fun _ b t => b.flatMap (fun x => partial5C.print x t)
  nc := fun b => (b.map partial5C.nc).sum
  Valid := fun b => (∀ x ∈ b, partial5C.Valid x) ∧ (b.length : Int) = asInt b.length ∧ asInt b.length ≠ 0
  reals := fun b => b.flatMap partial5C.reals

/-- As many elements as an `int` can count. -/
theorem asInt_of_count {α : Type} {xs : List α} {n : Int} (h : (xs.length : Int) = toInt32 n) : (xs.length : Int) = asInt xs.length := by
  rw [asInt, h, toInt32_toInt32]

theorem toInt32_asInt {n : Nat} (h : (n : Int) = asInt n) : toInt32 (asInt n) = (n : Int) := by
  rw [asInt, toInt32_toInt32]; exact h.symm

theorem fits_asInt (n : Nat) : fits 11 (asInt n) := fits_toInt32 _

theorem mf5_law : mf5.Law where
  mf_pos := by simp [mf5]
  mt_fits := by simp [mf5]
  head_fits := fun _ => ⟨fits0, fits0, fits_asInt _, fits0⟩
  round := by
    rintro b t awr head ⟨v1, v2, v3⟩ ha hr ht hh _
    simp only [mf5, Prod.mk.injEq] at hh
    refine Rd.bindPure (Rd.seq (pr := fun x => partial5C.print x t) ?_ fun x hx => partial5C_law.rd (v1 x hx) (reps_flatMap.mp hr x hx) ht) (if_neg v3)
    rw [hh.2.2.1]; exact toInt32_asInt v2
  canon := fun _ hv ht => partial5C_law.flatMap hv.1 ht
  reads := fun head t _ => RvK.toReads (RvK.seq partial5C_law fun xs h1 h2 => RvK.ite (fun _ => RvK.fail rfl) fun h3 =>
    RvK.pure ⟨h2, asInt_of_count h1, h3⟩ (by simp [mf5]))

end ENDFtk

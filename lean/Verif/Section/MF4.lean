import Verif.Section.MF1b
/-
  The section types of files 23, 27 and 4: section/23, section/27, section/4.
-/
set_option linter.unusedVariables false
set_option linter.unusedSectionVars false
set_option linter.unusedSimpArgs false
namespace ENDFtk
variable [Disco]

/-! ### MF23 and MF27 -/

/-- section::Type< 23 > and section::Type< 27 >: a TAB1 record; section/23/src/ctor.hpp 33-49, section/27/src/ctor.hpp 31-47, the `print` of file 3
    (section/23.hpp 122, section/27.hpp 112), section/23.hpp 108, section/27.hpp 98. -/
def mfTable (mf : Int) : SecDef TAB1 where
  mf := mf
  fixedMT := none
  recHeadMAT := true
  head := fun _ => (0, 0, 0, 0)
  read := fun _ t => readTAB1 t
  body := fun _ b t => b.print t
  nc := fun b => b.nc
  Valid := fun b => b.Fits
  reals := tab1C.reals

def mf23 : SecDef TAB1 := mfTable 23
def mf27 : SecDef TAB1 := mfTable 27

theorem mfTable_law {mf : Int} (h : 1 ≤ mf ∧ mf < 100) : (mfTable mf).Law where
  mf_pos := h
  mt_fits := by simp [mfTable]
  head_fits := fun _ => ⟨fits0, fits0, fits0, fits0⟩
  round := fun _ hv _ hr ht _ _ => tab1C_law.rd hv hr ht
  canon := fun _ hv ht => tab1C_law.canon hv ht
  reads := fun _ t _ => tab1C_law.reads t

theorem mf23_law : mf23.Law := mfTable_law (by decide)
theorem mf27_law : mf27.Law := mfTable_law (by decide)

/-! ### MF4 -/

/-- section/4/LegendreDistributions: section/4/AngularDistributions/src/ctor.hpp 39-48 with section/4/LegendreCoefficients (a LIST record,
    LegendreCoefficients/src/ctor.hpp 35-44) -/
def legendreC : Comp (ISeq LIST) := iseqC listC
/-- section/4/TabulatedDistributions: section/4/AngularDistributions/src/ctor.hpp 39-48 with section/4/TabulatedDistribution (a TAB1 record,
    TabulatedDistribution/src/ctor.hpp 39-48) -/
def tabulatedC : Comp (ISeq TAB1) := iseqC tab1C

theorem legendreC_law : legendreC.Law := iseqC_law listC_law
theorem tabulatedC_law : tabulatedC.Law := iseqC_law tab1C_law

/-- section/4/MixedDistributions.hpp 15-16 -/
structure Mixed where
  legendre : ISeq LIST
  tabulated : ISeq TAB1

/-- section/4/MixedDistributions/src/verifyBoundary.hpp 1-13 with ctor.hpp 11-13: the last Legendre energy and the first tabulated energy (both are
    `C2`); `front()` and `back()` exist, because a sequence is not empty. -/
def Mixed.lined (b : Mixed) : Prop :=
  match b.legendre.seq.getLast?, b.tabulated.seq.head? with
  | some l, some r => Disco.eqD l.c2 r.base.c2 = true
  | _, _ => True

instance (b : Mixed) : Decidable b.lined := by unfold Mixed.lined; split <;> exact inferInstance

/-- section/4/MixedDistributions: MixedDistributions/src/ctor.hpp 21-62, print.hpp 11-16, section/4/MixedDistributions.hpp 139-140 -/
def mixedC : Comp Mixed where
  read := fun t => do
    let l ← legendreC.read t
    let r ← tabulatedC.read t
    if (Mixed.mk l r).lined then pure ⟨l, r⟩ else Parser.fail .exc
  print := fun b t => legendreC.print b.legendre t ++ tabulatedC.print b.tabulated t
  nc := fun b => legendreC.nc b.legendre + tabulatedC.nc b.tabulated
  Valid := fun b => legendreC.Valid b.legendre ∧ tabulatedC.Valid b.tabulated ∧ b.lined
  reals := fun b => legendreC.reals b.legendre ++ tabulatedC.reals b.tabulated

theorem mixedC_law : mixedC.Law where
  round := fun {a t} hv hr ht => Rd.bind (legendreC_law.rd hv.1 (reps_append.mp hr).1 ht)
    (Rd.bindPure (tabulatedC_law.rd hv.2.1 (reps_append.mp hr).2 ht) (if_pos hv.2.2))
  canon := fun hv ht => (legendreC_law.canon hv.1 ht).append (tabulatedC_law.canon hv.2.1 ht)
  reads := fun t => RvK.toReads (RvK.bind (legendreC_law.reads t) fun l hl => RvK.bind (tabulatedC_law.reads t) fun r hr =>
    RvK.ite (fun h => RvK.pure ⟨hl, hr, h⟩ (by simp [mixedC])) fun _ => RvK.fail rfl)

/-- section/4.hpp 58-62 -/
inductive Angular where
  | isotropic
  | legendre (b : ISeq LIST)
  | tabulated (b : ISeq TAB1)
  | mixed (b : Mixed)

namespace Angular

/-- section/4.hpp 104 (`index()` of the variant) -/
def ltt : Angular → Int
  | .isotropic => 0
  | .legendre _ => 1
  | .tabulated _ => 2
  | .mixed _ => 3

/-- section/4.hpp 114 (`bool`, printed as an integer) -/
def li (b : Angular) : Int := if b.ltt = 0 then 1 else 0

/-- section/4/src/readDistributions.hpp 1-25 (`LTT` is a `long`) -/
def read (ltt : Int) (t : Nums) : Parser Angular :=
  if ltt = 0 then pure .isotropic
  else if ltt = 1 then do
    let b ← legendreC.read t
    pure (.legendre b)
  else if ltt = 2 then do
    let b ← tabulatedC.read t
    pure (.tabulated b)
  else if ltt = 3 then do
    let b ← mixedC.read t
    pure (.mixed b)
  else Parser.fail .exc

/-- section/4/Isotropic.hpp 46-47 and the `print` of the others -/
def print : Angular → Nums → Text
  | .isotropic, _ => []
  | .legendre b, t => legendreC.print b t
  | .tabulated b, t => tabulatedC.print b t
  | .mixed b, t => mixedC.print b t

/-- section/4/Isotropic.hpp 41 and the `NC` of the others -/
def nc : Angular → Nat
  | .isotropic => 0
  | .legendre b => legendreC.nc b
  | .tabulated b => tabulatedC.nc b
  | .mixed b => mixedC.nc b

def Valid : Angular → Prop
  | .isotropic => True
  | .legendre b => legendreC.Valid b
  | .tabulated b => tabulatedC.Valid b
  | .mixed b => mixedC.Valid b

def reals : Angular → List Dbl
  | .isotropic => []
  | .legendre b => legendreC.reals b
  | .tabulated b => tabulatedC.reals b
  | .mixed b => mixedC.reals b

theorem ltt_fits (b : Angular) : fits 11 b.ltt ∧ fits 11 b.li := by
  cases b
  · exact ⟨(by show fits 11 0; decide), (by show fits 11 1; decide)⟩
  · exact ⟨(by show fits 11 1; decide), (by show fits 11 0; decide)⟩
  · exact ⟨(by show fits 11 2; decide), (by show fits 11 0; decide)⟩
  · exact ⟨(by show fits 11 3; decide), (by show fits 11 0; decide)⟩

theorem rd {b : Angular} {t : Nums} (hv : b.Valid) (hr : Reps b.reals) (ht : t.Fit) : Rd (read b.ltt t) (b.print t) b b.nc := by
  cases b with
  | isotropic => exact Rd.ite_pos rfl (Rd.pure _)
  | legendre b => exact Rd.ite_neg (by simp [ltt]) (Rd.ite_pos rfl (Rd.bindPure (legendreC_law.rd hv hr ht) rfl))
  | tabulated b => exact Rd.ite_neg (by simp [ltt]) (Rd.ite_neg (by simp [ltt]) (Rd.ite_pos rfl (Rd.bindPure (tabulatedC_law.rd hv hr ht) rfl)))
  | mixed b => exact Rd.ite_neg (by simp [ltt]) (Rd.ite_neg (by simp [ltt]) (Rd.ite_neg (by simp [ltt])
      (Rd.ite_pos rfl (Rd.bindPure (mixedC_law.rd hv hr ht) rfl))))

theorem canon {b : Angular} {t : Nums} (hv : b.Valid) (ht : t.Fit) : CanonicalText t b.nc (b.print t) := by
  cases b with
  | isotropic => exact .nil t
  | legendre b => exact legendreC_law.canon hv ht
  | tabulated b => exact tabulatedC_law.canon hv ht
  | mixed b => exact mixedC_law.canon hv ht

theorem reads (l : Int) (t : Nums) : Reads StdErr (fun b ls => Angular.Valid b ∧ AllTail t ls ∧ ls.length = b.nc) (read l t) :=
  RvK.toReads (RvK.ite (fun _ => RvK.pure trivial rfl) fun _ =>
    RvK.ite (fun _ => RvK.bind (legendreC_law.reads t) fun r hr => RvK.pure hr (by simp [nc])) fun _ =>
    RvK.ite (fun _ => RvK.bind (tabulatedC_law.reads t) fun r hr => RvK.pure hr (by simp [nc])) fun _ =>
    RvK.ite (fun _ => RvK.bind (mixedC_law.reads t) fun r hr => RvK.pure hr (by simp [nc])) fun _ => RvK.fail rfl)

end Angular

/-- section/4.hpp 78-79 -/
structure MF4Data where
  lct : Int
  dist : Angular

/-- section::Type< 4 >: section/4/src/ctor.hpp 28-70 (of the second line only L2 is kept), print.hpp 10-21, NC.hpp 4-8 -/
def mf4 : SecDef MF4Data where
  mf := 4
  fixedMT := none
  recHeadMAT := true
  head := fun b => (0, b.dist.ltt, 0, 0)
  read := fun head t => do
    let cont ← readCont t
    let dist ← Angular.read head.base.l2 t
    pure ⟨toInt32 cont.l2, dist⟩
  body := fun awr b t => printCont ⟨Disco.zero, awr, b.dist.li, b.lct, 0, 0⟩ t ++ b.dist.print t
  nc := fun b => 1 + b.dist.nc
  Valid := fun b => IsInt32 b.lct ∧ b.dist.Valid
  reals := fun b => Disco.zero :: b.dist.reals

theorem mf4_law : mf4.Law where
  mf_pos := by simp [mf4]
  mt_fits := by simp [mf4]
  head_fits := fun _ => ⟨fits0, (Angular.ltt_fits _).1, fits0, fits0⟩
  round := by
    intro b t awr head hv ha hr ht hh _
    simp only [mf4, Prod.mk.injEq] at hh
    obtain ⟨r1, r2⟩ := reps_cons.mp hr
    have h := Angular.rd hv.2 r2 ht
    rw [← hh.2.1] at h
    refine Rd.bind (contC_law.rd (a := ⟨Disco.zero, awr, b.dist.li, b.lct, 0, 0⟩) ⟨(Angular.ltt_fits _).2, fits_of_int32 hv.1, fits0, fits0⟩
      (by simp [contC, Reps, r1, ha]) ht) (Rd.bindPure h ?_)
    simp only [toInt32_of hv.1]
  canon := fun awr hv ht => (contC_law.canon (a := ⟨_, _, _, _, _, _⟩) ⟨(Angular.ltt_fits _).2, fits_of_int32 hv.1, fits0, fits0⟩ ht).append
    (Angular.canon hv.2 ht)
  reads := fun head t _ => RvK.toReads (RvK.bind (contC_law.reads t) fun c hc => RvK.bind (Angular.reads _ t) fun b hb =>
    RvK.pure ⟨isInt32_toInt32 _, hb⟩ (by simp [mf4, contC]))

end ENDFtk

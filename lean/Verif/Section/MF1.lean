import Verif.Section.Tools
/-
  The section types of file 1 and file 3: section/1/451, 452, 455, 456, section/3.
-/
set_option linter.unusedVariables false
set_option linter.unusedSectionVars false
set_option linter.unusedSimpArgs false
namespace ENDFtk
variable [Disco]

/-! ### MF3 -/

/-- section::Type< 3 > (section/3.hpp 30-40): a TAB1 record; section/3/src/ctor.hpp 62-78, print.hpp 10-17, section/3.hpp 121. -/
def mf3 : SecDef TAB1 where
  mf := 3
  fixedMT := none
  recHeadMAT := true
  head := fun _ => (0, 0, 0, 0)
  read := fun _ t => readTAB1 t
  body := fun _ b t => b.print t
  nc := fun b => b.nc
  Valid := fun b => b.Fits
  reals := fun b => [b.base.c1, b.base.c2] ++ (b.x ++ b.y)

theorem fits0 : fits 11 0 := by decide

theorem mf3_law : mf3.Law where
  mf_pos := by simp [mf3]
  mt_fits := by simp [mf3]
  head_fits := fun _ => ⟨fits0, fits0, fits0, fits0⟩
  round := fun _ hv _ hr ht _ _ => tab1C_law.rd hv hr ht
  canon := fun _ hv ht => tab1C_law.canon hv ht
  reads := fun _ t _ => tab1C_law.reads t

/-! ### MF1 MT451 -/

/-- section/1/451.hpp 40-46 -/
structure Info451 where
  lrp : Int
  lfi : Int
  nlib : Int
  nmod : Int
  p0 : Cont
  p1 : Cont
  p2 : Cont
  desc : List Text
  index : List Dir
deriving DecidableEq

namespace Info451

/-- section/1/451.hpp 233 -/
def nwd (b : Info451) : Int := asInt b.desc.length
/-- section/1/451.hpp 238 -/
def nxc (b : Info451) : Int := asInt b.index.length

/-- section/1/451/src/readParameters.hpp 1-20 -/
def readParameters (t : Nums) : Parser (Cont × Cont × Cont) := do
  let line0 ← readCont t
  let line1 ← readCont t
  let line2 ← readCont t
  if line2.n1 < 0 then Parser.fail .exc
  else if line2.n2 < 1 then Parser.fail .exc
  else pure (line0, line1, line2)

/-- section/1/451/src/ctor.hpp 77-95 -/
def read (head : Division) (t : Nums) : Parser Info451 := do
  let p ← readParameters t
  let desc ← readSequence (readText t) p.2.2.n1
  let index ← readSequence (readDir t) p.2.2.n2
  pure ⟨toInt32 head.base.l1, toInt32 head.base.l2, toInt32 head.base.n1, toInt32 head.base.n2, p.1, p.2.1, p.2.2, desc, index⟩

/-- section/1/451/src/print.hpp 16-18 -/
def print (b : Info451) (t : Nums) : Text :=
  [b.p0, b.p1, b.p2].flatMap (fun p => printCont p t) ++ b.desc.flatMap (fun x => printText x t) ++ b.index.flatMap (fun x => printDir x t)

/-- The flags are of type `int`, the numbers of the parameter lines fit their columns; there are NWD texts of 66 columns and NXC >= 1 directory
    records. -/
def Valid (b : Info451) : Prop :=
  IsInt32 b.lrp ∧ IsInt32 b.lfi ∧ IsInt32 b.nlib ∧ IsInt32 b.nmod ∧ b.p0.Fits ∧ b.p1.Fits ∧ b.p2.Fits ∧ 0 ≤ b.p2.n1 ∧ 1 ≤ b.p2.n2 ∧
  toInt32 b.p2.n1 = b.desc.length ∧ toInt32 b.p2.n2 = b.index.length ∧
  (∀ x ∈ b.desc, x.length = 66 ∧ '\n' ∉ x) ∧ (∀ d ∈ b.index, d.Ok)

/-- `NC() - 1`, section/1/451.hpp 251 -/
def nc (b : Info451) : Nat := (3 + b.nwd + b.nxc).toNat

theorem Valid.nc_eq {b : Info451} (h : b.Valid) : b.nc = 3 + (b.desc.length + b.index.length) := by
  obtain ⟨_, _, _, _, _, _, _, _, _, h1, h2, _⟩ := h
  have r1 := toInt32_range b.p2.n1
  have r2 := toInt32_range b.p2.n2
  unfold nc nwd nxc asInt
  rw [toInt32_id (by omega) (by omega), toInt32_id (by omega) (by omega)]
  omega

end Info451

/-- section::Type< 1, 451 >: section/1/451/src/ctor.hpp 77-103, print.hpp 10-20 -/
def mf1mt451 : SecDef Info451 where
  mf := 1
  fixedMT := some 451
  head := fun b => (b.lrp, b.lfi, b.nlib, b.nmod)
  read := Info451.read
  body := fun _ => Info451.print
  nc := Info451.nc
  Valid := Info451.Valid
  reals := fun b => [b.p0.c1, b.p0.c2, b.p1.c1, b.p1.c2, b.p2.c1, b.p2.c2]

theorem sum_map_one {α : Type} (l : List α) (f : α → Nat) (h : ∀ x, f x = 1) : (l.map f).sum = l.length := by
  induction l with
  | nil => rfl
  | cons x l ih => simp [ih, h]; omega

theorem mf1mt451_law : mf1mt451.Law where
  mf_pos := by simp [mf1mt451]
  mt_fits := by simp [mf1mt451]; decide
  head_fits := fun hv => ⟨fits_of_int32 hv.1, fits_of_int32 hv.2.1, fits_of_int32 hv.2.2.1, fits_of_int32 hv.2.2.2.1⟩
  round := by
    intro b t awr head hv ha hr ht hh _
    have hnc := Info451.Valid.nc_eq hv
    obtain ⟨i1, i2, i3, i4, f0, f1, f2, z1, z2, e1, e2, v1, v2⟩ := hv
    simp only [mf1mt451, reps_cons] at hr
    obtain ⟨r1, r2, r3, r4, r5, r6, -⟩ := hr
    have c0 : Rd (readCont t) (printCont b.p0 t) b.p0 1 := contC_law.rd f0 (by simp [contC, Reps, r1, r2]) ht
    have c1 : Rd (readCont t) (printCont b.p1 t) b.p1 1 := contC_law.rd f1 (by simp [contC, Reps, r3, r4]) ht
    have c2 : Rd (readCont t) (printCont b.p2 t) b.p2 1 := contC_law.rd f2 (by simp [contC, Reps, r5, r6]) ht
    have hp : Rd (Info451.readParameters t) (printCont b.p0 t ++ (printCont b.p1 t ++ printCont b.p2 t)) (b.p0, b.p1, b.p2) (1 + (1 + 1)) :=
      c0.bind (c1.bind (c2.bindPure (by rw [if_neg (by omega), if_neg (by omega)])))
    refine Rd.bind' hp (Rd.bind (Rd.seq (pr := fun x => printText x t) e1 fun x hx => textC_law.rd (v1 x hx) (by simp [textC, Reps]) ht)
      (Rd.bindPure (Rd.seq (pr := fun x => printDir x t) e2 fun x hx => dirC_law.rd (v2 x hx) (by simp [dirC, Reps]) ht) ?_)) ?_ ?_
    · simp only [mf1mt451, Prod.mk.injEq] at hh
      obtain ⟨h1, h2, h3, h4⟩ := hh
      simp only [h1, h2, h3, h4, toInt32_of i1, toInt32_of i2, toInt32_of i3, toInt32_of i4]
    · simp only [mf1mt451, Info451.print, List.flatMap_cons, List.flatMap_nil, List.append_nil, List.append_assoc]
    · rw [sum_map_one _ textC.nc (fun _ => rfl), sum_map_one _ dirC.nc (fun _ => rfl)]; simp only [mf1mt451]; omega
  canon := by
    intro b t awr hv ht
    have hnc := Info451.Valid.nc_eq hv
    obtain ⟨i1, i2, i3, i4, f0, f1, f2, z1, z2, e1, e2, v1, v2⟩ := hv
    have h0 := (contC_law.canon (t := t) f0 ht).append ((contC_law.canon (t := t) f1 ht).append (contC_law.canon (t := t) f2 ht))
    refine ((h0.append (textC_law.flatMap (xs := b.desc) v1 ht)).append (dirC_law.flatMap (xs := b.index) v2 ht)).cast ?_ ?_
    · simp [mf1mt451, Info451.print, contC, textC, dirC]
    · rw [sum_map_one _ textC.nc (fun _ => rfl), sum_map_one _ dirC.nc (fun _ => rfl)]
      simp only [mf1mt451, hnc, contC]; omega
  reads := by
    intro head t hf
    apply RvK.toReads
    refine RvK.bind (E1 := StdErr) (V1 := fun p : Cont × Cont × Cont => p.1.Fits ∧ p.2.1.Fits ∧ p.2.2.Fits ∧ 0 ≤ p.2.2.n1 ∧ 1 ≤ p.2.2.n2) (nc1 := fun _ => 3) ?_ ?_
    · exact RvK.toReads (RvK.bind (contC_law.reads t) fun p0 h0 => RvK.bind (contC_law.reads t) fun p1 h1 => RvK.bind (contC_law.reads t) fun p2 h2 =>
        RvK.ite (fun _ => RvK.fail rfl) fun z1 => RvK.ite (fun _ => RvK.fail rfl) fun z2 =>
          RvK.pure ⟨h0, h1, h2, by simp only; omega, by simp only; omega⟩ (by simp [contC]))
    · rintro p ⟨f0, f1, f2, z1, z2⟩
      refine RvK.seq textC_law fun xs e1 v1 => RvK.seq dirC_law fun ys e2 v2 => ?_
      have hv : Info451.Valid ⟨toInt32 head.base.l1, toInt32 head.base.l2, toInt32 head.base.n1, toInt32 head.base.n2, p.1, p.2.1, p.2.2, xs, ys⟩ :=
        ⟨toInt32_range _, toInt32_range _, toInt32_range _, toInt32_range _, f0, f1, f2, z1, z2, e1.symm, e2.symm, v1, v2⟩
      refine RvK.pure hv ?_
      rw [sum_map_one _ textC.nc (fun _ => rfl), sum_map_one _ dirC.nc (fun _ => rfl)]
      simp only [mf1mt451, hv.nc_eq]; omega

/-! ### MF1 MT452 and MT456 -/

/-- `std::variant< PolynomialMultiplicity, TabulatedMultiplicity >` (section/1/452.hpp 33-34) -/
inductive Nubar where
  | poly (r : LIST)
  | tab (r : TAB1)

namespace Nubar

/-- section/1/PolynomialMultiplicity.hpp 35, section/1/TabulatedMultiplicity.hpp 34 -/
def lnu : Nubar → Int
  | .poly _ => 1
  | .tab _ => 2

/-- section/1/readMultiplicity.hpp 14-33 (`LNU` is an `int`); PolynomialMultiplicity/src/ctor.hpp 35-44, TabulatedMultiplicity/src/ctor.hpp 45-54 -/
def read (lnu : Int) (t : Nums) : Parser Nubar :=
  if toInt32 lnu = 1 then do
    let r ← readLIST t
    pure (.poly r)
  else if toInt32 lnu = 2 then do
    let r ← readTAB1 t
    pure (.tab r)
  else Parser.fail .exc

def print : Nubar → Nums → Text
  | .poly r, t => r.print t
  | .tab r, t => r.print t

def nc : Nubar → Nat
  | .poly r => r.nc
  | .tab r => r.nc

def Valid : Nubar → Prop
  | .poly r => r.Fits
  | .tab r => r.Fits

def reals : Nubar → List Dbl
  | .poly r => r.c1 :: r.c2 :: r.data
  | .tab r => [r.base.c1, r.base.c2] ++ (r.x ++ r.y)

theorem lnu_fits (b : Nubar) : fits 11 b.lnu := by
  cases b
  · show fits 11 1; decide
  · show fits 11 2; decide

theorem rd {b : Nubar} {t : Nums} (hv : b.Valid) (hr : Reps b.reals) (ht : t.Fit) : Rd (read b.lnu t) (b.print t) b b.nc := by
  cases b with
  | poly r => exact Rd.ite_pos (by simp [lnu, toInt32]) (Rd.bindPure (listC_law.rd hv hr ht) rfl)
  | tab r => exact Rd.ite_neg (by simp [lnu, toInt32]) (Rd.ite_pos (by simp [lnu, toInt32]) (Rd.bindPure (tab1C_law.rd hv hr ht) rfl))

theorem canon {b : Nubar} {t : Nums} (hv : b.Valid) (ht : t.Fit) : CanonicalText t b.nc (b.print t) := by
  cases b with
  | poly r => exact listC_law.canon hv ht
  | tab r => exact tab1C_law.canon hv ht

theorem reads (l : Int) (t : Nums) : Reads StdErr (fun b ls => Nubar.Valid b ∧ AllTail t ls ∧ ls.length = b.nc) (read l t) :=
  RvK.toReads (RvK.ite (fun _ => RvK.bind (listC_law.reads t) fun r hr => RvK.pure hr (by simp [listC, nc]))
    fun _ => RvK.ite (fun _ => RvK.bind (tab1C_law.reads t) fun r hr => RvK.pure hr (by simp [tab1C, nc])) fun _ => RvK.fail rfl)

end Nubar

/-- section::Type< 1, 452 > and section::Type< 1, 456 >: section/1/452/src/ctor.hpp 30-44, print.hpp 10-19, section/1/452.hpp 68-71; 456 is identical.
    The records are expected to have the MT number of the HEAD record. -/
def mf1nubar (mt : Int) : SecDef Nubar where
  mf := 1
  fixedMT := some mt
  recHeadMT := true
  head := fun b => (0, b.lnu, 0, 0)
  read := fun head t => Nubar.read head.base.l2 t
  body := fun _ => Nubar.print
  nc := Nubar.nc
  Valid := Nubar.Valid
  reals := Nubar.reals

theorem mf1nubar_law {mt : Int} (h1 : 1 ≤ mt) (h2 : mt < 1000) : (mf1nubar mt).Law where
  mf_pos := by simp [mf1nubar]
  mt_fits := by
    intro m h
    simp [mf1nubar] at h
    subst h
    simp [fits]; omega
  head_fits := fun _ => ⟨fits0, Nubar.lnu_fits _, fits0, fits0⟩
  round := by
    intro b t awr head hv ha hr ht hh _
    simp only [mf1nubar, Prod.mk.injEq] at hh
    have := Nubar.rd hv hr ht
    rw [← hh.2.1] at this
    exact this
  canon := fun _ hv ht => Nubar.canon hv ht
  reads := fun head t _ => Nubar.reads _ t

/-! ### MF1 MT455 -/

/-- section/1/455/DecayConstants/src/ctor.hpp 31-42, verifySize.hpp 1-11 -/
def decayC : Comp LIST := listC.checked (fun r => ¬(asInt r.data.length = 0 ∨ asInt r.data.length % 2 ≠ 0))

theorem decayC_law : decayC.Law := Comp.checked_law listC_law _

/-- `NNF()`, section/1/455/DecayConstants.hpp 23 (`int` division) -/
def nnf (r : LIST) : Int := (asInt r.data.length).tdiv 2

/-- section/1/455/EnergyDependentConstants/src/ctor.hpp 46-60, verify.hpp 1-15 -/
def decayDepC : Comp (ISeq LIST) := (iseqC decayC).checked (fun r => ∀ x ∈ r.seq, some (nnf x) = (r.seq.head?).map nnf)

theorem decayDepC_law : decayDepC.Law := Comp.checked_law (iseqC_law decayC_law) _

/-- section/1/455.hpp 36-45 -/
inductive Decay where
  | indep (r : LIST)
  | dep (r : ISeq LIST)

namespace Decay

/-- section/1/455/EnergyIndependentConstants.hpp, EnergyDependentConstants.hpp -/
def ldg : Decay → Int
  | .indep _ => 0
  | .dep _ => 1

/-- section/1/455/src/readDecayConstantData.hpp 1-21; EnergyIndependentConstants/src/ctor.hpp 36-45 -/
def read (ldg : Int) (t : Nums) : Parser Decay :=
  if toInt32 ldg = 0 then do
    let r ← readLIST t
    pure (.indep r)
  else if toInt32 ldg = 1 then do
    let r ← decayDepC.read t
    pure (.dep r)
  else Parser.fail .exc

def print : Decay → Nums → Text
  | .indep r, t => r.print t
  | .dep r, t => r.print LIST.print t

def nc : Decay → Nat
  | .indep r => r.nc
  | .dep r => r.nc LIST.nc

def Valid : Decay → Prop
  | .indep r => r.Fits
  | .dep r => decayDepC.Valid r

def reals : Decay → List Dbl
  | .indep r => listC.reals r
  | .dep r => decayDepC.reals r

theorem ldg_fits (b : Decay) : fits 11 b.ldg := by
  cases b
  · show fits 11 0; decide
  · show fits 11 1; decide

theorem rd {b : Decay} {t : Nums} (hv : b.Valid) (hr : Reps b.reals) (ht : t.Fit) : Rd (read b.ldg t) (b.print t) b b.nc := by
  cases b with
  | indep r => exact Rd.ite_pos (by simp [ldg, toInt32]) (Rd.bindPure (listC_law.rd hv hr ht) rfl)
  | dep r => exact Rd.ite_neg (by simp [ldg, toInt32]) (Rd.ite_pos (by simp [ldg, toInt32]) (Rd.bindPure (decayDepC_law.rd hv hr ht) rfl))

theorem canon {b : Decay} {t : Nums} (hv : b.Valid) (ht : t.Fit) : CanonicalText t b.nc (b.print t) := by
  cases b with
  | indep r => exact listC_law.canon hv ht
  | dep r => exact decayDepC_law.canon hv ht

theorem reads (l : Int) (t : Nums) : Reads StdErr (fun b ls => Decay.Valid b ∧ AllTail t ls ∧ ls.length = b.nc) (read l t) :=
  RvK.toReads (RvK.ite (fun _ => RvK.bind (listC_law.reads t) fun r hr => RvK.pure hr (by simp [listC, nc]))
    fun _ => RvK.ite (fun _ => RvK.bind (decayDepC_law.reads t) fun r hr => RvK.pure hr (by simp [nc]; rfl)) fun _ => RvK.fail rfl)

end Decay

/-- section/1/455.hpp 49-50 -/
structure Delayed where
  lambda : Decay
  nubar : Nubar

/-- section::Type< 1, 455 >: section/1/455/src/ctor.hpp 27-64 (MAT and MF of the HEAD record are not compared), print.hpp 10-22, section/1/455.hpp 92-97 -/
def mf1mt455 : SecDef Delayed where
  mf := 1
  fixedMT := some 455
  checksHead := false
  head := fun b => (b.lambda.ldg, b.nubar.lnu, 0, 0)
  read := fun head t => do
    let lambda ← Decay.read head.base.l1 t
    let nubar ← Nubar.read head.base.l2 t
    pure ⟨lambda, nubar⟩
  body := fun _ b t => b.lambda.print t ++ b.nubar.print t
  nc := fun b => b.lambda.nc + b.nubar.nc
  Valid := fun b => b.lambda.Valid ∧ b.nubar.Valid
  reals := fun b => b.lambda.reals ++ b.nubar.reals

theorem mf1mt455_law : mf1mt455.Law where
  mf_pos := by simp [mf1mt455]
  mt_fits := by simp [mf1mt455]; decide
  head_fits := fun _ => ⟨Decay.ldg_fits _, Nubar.lnu_fits _, fits0, fits0⟩
  round := by
    intro b t awr head hv ha hr ht hh _
    simp only [mf1mt455, Prod.mk.injEq] at hh
    obtain ⟨r1, r2⟩ := reps_append.mp hr
    have h1 := Decay.rd hv.1 r1 ht
    have h2 := Nubar.rd hv.2 r2 ht
    rw [← hh.1] at h1
    rw [← hh.2.1] at h2
    exact Rd.bind h1 (Rd.bindPure h2 rfl)
  canon := fun _ hv ht => (Decay.canon hv.1 ht).append (Nubar.canon hv.2 ht)
  reads := fun head t _ => RvK.toReads (RvK.bind (Decay.reads _ t) fun a ha => RvK.bind (Nubar.reads _ t) fun b hb =>
    RvK.pure ⟨ha, hb⟩ (by simp [mf1mt455]))

end ENDFtk

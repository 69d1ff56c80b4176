import Verif.Section.MF12
/-
  The section types of files 31, 33, 34, 35 and 40, and section 152 of file 2.
-/
set_option linter.unusedVariables false
set_option linter.unusedSectionVars false
set_option linter.unusedSimpArgs false
namespace ENDFtk
variable [Disco]

/-! ### components of the covariance files -/

/-- A loop `for ( int i = 0; i < n; ++i )` reading components. -/
def manyC {α : Type} (c : Comp α) (n : Int) : Comp (List α) where
  read := fun t => readMany (c.read t) n.toNat
  print := fun xs t => xs.flatMap (fun x => c.print x t)
  nc := fun xs => (xs.map c.nc).sum
  Valid := fun xs => n.toNat = xs.length ∧ ∀ x ∈ xs, c.Valid x
  reals := fun xs => xs.flatMap c.reals

theorem manyC_law {α : Type} {c : Comp α} {E : Err → Prop} (hc : c.Law E) (n : Int) : (manyC c n).Law E where
  round := by
    intro xs t hv hr ht s m
    have h := readMany_print (p := c.read t) (pr := fun x => c.print x t) (nc := c.nc) (xs := xs)
      (fun x hx => hc.rd (hv.2 x hx) (reps_flatMap.mp hr x hx) ht) s m
    show readMany (c.read t) n.toNat _ = _
    rw [hv.1]; exact h
  canon := fun hv ht => hc.flatMap hv.2 ht
  reads := fun t => (readMany_reads (hc.reads t) n.toNat).post (by
    rintro xs ls ⟨h1, bs, rfl, h3⟩
    exact ⟨⟨h1.symm, (RvK.all2 h3).1⟩, (RvK.all2 h3).2⟩)

/-- section/CovariancePairs/src/ctor.hpp 14-19, verifyLB.hpp 1-37, verifySize.hpp 1-11 (LB, LT, NT and NP are narrowed to `int`; `2*NP` may
    overflow) -/
def covariancePairsCheck (l : LIST) : Except Err Unit :=
  let lb := toInt32 l.l2
  let lt := toInt32 l.l1
  if lb = 0 ∨ lb = 1 ∨ lb = 2 ∨ lb = 8 ∨ lb = 9 then
    if lt ≠ 0 then .error .exc
    else if Over (2 * toInt32 l.n2) then .error .ub
    else if toInt32 l.npl ≠ 2 * toInt32 l.n2 then .error .exc else .ok ()
  else if lb = 3 ∨ lb = 4 then
    if lt ≤ 0 then .error .exc
    else if Over (2 * toInt32 l.n2) then .error .ub
    else if toInt32 l.npl ≠ 2 * toInt32 l.n2 then .error .exc else .ok ()
  else .error .exc

/-- section/SquareMatrix/src/verifySize.hpp 1-30: LS, NE and NT are `int`, and every operation may overflow -/
def squareSizeCheck (ls ne nt : Int) : Except Err Unit :=
  let num := nt - ne
  if Over (nt - ne) ∨ Over (ne - 1) then .error .ub
  else if ls ≠ 0 then
    if Over (ne * (ne - 1)) then .error .ub
    else if num ≠ Int.tdiv (ne * (ne - 1)) 2 then .error .exc else .ok ()
  else if Over ((ne - 1) * (ne - 1)) then .error .ub
  else if num ≠ (ne - 1) * (ne - 1) then .error .exc else .ok ()

/-- section/SquareMatrix/src/ctor.hpp 14-19, verifyLB.hpp 1-11 -/
def squareMatrixCheck (l : LIST) : Except Err Unit :=
  if toInt32 l.l2 ≠ 5 then .error .exc
  else squareSizeCheck (toInt32 l.l1) (toInt32 l.n2) (toInt32 l.npl)

/-- section/RectangularMatrix/src/ctor.hpp 14-19, verifyLB.hpp 1-11, verifySize.hpp 7-20: for NER = 0 there is a division by zero
    (undefined behaviour).  (NT - 1 cannot overflow, as NT is the size of a vector, unless that is larger than 2147483647.) -/
def rectangularMatrixCheck (l : LIST) : Except Err Unit :=
  if toInt32 l.l2 ≠ 6 then .error .exc
  else if toInt32 l.n2 = 0 then .error .ub
  else if Int.tmod (toInt32 l.npl - 1) (toInt32 l.n2) ≠ 0 then .error .exc
  else .ok ()

/-- section/ExplicitCovariance.hpp 51-81: the `switch` on L2 (a `long`) selects the type of the covariance data; all three are LIST records -/
def explicitCheck (l : LIST) : Except Err Unit :=
  if l.l2 = 0 ∨ l.l2 = 1 ∨ l.l2 = 2 ∨ l.l2 = 3 ∨ l.l2 = 4 ∨ l.l2 = 8 ∨ l.l2 = 9 then covariancePairsCheck l
  else if l.l2 = 5 then squareMatrixCheck l
  else if l.l2 = 6 then rectangularMatrixCheck l
  else .error .exc

/-- section/ExplicitCovariance.hpp 19-21, 49-81 -/
def explicitC : Comp LIST := listC.checkedE explicitCheck

theorem squareSizeCheck_err {ls ne nt : Int} {e : Err} (h : squareSizeCheck ls ne nt = .error e) : UbErr e := by
  unfold squareSizeCheck at h
  simp only at h
  split at h
  · cases h; exact .inr rfl
  split at h
  · split at h
    · cases h; exact .inr rfl
    split at h
    · cases h; exact .inl rfl
    · cases h
  · split at h
    · cases h; exact .inr rfl
    split at h
    · cases h; exact .inl rfl
    · cases h

theorem covariancePairsCheck_err {l : LIST} {e : Err} (h : covariancePairsCheck l = .error e) : UbErr e := by
  unfold covariancePairsCheck at h
  simp only at h
  split at h
  · split at h
    · cases h; exact .inl rfl
    split at h
    · cases h; exact .inr rfl
    · split at h
      · cases h; exact .inl rfl
      · cases h
  · split at h
    · split at h
      · cases h; exact .inl rfl
      split at h
      · cases h; exact .inr rfl
      · split at h
        · cases h; exact .inl rfl
        · cases h
    · cases h; exact .inl rfl

theorem squareMatrixCheck_err {l : LIST} {e : Err} (h : squareMatrixCheck l = .error e) : UbErr e := by
  unfold squareMatrixCheck at h
  split at h
  · cases h; exact .inl rfl
  · exact squareSizeCheck_err h

theorem rectangularMatrixCheck_err {l : LIST} {e : Err} (h : rectangularMatrixCheck l = .error e) : UbErr e := by
  unfold rectangularMatrixCheck at h
  split at h
  · cases h; exact .inl rfl
  split at h
  · cases h; exact .inr rfl
  split at h
  · cases h; exact .inl rfl
  · cases h

theorem explicitC_law : explicitC.Law UbErr := by
  refine Comp.checkedE_law (E1 := StdErr) listC_law _ ?_
  intro a e h
  unfold explicitCheck at h
  split at h
  · exact covariancePairsCheck_err h
  split at h
  · exact squareMatrixCheck_err h
  split at h
  · exact rectangularMatrixCheck_err h
  · cases h; exact .inl rfl

/-- section/DerivedCovariance.hpp 15-16: DerivedRedundant (section/DerivedRedundant.hpp 26) or DerivedRatioToStandard
    (section/DerivedRatioToStandard.hpp 26-27) -/
inductive Derived where
  | redundant (list : LIST)
  | ratio (lty : Int) (list : LIST)

/-- section/DerivedRedundant.hpp 42, section/DerivedRatioToStandard.hpp 43 -/
def Derived.lty : Derived → Int
  | .redundant _ => 0
  | .ratio lty _ => lty

def Derived.list : Derived → LIST
  | .redundant l => l
  | .ratio _ l => l

/-- A turn of the loop of section/ReactionBlock/src/readNC.hpp 13-41 with section/DerivedRedundant/src/ctor.hpp 16-23,
    section/DerivedRatioToStandard/src/ctor.hpp 15-23; the two print.hpp 11-16 and NC.hpp 4 -/
def derivedC : Comp Derived where
  read := fun t => do
    let c ← readCont t
    if c.l2 = 0 then do
      let l ← readLIST t
      pure (.redundant l)
    else if c.l2 = 1 ∨ c.l2 = 2 ∨ c.l2 = 3 then do
      let l ← readLIST t
      pure (.ratio c.l2 l)
    else Parser.fail .exc
  print := fun d t => printCont ⟨Disco.zero, Disco.zero, 0, d.lty, 0, 0⟩ t ++ d.list.print t
  nc := fun d => 1 + d.list.nc
  Valid := fun d => d.list.Fits ∧ match d with
    | .redundant _ => True
    | .ratio lty _ => lty = 1 ∨ lty = 2 ∨ lty = 3
  reals := fun d => [Disco.zero, Disco.zero] ++ listC.reals d.list

theorem fits_small' {n : Int} (h0 : 0 ≤ n) (h1 : n < 10) : fits 11 n := by
  apply fits_of_int32; constructor <;> omega

theorem derivedC_law : derivedC.Law where
  round := by
    intro d t hv hr ht
    have hr : Reps ([Disco.zero, Disco.zero] ++ listC.reals d.list) := hr
    rw [reps_append] at hr
    cases d with
    | redundant l =>
      exact Rd.bind (contC_law.rd (a := ⟨Disco.zero, Disco.zero, 0, 0, 0, 0⟩) ⟨fits0, fits0, fits0, fits0⟩ hr.1 ht)
        (Rd.ite_pos rfl (Rd.bindPure (listC_law.rd hv.1 hr.2 ht) rfl))
    | ratio lty l =>
      have h2 : lty = 1 ∨ lty = 2 ∨ lty = 3 := hv.2
      exact Rd.bind (contC_law.rd (a := ⟨Disco.zero, Disco.zero, 0, lty, 0, 0⟩) ⟨fits0, fits_small' (n := lty) (by omega) (by omega), fits0, fits0⟩ hr.1 ht)
        (Rd.ite_neg (by simp only; omega) (Rd.ite_pos h2 (Rd.bindPure (listC_law.rd hv.1 hr.2 ht) rfl)))
  canon := by
    intro d t hv ht
    refine (contC_law.canon (a := ⟨Disco.zero, Disco.zero, 0, d.lty, 0, 0⟩) ⟨fits0, ?_, fits0, fits0⟩ ht).append (listC_law.canon hv.1 ht)
    cases d with
    | redundant l => exact fits0
    | ratio lty l =>
      have h2 : lty = 1 ∨ lty = 2 ∨ lty = 3 := hv.2
      exact fits_small' (by simp only [Derived.lty]; omega) (by simp only [Derived.lty]; omega)
  reads := fun t => RvK.toReads (RvK.bind (contC_law.reads t) fun c hc =>
    RvK.ite (fun _ => RvK.bind (listC_law.reads t) fun l hl => RvK.pure ⟨hl, trivial⟩ (by simp [derivedC, contC, listC, Derived.list])) fun _ =>
    RvK.ite (fun h => RvK.bind (listC_law.reads t) fun l hl => RvK.pure ⟨hl, h⟩ (by simp [derivedC, contC, listC, Derived.list])) fun _ => RvK.fail rfl)

/-- section/ReactionBlock.hpp 36-41 -/
structure ReactionBlock where
  xmf1 : Int
  xlfs1 : Int
  mat1 : Int
  mt1 : Int
  derived : List Derived
  explicit : List LIST

/-- section/ReactionBlock/src/print.hpp 15-16 (`NK()` and `NI()` are `int`, ReactionBlock.hpp 96, 106) -/
def ReactionBlock.cont (b : ReactionBlock) : Cont :=
  ⟨Disco.ofInt b.xmf1, Disco.ofInt b.xlfs1, b.mat1, b.mt1, asInt b.derived.length, asInt b.explicit.length⟩

/-- section/ReactionBlock: src/ctor.hpp 55-105 (the rounded reals are converted to `int`, as in `headZA`), readNC.hpp 1-47, print.hpp 11-32,
    NC.hpp 4-24 -/
def reactionBlockC : Comp ReactionBlock where
  read := fun t => Parser.mapErr catchStd do
    let c ← readCont t
    let d ← (manyC derivedC (toInt32 c.n1)).read t
    let e ← (seqC explicitC c.n2).read t
    pure ⟨toInt32 (Disco.round c.c1), toInt32 (Disco.round c.c2), toInt32 c.l1, toInt32 c.l2, d, e⟩
  print := fun b t => printCont b.cont t ++ (b.derived.flatMap (fun x => derivedC.print x t) ++ b.explicit.flatMap (fun x => explicitC.print x t))
  nc := fun b => 1 + ((b.derived.map derivedC.nc).sum + (b.explicit.map explicitC.nc).sum)
  Valid := fun b => IsInt32 b.xmf1 ∧ IsInt32 b.xlfs1 ∧ IsInt32 b.mat1 ∧ IsInt32 b.mt1 ∧
    (b.derived.length : Int) < 2147483648 ∧ (b.explicit.length : Int) < 2147483648 ∧
    (∀ x ∈ b.derived, derivedC.Valid x) ∧ ∀ x ∈ b.explicit, explicitC.Valid x
  reals := fun b => [Disco.ofInt b.xmf1, Disco.ofInt b.xlfs1] ++ (b.derived.flatMap derivedC.reals ++ b.explicit.flatMap explicitC.reals)

theorem asInt_nat {n : Nat} (h : (n : Int) < 2147483648) : asInt n = n := toInt32_nat h

theorem reactionBlock_cont_fits {b : ReactionBlock} (hv : reactionBlockC.Valid b) : b.cont.Fits :=
  ⟨fits_of_int32 hv.2.2.1, fits_of_int32 hv.2.2.2.1, fits_asInt _, fits_asInt _⟩

theorem reactionBlockC_law : reactionBlockC.Law UbErr where
  round := by
    rintro b t ⟨v1, v2, v3, v4, v5, v6, v7, v8⟩ hr ht
    have hr : Reps ([Disco.ofInt b.xmf1, Disco.ofInt b.xlfs1] ++ (b.derived.flatMap derivedC.reals ++ b.explicit.flatMap explicitC.reals)) := hr
    rw [reps_append, reps_append] at hr
    refine Rd.mapErr (Rd.bind (contC_law.rd (a := b.cont) (reactionBlock_cont_fits ⟨v1, v2, v3, v4, v5, v6, v7, v8⟩) hr.1 ht)
      (Rd.bind ((manyC_law derivedC_law _).rd (a := b.derived) ⟨?_, v7⟩ hr.2.1 ht)
      (Rd.bindPure ((seqC_law explicitC_law _).rd (a := b.explicit) ⟨?_, v8⟩ hr.2.2 ht) ?_)))
    · simp only [ReactionBlock.cont, asInt, toInt32_toInt32, toInt32_nat v5]; omega
    · simp only [ReactionBlock.cont, asInt, toInt32_toInt32, toInt32_nat v6]
    · simp only [ReactionBlock.cont, Disco.round_ofInt _ v1.1 v1.2, Disco.round_ofInt _ v2.1 v2.2, toInt32_of v1, toInt32_of v2,
        toInt32_of v3, toInt32_of v4]
  canon := fun hv ht => (contC_law.canon (reactionBlock_cont_fits hv) ht).append
    ((derivedC_law.flatMap hv.2.2.2.2.2.2.1 ht).append (explicitC_law.flatMap hv.2.2.2.2.2.2.2 ht))
  reads := fun t => RvK.toReads (RvK.mapErr (fun e => ErrOk.again e) (RvK.bind (contC_law.reads t) fun c hc =>
    RvK.bind ((manyC_law derivedC_law _).reads t) fun d hd => RvK.bind ((seqC_law explicitC_law _).reads t) fun e he => RvK.pure
      ⟨isInt32_toInt32 _, isInt32_toInt32 _, isInt32_toInt32 _, isInt32_toInt32 _, by
        have h1 := hd.1
        have h2 := (toInt32_range c.n1).2
        simp only
        omega, lt_of_count he.1.symm, hd.2, he.2⟩
      (by simp [reactionBlockC, contC, manyC, seqC]; omega)))

/-! ### MF31 and MF33 -/

/-- section::Type< 31 >: section/31/src/ctor.hpp 25-42, print.hpp 10-18, NC.hpp 4-9 (`NL()` is an `int`, section/31.hpp 52) -/
def mf31 : SecDef (List ReactionBlock) where
  mf := 31
  fixedMT := none
  head := fun b => (0, 0, 0, asInt b.length)
  read := fun head t => (seqC reactionBlockC head.base.n2).read t
  body := fun _ b t => b.flatMap (fun x => reactionBlockC.print x t)
  nc := fun b => (b.map reactionBlockC.nc).sum
  Valid := fun b => (b.length : Int) < 2147483648 ∧ ∀ x ∈ b, reactionBlockC.Valid x
  reals := fun b => b.flatMap reactionBlockC.reals

theorem mf31_law : mf31.Law UbErr where
  mf_pos := by simp [mf31]
  mt_fits := by simp [mf31]
  head_fits := fun hv => ⟨fits0, fits0, fits0, fits_asInt _⟩
  round := by
    rintro b t awr head ⟨v1, v2⟩ ha hr ht hh _
    simp only [mf31, Prod.mk.injEq] at hh
    exact (seqC_law reactionBlockC_law _).rd ⟨by rw [hh.2.2.2, asInt, toInt32_toInt32, toInt32_nat v1], v2⟩ hr ht
  canon := fun _ hv ht => reactionBlockC_law.flatMap hv.2 ht
  reads := fun head t _ => ((seqC_law reactionBlockC_law _).reads t).post (by
    rintro b ls ⟨h1, h2, h3⟩
    exact ⟨⟨lt_of_count h1.1.symm, h1.2⟩, h2, h3⟩)

/-- section::Type< 33 >: section/33/src/ctor.hpp 36-53, print.hpp 10-18, NC.hpp 4-9, section/33.hpp 35-36 -/
def mf33 : SecDef (Int × List ReactionBlock) where
  mf := 33
  fixedMT := none
  head := fun b => (0, b.1, 0, asInt b.2.length)
  read := fun head t => do
    let b ← (seqC reactionBlockC head.base.n2).read t
    pure (toInt32 head.base.l2, b)
  body := fun _ b t => b.2.flatMap (fun x => reactionBlockC.print x t)
  nc := fun b => (b.2.map reactionBlockC.nc).sum
  Valid := fun b => IsInt32 b.1 ∧ (b.2.length : Int) < 2147483648 ∧ ∀ x ∈ b.2, reactionBlockC.Valid x
  reals := fun b => b.2.flatMap reactionBlockC.reals

theorem mf33_law : mf33.Law UbErr where
  mf_pos := by simp [mf33]
  mt_fits := by simp [mf33]
  head_fits := fun hv => ⟨fits0, fits_of_int32 hv.1, fits0, fits_asInt _⟩
  round := by
    rintro b t awr head ⟨v1, v2, v3⟩ ha hr ht hh _
    simp only [mf33, Prod.mk.injEq] at hh
    exact Rd.bindPure ((seqC_law reactionBlockC_law _).rd ⟨by rw [hh.2.2.2, asInt, toInt32_toInt32, toInt32_nat v2], v3⟩ hr ht)
      (by rw [hh.2.1, toInt32_of v1])
  canon := fun _ hv ht => reactionBlockC_law.flatMap hv.2.2 ht
  reads := fun head t _ => RvK.toReads (RvK.bind ((seqC_law reactionBlockC_law _).reads t) fun b hb =>
    RvK.pure ⟨isInt32_toInt32 _, lt_of_count hb.1.symm, hb.2⟩ (by simp [mf33, seqC]))

/-! ### MF34 -/

/-- section/34/LegendreBlock.hpp 14-17 -/
structure LegendreBlock where
  order : Int
  order1 : Int
  lct : Int
  data : List LIST

/-- section/34/LegendreBlock/src/ctor.hpp 17-53, print.hpp 11-25, NC.hpp 4-17 -/
def legendreBlockC : Comp LegendreBlock where
  read := fun t => Parser.mapErr catchStd do
    let c ← readCont t
    let e ← (seqC explicitC c.n2).read t
    pure ⟨toInt32 c.l1, toInt32 c.l2, toInt32 c.n1, e⟩
  print := fun b t => printCont ⟨Disco.zero, Disco.zero, b.order, b.order1, b.lct, asInt b.data.length⟩ t ++ b.data.flatMap (fun x => explicitC.print x t)
  nc := fun b => 1 + (b.data.map explicitC.nc).sum
  Valid := fun b => IsInt32 b.order ∧ IsInt32 b.order1 ∧ IsInt32 b.lct ∧ (b.data.length : Int) < 2147483648 ∧ ∀ x ∈ b.data, explicitC.Valid x
  reals := fun b => [Disco.zero, Disco.zero] ++ b.data.flatMap explicitC.reals

theorem legendreBlockC_law : legendreBlockC.Law UbErr where
  round := by
    rintro b t ⟨v1, v2, v3, v4, v5⟩ hr ht
    have hr : Reps ([Disco.zero, Disco.zero] ++ b.data.flatMap explicitC.reals) := hr
    rw [reps_append] at hr
    refine Rd.mapErr (Rd.bind (contC_law.rd (a := ⟨Disco.zero, Disco.zero, b.order, b.order1, b.lct, asInt b.data.length⟩)
      ⟨fits_of_int32 v1, fits_of_int32 v2, fits_of_int32 v3, fits_asInt _⟩ hr.1 ht)
      (Rd.bindPure ((seqC_law explicitC_law _).rd (a := b.data) ⟨?_, v5⟩ hr.2 ht) ?_))
    · simp only [asInt, toInt32_toInt32, toInt32_nat v4]
    · simp only [toInt32_of v1, toInt32_of v2, toInt32_of v3]
  canon := fun {b t} hv ht => (contC_law.canon (a := ⟨Disco.zero, Disco.zero, b.order, b.order1, b.lct, asInt b.data.length⟩)
    ⟨fits_of_int32 hv.1, fits_of_int32 hv.2.1, fits_of_int32 hv.2.2.1, fits_asInt _⟩ ht).append (explicitC_law.flatMap hv.2.2.2.2 ht)
  reads := fun t => RvK.toReads (RvK.mapErr (fun e => ErrOk.again e) (RvK.bind (contC_law.reads t) fun c hc =>
    RvK.bind ((seqC_law explicitC_law _).reads t) fun e he => RvK.pure
      ⟨isInt32_toInt32 _, isInt32_toInt32 _, isInt32_toInt32 _, lt_of_count he.1.symm, he.2⟩
      (by simp [legendreBlockC, contC, seqC])))

/-- section/34/ReactionBlock.hpp 14-17 -/
structure ReactionBlock34 where
  mt1 : Int
  nl : Int
  nl1 : Int
  blocks : List LegendreBlock

/-- section/34/ReactionBlock/src/verifySize.hpp 1-35: it does not return if a product overflows -/
def legendreSizeOk (nl nl1 nss : Int) (diag : Bool) : Bool :=
  if diag then nl == nl1 && !decide (Over (nl * (nl + 1))) && Int.tdiv (nl * (nl + 1)) 2 == nss
  else nl * nl1 == nss

/-- A product overflows: section/34/ReactionBlock/src/verifySize.hpp 14, 25 -/
def legendreSizeOv (nl nl1 : Int) (diag : Bool) : Prop :=
  if diag then nl = nl1 ∧ Over (nl * (nl + 1)) else Over (nl * nl1)

instance (nl nl1 : Int) (diag : Bool) : Decidable (legendreSizeOv nl nl1 diag) := by unfold legendreSizeOv; exact inferInstance

/-- section/34/ReactionBlock: src/ctor.hpp 11-58, readLegendreBlocks.hpp 1-16 (MT is compared with the `long` L2, the size is narrowed to `int`),
    print.hpp 11-22, NC.hpp 4-14.  `mt` is the MT number of the section. -/
def reactionBlock34C (mt : Int) : Comp ReactionBlock34 where
  read := fun t => Parser.mapErr catchStd do
    let c ← readCont t
    let bs ← (seqC legendreBlockC (toInt32 (if mt = c.l2 then Int.tdiv (c.n1 * (c.n2 + 1)) 2 else c.n1 * c.n2))).read t
    if legendreSizeOk (toInt32 c.n1) (toInt32 c.n2) (asInt bs.length) (mt == toInt32 c.l2) then
      pure ⟨toInt32 c.l2, toInt32 c.n1, toInt32 c.n2, bs⟩
    else Parser.fail (if legendreSizeOv (toInt32 c.n1) (toInt32 c.n2) (mt == toInt32 c.l2) then .ub else .exc)
  print := fun b t => printCont ⟨Disco.zero, Disco.zero, 0, b.mt1, b.nl, b.nl1⟩ t ++ b.blocks.flatMap (fun x => legendreBlockC.print x t)
  nc := fun b => 1 + (b.blocks.map legendreBlockC.nc).sum
  Valid := fun b => (IsInt32 b.mt1 ∧ IsInt32 b.nl ∧ IsInt32 b.nl1 ∧ (b.blocks.length : Int) < 2147483648 ∧ ∀ x ∈ b.blocks, legendreBlockC.Valid x) ∧
    legendreSizeOk b.nl b.nl1 b.blocks.length (mt == b.mt1) = true
  reals := fun b => [Disco.zero, Disco.zero] ++ b.blocks.flatMap legendreBlockC.reals

/-- What does not depend on MT. -/
def ReactionBlock34.Ok (b : ReactionBlock34) : Prop :=
  IsInt32 b.mt1 ∧ IsInt32 b.nl ∧ IsInt32 b.nl1 ∧ (b.blocks.length : Int) < 2147483648 ∧ ∀ x ∈ b.blocks, legendreBlockC.Valid x

theorem reactionBlock34_canon {b : ReactionBlock34} {mt : Int} {t : Nums} (hv : b.Ok) (ht : t.Fit) :
    CanonicalText t ((reactionBlock34C mt).nc b) ((reactionBlock34C mt).print b t) :=
  (contC_law.canon (a := ⟨Disco.zero, Disco.zero, 0, b.mt1, b.nl, b.nl1⟩)
    ⟨fits0, fits_of_int32 hv.1, fits_of_int32 hv.2.1, fits_of_int32 hv.2.2.1⟩ ht).append (legendreBlockC_law.flatMap hv.2.2.2.2 ht)

theorem reactionBlock34C_law (mt : Int) : (reactionBlock34C mt).Law UbErr where
  round := by
    rintro b t ⟨⟨v1, v2, v3, v4, v5⟩, v6⟩ hr ht
    have hr : Reps ([Disco.zero, Disco.zero] ++ b.blocks.flatMap legendreBlockC.reals) := hr
    rw [reps_append] at hr
    refine Rd.mapErr (Rd.bind (contC_law.rd (a := ⟨Disco.zero, Disco.zero, 0, b.mt1, b.nl, b.nl1⟩)
      ⟨fits0, fits_of_int32 v1, fits_of_int32 v2, fits_of_int32 v3⟩ hr.1 ht)
      (Rd.bindPure ((seqC_law legendreBlockC_law _).rd (a := b.blocks) ⟨?_, v5⟩ hr.2 ht) ?_))
    · have key : (if mt = b.mt1 then Int.tdiv (b.nl * (b.nl1 + 1)) 2 else b.nl * b.nl1) = b.blocks.length := by
        unfold legendreSizeOk at v6
        by_cases hm : mt = b.mt1
        · simp [hm] at v6 ⊢
          rw [← v6.1.1]; exact v6.2
        · simp [hm] at v6 ⊢
          exact v6
      simp only [key, toInt32_nat v4]
    · simp only [toInt32_of v1, toInt32_of v2, toInt32_of v3, asInt, toInt32_nat v4, v6, if_true]
  canon := fun hv ht => reactionBlock34_canon hv.1 ht
  reads := fun t => RvK.toReads (RvK.mapErr (fun e => ErrOk.again e) (RvK.bind (contC_law.reads t) fun c hc =>
    RvK.bind ((seqC_law legendreBlockC_law _).reads t) fun bs hb => RvK.ite (fun h => RvK.pure
      ⟨⟨isInt32_toInt32 _, isInt32_toInt32 _, isInt32_toInt32 _, lt_of_count hb.1.symm, hb.2⟩, by
        rw [asInt, toInt32_nat (lt_of_count hb.1.symm)] at h; exact h⟩
      (by simp [reactionBlock34C, contC, seqC])) fun _ => RvK.fail ubErr_ite))

/-- section::Type< 34 >: section/34/src/ctor.hpp 26-44, print.hpp 10-18, NC.hpp 4-9, section/34.hpp 43-44 -/
def mf34 : SecDef (Int × List ReactionBlock34) where
  mf := 34
  fixedMT := none
  head := fun b => (0, b.1, 0, asInt b.2.length)
  read := fun head t => do
    let b ← (seqC (reactionBlock34C t.mt) head.base.n2).read t
    pure (toInt32 head.base.l2, b)
  body := fun _ b t => b.2.flatMap (fun x => (reactionBlock34C t.mt).print x t)
  nc := fun b => (b.2.map (reactionBlock34C 0).nc).sum
  Valid := fun b => IsInt32 b.1 ∧ (b.2.length : Int) < 2147483648 ∧ ∀ x ∈ b.2, x.Ok
  reals := fun b => b.2.flatMap (reactionBlock34C 0).reals
  mtOk := fun mt b => ∀ x ∈ b.2, legendreSizeOk x.nl x.nl1 x.blocks.length (mt == x.mt1) = true

theorem reads_ok {α : Type} {E : Err → Prop} {Q : α → List Text → Prop} {p : Parser α} (h : Reads E Q p) {s s' : St} {a : α}
    (hp : p s = .ok (a, s')) : ∃ ls, Q a ls := by
  obtain ⟨ls, _, _, h3⟩ := h.ok hp
  exact ⟨ls, h3⟩

theorem mf34_law : mf34.Law UbErr where
  mf_pos := by simp [mf34]
  mt_fits := by simp [mf34]
  head_fits := fun hv => ⟨fits0, fits_of_int32 hv.1, fits0, fits_asInt _⟩
  round := by
    rintro b t awr head ⟨v1, v2, v3⟩ ha hr ht hh hm
    simp only [mf34, Prod.mk.injEq] at hh
    exact Rd.bindPure ((seqC_law (reactionBlock34C_law t.mt) _).rd ⟨by rw [hh.2.2.2, asInt, toInt32_toInt32, toInt32_nat v2],
      fun x hx => ⟨v3 x hx, hm x hx⟩⟩ hr ht) (by rw [hh.2.1, toInt32_of v1])
  canon := fun {b t} _ hv ht => CanonicalText.flatMap (nc := (reactionBlock34C 0).nc) fun x hx => reactionBlock34_canon (mt := t.mt) (hv.2.2 x hx) ht
  reads := fun head t _ => RvK.toReads (RvK.bind ((seqC_law (reactionBlock34C_law t.mt) _).reads t) fun b hb =>
    RvK.pure ⟨isInt32_toInt32 _, lt_of_count hb.1.symm, fun x hx => (hb.2 x hx).1⟩ (by simp [mf34, seqC]; rfl))
  mt_reads := by
    intro _ head t s b s' h
    have hr : Reads UbErr (fun (b : Int × List ReactionBlock34) ls => ∀ x ∈ b.2, legendreSizeOk x.nl x.nl1 x.blocks.length (t.mt == x.mt1) = true) (mf34.read head t) := by
      refine Reads.bind ((seqC_law (reactionBlock34C_law t.mt) _).reads t) ?_
      rintro b ls ⟨hb, _, _⟩
      exact Reads.pure fun x hx => (hb.2 x hx).2
    exact (reads_ok hr h).elim fun _ h => h

/-! ### MF35 -/

/-- section/35/SquareMatrix: src/ctor.hpp 14-19, 56-68, verifyLB.hpp 1-11 -/
def squareMatrix35Check (l : LIST) : Except Err Unit :=
  if toInt32 l.l2 ≠ 7 then .error .exc
  else squareSizeCheck 1 (toInt32 l.n2) (toInt32 l.npl)

def squareMatrix35C : Comp LIST := listC.checkedE squareMatrix35Check

theorem squareMatrix35C_law : squareMatrix35C.Law UbErr := by
  refine Comp.checkedE_law (E1 := StdErr) listC_law _ ?_
  intro a e h
  unfold squareMatrix35Check at h
  split at h
  · cases h; exact .inl rfl
  · exact squareSizeCheck_err h

/-- section::Type< 35 >: section/35/src/ctor.hpp 25-43, print.hpp 10-18, NC.hpp 4-9 -/
def mf35 : SecDef (List LIST) where
  mf := 35
  fixedMT := none
  head := fun b => (0, 0, asInt b.length, 0)
  read := fun head t => (seqC squareMatrix35C head.base.n1).read t
  body := fun _ b t => b.flatMap (fun x => squareMatrix35C.print x t)
  nc := fun b => (b.map squareMatrix35C.nc).sum
  Valid := fun b => (b.length : Int) < 2147483648 ∧ ∀ x ∈ b, squareMatrix35C.Valid x
  reals := fun b => b.flatMap squareMatrix35C.reals

theorem mf35_law : mf35.Law UbErr where
  mf_pos := by simp [mf35]
  mt_fits := by simp [mf35]
  head_fits := fun hv => ⟨fits0, fits0, fits_asInt _, fits0⟩
  round := by
    rintro b t awr head ⟨v1, v2⟩ ha hr ht hh _
    simp only [mf35, Prod.mk.injEq] at hh
    exact (seqC_law squareMatrix35C_law _).rd ⟨by rw [hh.2.2.1, asInt, toInt32_toInt32, toInt32_nat v1], v2⟩ hr ht
  canon := fun _ hv ht => squareMatrix35C_law.flatMap hv.2 ht
  reads := fun head t _ => ((seqC_law squareMatrix35C_law _).reads t).post (by
    rintro b ls ⟨h1, h2, h3⟩
    exact ⟨⟨lt_of_count h1.1.symm, h1.2⟩, h2, h3⟩)

/-! ### MF40 -/

/-- section/40/LevelBlock.hpp 15-19 -/
structure LevelBlock where
  qm : Dbl
  qi : Dbl
  izap : Int
  lfs : Int
  reactions : List ReactionBlock

/-- section/40/LevelBlock: src/ctor.hpp 18-57, print.hpp 11-22, NC.hpp 4-14 -/
def levelBlockC : Comp LevelBlock where
  read := fun t => Parser.mapErr catchStd do
    let c ← readCont t
    let e ← (seqC reactionBlockC c.n2).read t
    pure ⟨c.c1, c.c2, toInt32 c.l1, toInt32 c.l2, e⟩
  print := fun b t => printCont ⟨b.qm, b.qi, b.izap, b.lfs, 0, asInt b.reactions.length⟩ t ++ b.reactions.flatMap (fun x => reactionBlockC.print x t)
  nc := fun b => 1 + (b.reactions.map reactionBlockC.nc).sum
  Valid := fun b => IsInt32 b.izap ∧ IsInt32 b.lfs ∧ (b.reactions.length : Int) < 2147483648 ∧ ∀ x ∈ b.reactions, reactionBlockC.Valid x
  reals := fun b => [b.qm, b.qi] ++ b.reactions.flatMap reactionBlockC.reals

theorem levelBlockC_law : levelBlockC.Law UbErr where
  round := by
    rintro b t ⟨v1, v2, v4, v5⟩ hr ht
    have hr : Reps ([b.qm, b.qi] ++ b.reactions.flatMap reactionBlockC.reals) := hr
    rw [reps_append] at hr
    refine Rd.mapErr (Rd.bind (contC_law.rd (a := ⟨b.qm, b.qi, b.izap, b.lfs, 0, asInt b.reactions.length⟩)
      ⟨fits_of_int32 v1, fits_of_int32 v2, fits0, fits_asInt _⟩ hr.1 ht)
      (Rd.bindPure ((seqC_law reactionBlockC_law _).rd (a := b.reactions) ⟨?_, v5⟩ hr.2 ht) ?_))
    · simp only [asInt, toInt32_toInt32, toInt32_nat v4]
    · simp only [toInt32_of v1, toInt32_of v2]
  canon := fun {b t} hv ht => (contC_law.canon (a := ⟨b.qm, b.qi, b.izap, b.lfs, 0, asInt b.reactions.length⟩)
    ⟨fits_of_int32 hv.1, fits_of_int32 hv.2.1, fits0, fits_asInt _⟩ ht).append (reactionBlockC_law.flatMap hv.2.2.2 ht)
  reads := fun t => RvK.toReads (RvK.mapErr (fun e => ErrOk.again e) (RvK.bind (contC_law.reads t) fun c hc =>
    RvK.bind ((seqC_law reactionBlockC_law _).reads t) fun e he => RvK.pure
      ⟨isInt32_toInt32 _, isInt32_toInt32 _, lt_of_count he.1.symm, he.2⟩
      (by simp [levelBlockC, contC, seqC])))

/-- section::Type< 40 >: section/40/src/ctor.hpp 26-43, print.hpp 10-18, NC.hpp 4-9, section/40.hpp 42-43 -/
def mf40 : SecDef (Int × List LevelBlock) where
  mf := 40
  fixedMT := none
  head := fun b => (b.1, 0, asInt b.2.length, 0)
  read := fun head t => do
    let b ← (seqC levelBlockC head.base.n1).read t
    pure (toInt32 head.base.l1, b)
  body := fun _ b t => b.2.flatMap (fun x => levelBlockC.print x t)
  nc := fun b => (b.2.map levelBlockC.nc).sum
  Valid := fun b => IsInt32 b.1 ∧ (b.2.length : Int) < 2147483648 ∧ ∀ x ∈ b.2, levelBlockC.Valid x
  reals := fun b => b.2.flatMap levelBlockC.reals

theorem mf40_law : mf40.Law UbErr where
  mf_pos := by simp [mf40]
  mt_fits := by simp [mf40]
  head_fits := fun hv => ⟨fits_of_int32 hv.1, fits0, fits_asInt _, fits0⟩
  round := by
    rintro b t awr head ⟨v1, v2, v3⟩ ha hr ht hh _
    simp only [mf40, Prod.mk.injEq] at hh
    exact Rd.bindPure ((seqC_law levelBlockC_law _).rd ⟨by rw [hh.2.2.1, asInt, toInt32_toInt32, toInt32_nat v2], v3⟩ hr ht)
      (by rw [hh.1, toInt32_of v1])
  canon := fun _ hv ht => levelBlockC_law.flatMap hv.2.2 ht
  reads := fun head t _ => RvK.toReads (RvK.bind ((seqC_law levelBlockC_law _).reads t) fun b hb =>
    RvK.pure ⟨isInt32_toInt32 _, lt_of_count hb.1.symm, hb.2⟩ (by simp [mf40, seqC]))

/-! ### MF2 MT152 -/

/-- section/2/152/src/verifySize.hpp 1-14: everything is narrowed to `int`; the operations that may overflow, from the left to the right -/
def dilutionOv (l : LIST) : Prop :=
  Over (toInt32 l.l1 * toInt32 l.l2) ∨ Over (toInt32 l.l1 * toInt32 l.l2 + 1) ∨ Over ((toInt32 l.l1 * toInt32 l.l2 + 1) * toInt32 l.n2) ∨
  Over ((toInt32 l.l1 * toInt32 l.l2 + 1) * toInt32 l.n2 + toInt32 l.l2)

instance : DecidablePred dilutionOv := fun l => by unfold dilutionOv; exact inferInstance

/-- section/2/152/src/verifySize.hpp 1-14: the function returns -/
def dilutionSizeOk (l : LIST) : Prop :=
  ¬dilutionOv l ∧ toInt32 l.npl = (toInt32 l.l1 * toInt32 l.l2 + 1) * toInt32 l.n2 + toInt32 l.l2

instance : DecidablePred dilutionSizeOk := fun l => by unfold dilutionSizeOk; exact inferInstance

/-- section/2/152.hpp 33-35 -/
structure Dilution where
  lssf : Bool
  interpolation : Int
  data : LIST

def dilutionC : Comp LIST := listC.checked dilutionSizeOk dilutionOv

/-- section::Type< 2, 152 >: section/2/152/src/ctor.hpp 6-12, 112-127 (`head.L1()` is converted to `bool`), print.hpp 10-19, NC.hpp 4-7 -/
def mf2mt152 : SecDef Dilution where
  mf := 2
  fixedMT := some 152
  checksHead := false
  recHeadMAT := true
  head := fun b => (if b.lssf then 1 else 0, 0, 0, b.interpolation)
  read := fun head t => do
    let l ← dilutionC.read t
    pure ⟨head.base.l1 != 0, toInt32 head.base.n2, l⟩
  body := fun _ b t => dilutionC.print b.data t
  nc := fun b => dilutionC.nc b.data
  Valid := fun b => IsInt32 b.interpolation ∧ dilutionC.Valid b.data
  reals := fun b => dilutionC.reals b.data

theorem mf2mt152_law : mf2mt152.Law UbErr where
  mf_pos := by simp [mf2mt152]
  mt_fits := by intro mt h; cases h; exact ⟨by decide, by show fits 3 152; decide⟩
  head_fits := fun {b} hv => ⟨by show fits 11 (if b.lssf then 1 else 0); split <;> decide, fits0, fits0, fits_of_int32 hv.1⟩
  round := by
    rintro b t awr head ⟨v1, v2⟩ ha hr ht hh _
    simp only [mf2mt152, Prod.mk.injEq] at hh
    refine Rd.bindPure ((Comp.checked_lawU (E1 := StdErr) listC_law _).rd v2 hr ht) ?_
    rw [hh.1, hh.2.2.2, toInt32_of v1]
    cases b with
    | mk l i d => cases l <;> rfl
  canon := fun _ hv ht => (Comp.checked_lawU (E1 := StdErr) listC_law _).canon hv.2 ht
  reads := fun head t _ => RvK.toReads (RvK.bind ((Comp.checked_lawU (E1 := StdErr) listC_law dilutionSizeOk).reads t) fun l hl =>
    RvK.pure ⟨isInt32_toInt32 _, hl⟩ (by simp [mf2mt152, dilutionC]))

end ENDFtk

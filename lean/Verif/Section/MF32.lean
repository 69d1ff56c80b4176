import Verif.Section.WLaw
/-
  The covariances of resonance parameters: section/32/151.
-/
set_option linter.unusedVariables false
set_option linter.unusedSectionVars false
set_option linter.unusedSimpArgs false
namespace ENDFtk
variable [Disco]

/-! ### records -/

/-- section/32/151/LimitedBreitWignerLValue/src/ctor.hpp 5-9, 72-86, verifySize.hpp 1-29 -/
def limitedLValueOk (l : LIST) : Prop := 1 ≤ toInt32 l.npl ∧ 1 ≤ toInt32 l.n2 ∧ toInt32 l.npl = 18 * toInt32 l.n2

/-- section/32/151/ShortRangeBreitWignerReichMooreBlockBase/src/ctor.hpp 6-10, 65-71, verifySize.hpp 1-38 -/
def shortRangeOk (l : LIST) : Prop :=
  1 ≤ toInt32 l.npl ∧ 1 ≤ toInt32 l.l1 ∧ toInt32 l.l1 ≤ 5 ∧ 1 ≤ toInt32 l.n2 ∧
  ¬Over (toInt32 l.l1 * toInt32 l.n2 * (toInt32 l.l1 * toInt32 l.n2 + 1)) ∧
  toInt32 l.npl = 6 * toInt32 l.n2 + Int.tdiv (toInt32 l.l1 * toInt32 l.n2 * (toInt32 l.l1 * toInt32 l.n2 + 1)) 2

/-- section/32/151/ShortRangeRMatrixLimitedBlock/CovarianceMatrix/src/verifySize.hpp 1-29,
    UnresolvedRelativeCovariances/CovarianceMatrix/src/verifySize.hpp 1-29 -/
def triangleOk (l : LIST) : Prop :=
  1 ≤ toInt32 l.npl ∧ 1 ≤ toInt32 l.n2 ∧ ¬Over (toInt32 l.n2 * (toInt32 l.n2 + 1)) ∧ toInt32 l.npl = Int.tdiv (toInt32 l.n2 * (toInt32 l.n2 + 1)) 2

/-- section/32/151/CompactBreitWignerUncertainties/src/verifySize.hpp 1-29, CompactReichMooreUncertainties/src/verifySize.hpp 1-29 -/
def compactOk (l : LIST) : Prop := 1 ≤ toInt32 l.npl ∧ 1 ≤ toInt32 l.n2 ∧ toInt32 l.npl = 12 * toInt32 l.n2

/-- section/32/151/CompactRMatrixLimitedUncertainties/ResonanceParameters/src/verifySize.hpp 1-21 -/
def compactRmlParametersOk (l : LIST) : Prop := 1 ≤ toInt32 l.npl ∧ Int.tmod (toInt32 l.npl) 12 = 0

instance : DecidablePred limitedLValueOk := fun l => by unfold limitedLValueOk; exact inferInstance
instance : DecidablePred shortRangeOk := fun l => by unfold shortRangeOk; exact inferInstance
instance : DecidablePred triangleOk := fun l => by unfold triangleOk; exact inferInstance
instance : DecidablePred compactOk := fun l => by unfold compactOk; exact inferInstance
instance : DecidablePred compactRmlParametersOk := fun l => by unfold compactRmlParametersOk; exact inferInstance

/-- 18 * NRS overflows: section/32/151/LimitedBreitWignerLValue/src/verifySize.hpp 21 -/
def limitedLValueOv (l : LIST) : Prop := 1 ≤ toInt32 l.npl ∧ 1 ≤ toInt32 l.n2 ∧ Over (18 * toInt32 l.n2)

/-- An operation overflows: section/32/151/ShortRangeBreitWignerReichMooreBlockBase/src/verifySize.hpp 29 -/
def shortRangeOv (l : LIST) : Prop :=
  1 ≤ toInt32 l.npl ∧ 1 ≤ toInt32 l.l1 ∧ toInt32 l.l1 ≤ 5 ∧ 1 ≤ toInt32 l.n2 ∧
  (Over (6 * toInt32 l.n2) ∨ Over (toInt32 l.l1 * toInt32 l.n2) ∨ Over (toInt32 l.l1 * toInt32 l.n2 + 1) ∨
   Over (toInt32 l.l1 * toInt32 l.n2 * (toInt32 l.l1 * toInt32 l.n2 + 1)) ∨
   Over (6 * toInt32 l.n2 + Int.tdiv (toInt32 l.l1 * toInt32 l.n2 * (toInt32 l.l1 * toInt32 l.n2 + 1)) 2))

/-- An operation overflows: section/32/151/ShortRangeRMatrixLimitedBlock/CovarianceMatrix/src/verifySize.hpp 21 -/
def triangleOv (l : LIST) : Prop :=
  1 ≤ toInt32 l.npl ∧ 1 ≤ toInt32 l.n2 ∧ (Over (toInt32 l.n2 + 1) ∨ Over (toInt32 l.n2 * (toInt32 l.n2 + 1)))

/-- 12 * NRSA overflows: section/32/151/CompactBreitWignerUncertainties/src/verifySize.hpp 21 -/
def compactOv (l : LIST) : Prop := 1 ≤ toInt32 l.npl ∧ 1 ≤ toInt32 l.n2 ∧ Over (12 * toInt32 l.n2)

instance : DecidablePred limitedLValueOv := fun l => by unfold limitedLValueOv; exact inferInstance
instance : DecidablePred shortRangeOv := fun l => by unfold shortRangeOv; exact inferInstance
instance : DecidablePred triangleOv := fun l => by unfold triangleOv; exact inferInstance
instance : DecidablePred compactOv := fun l => by unfold compactOv; exact inferInstance

/-- section/32/151/GeneralCovarianceBase/src/readSequence.hpp 16-40: L2 is tested as a `long`; then the constructors of section::CovariancePairs and
    section::SquareMatrix -/
def longRangeCheck (l : LIST) : Except Err Unit :=
  if l.l2 = -1 ∨ l.l2 = 0 ∨ l.l2 = 1 ∨ l.l2 = 2 then covariancePairsCheck l
  else if l.l2 = 5 then squareMatrixCheck l
  else .error .exc

def limitedLValueC : Comp LIST := listC.checked limitedLValueOk limitedLValueOv
/-- ShortRangeBreitWignerBlock and ShortRangeReichMooreBlock -/
def shortRangeC : Comp LIST := listC.checked shortRangeOk shortRangeOv
def triangleC : Comp LIST := listC.checked triangleOk triangleOv
def compactUncertaintiesC : Comp LIST := listC.checked compactOk compactOv
def longRangeC : Comp LIST := listC.checkedE longRangeCheck

/-! ### scattering radius uncertainties -/

/-- The uncertainty of the scattering radius is C2 of a CONT record: section/32/151/GeneralSingleLevelBreitWigner/src/read.hpp 1-6, print.hpp,
    LimitedCovarianceBase/src/ctor.hpp 75-76, print.hpp 19 (the same for MultiLevelBreitWigner and the compact format) -/
def dapC : Comp Dbl where
  read := fun t => do
    let c ← readCont t
    pure c.c2
  print := fun x t => printCont ⟨Disco.zero, x, 0, 0, 0, 0⟩ t
  nc := fun _ => 1
  Valid := fun _ => True
  reals := fun x => [Disco.zero, x]

/-- section/32/151/ReichMooreScatteringRadiusUncertainties/src/ctor.hpp 5-6, 34-39: a LIST record -/
def dapListC : Comp LIST := listC

/-- section/32/151/GeneralRMatrixLimited/src/read.hpp 1-12, CompactRMatrixLimited/src/read.hpp 1-12: always an exception (print and NC are those of the
    LIST record) -/
def dapNoneC : Comp LIST := Printer.none ⟨listC.print, listC.nc, listC.reals⟩

/-! ### the parameters -/

/-- section/32/151/LimitedCovarianceBase/src/ctor.hpp 6-13, 55-100, verifySize.hpp 1-11, print.hpp 11-25, NC.hpp 4-9: SPI and AP, DAP, the l values.
    (LCOMP = 0 is printed as L2.) -/
def limitedC : Comp ((Dbl × Dbl) × Option Dbl × List LIST) :=
  hdrC (fun r => (r.c1, r.c2)) (fun h b => ⟨h.1, h.2, 0, 0, asInt b.2.length, ofBool b.1.isSome⟩)
    (fun r => ((optC (r.n2 ≠ 0) dapC).andThen (fun _ => seqC limitedLValueC r.n1)).checked (fun b => 1 ≤ asInt b.2.length))

/-- section/32/151/GeneralCovarianceBase/src/ctor.hpp 6-16, 69-161, readSequence.hpp 1-44, print.hpp 11-33, NC.hpp 4-17: SPI, AP and NLS, DAP, AWRI, the
    short range and the long range blocks.  (`verifySize` never rejects: the sizes are not negative, and it is given LRU, which is not 7, instead of LRF.)
    LCOMP = 1 is printed as L2. -/
def generalC {δ α : Type} (dap : Comp δ) (short : Comp α) : Comp ((Dbl × Dbl × Int) × Option δ × Dbl × List α × List LIST) :=
  hdrC (fun r => (r.c1, r.c2, toUInt32 r.n1)) (fun h b => ⟨h.1, h.2.1, 0, 1, h.2.2, ofBool b.1.isSome⟩)
    (fun r => (optC (r.n2 ≠ 0) dap).andThen (fun _ =>
      hdrC (fun q => q.c1) (fun h b => ⟨h, Disco.zero, 0, 0, asInt b.1.length, asInt b.2.length⟩)
        (fun q => (seqC short q.n1).andThen (fun _ => seqC longRangeC q.n2))))

/-- section/32/151/ShortRangeRMatrixLimitedBlock/src/ctor.hpp 25-75, print.hpp 11-20, NC.hpp 4-10 -/
def shortRangeRmlC : Comp (Unit × List LIST × LIST) :=
  hdrC (fun _ => ()) (fun _ b => ⟨Disco.zero, Disco.zero, asInt b.1.length, 0, 0, 0⟩)
    (fun r => (seqC rmlParametersC r.l1).andThen (fun _ => triangleC))

/-- section/32/151/UnresolvedRelativeCovariances/src/ctor.hpp 29-71, print.hpp 11-22, NC.hpp 4-9, LValue/src/verifySize.hpp 1-12 -/
def unresolvedC : Comp ((Dbl × Dbl) × List LIST × LIST) :=
  hdrC (fun r => (r.c1, r.c2)) (fun h b => ⟨h.1, h.2, 0, 0, asInt b.1.length, 0⟩)
    (fun r => (seqC (listC.checked lvalueAOk lvalueAOv) r.n1).andThen (fun _ => triangleC))

/-- section/32/151/CompactRMatrixLimitedUncertainties/SpinGroup/src/ctor.hpp 24-53, print.hpp 11-16 -/
def compactGroupC : Comp (LIST × LIST) := channelsC.andThen (fun _ => listC.checked compactRmlParametersOk)

/-- section/32/151/CompactRMatrixLimitedUncertainties/src/ctor.hpp 15-62, verifySize.hpp 1-11, print.hpp 11-19, NC.hpp 4-9 (NJSX of the particle pairs
    is L2, ParticlePairs.hpp) -/
def compactRmlC : Comp (LIST × List (LIST × LIST)) :=
  (particlePairsC.andThen (fun l => seqC compactGroupC (toInt32 l.l2))).checked (fun b => 1 ≤ asInt b.2.length)

section
variable [CorrOps]

/-- section/32/151/CompactCovarianceBase/src/ctor.hpp 6-12, 64-126, print.hpp 11-23, NC.hpp 4-11: SPI, AP, L1 and N1, DAP, the uncertainties and the
    correlation matrix.  LCOMP = 2 is printed as L2. -/
def compactC {δ α : Type} (dap : Comp δ) (unc : Comp α) : Comp ((Dbl × Dbl × Int × Int) × Option δ × α × CorrMatrix) :=
  hdrC (fun r => (r.c1, r.c2, r.l1, r.n1)) (fun h b => ⟨h.1, h.2.1, h.2.2.1, 2, h.2.2.2, ofBool b.1.isSome⟩)
    (fun r => (optC (r.n2 ≠ 0) dap).andThen (fun _ => unc.andThen (fun _ => corrC)))

/-- The types of parameters: the alternatives of ResonanceRange::ResonanceParameters (section/32/151/ResonanceRange.hpp 20-33). -/
inductive CovType where
  | limitedSLBW | limitedMLBW
  | generalSLBW | generalMLBW | generalRM | generalRML
  | compactSLBW | compactMLBW | compactRM | compactRML
  | unresolved
deriving DecidableEq, Repr

namespace CovType

/-- What the types contain. -/
def Data : CovType → Type
  | limitedSLBW | limitedMLBW => (Dbl × Dbl) × Option Dbl × List LIST
  | generalSLBW | generalMLBW => (Dbl × Dbl × Int) × Option Dbl × Dbl × List LIST × List LIST
  | generalRM => (Dbl × Dbl × Int) × Option LIST × Dbl × List LIST × List LIST
  | generalRML => (Dbl × Dbl × Int) × Option LIST × Dbl × List (Unit × List LIST × LIST) × List LIST
  | compactSLBW | compactMLBW => (Dbl × Dbl × Int × Int) × Option Dbl × LIST × CorrMatrix
  | compactRM => (Dbl × Dbl × Int × Int) × Option LIST × LIST × CorrMatrix
  | compactRML => (Dbl × Dbl × Int × Int) × Option LIST × (LIST × List (LIST × LIST)) × CorrMatrix
  | unresolved => (Dbl × Dbl) × List LIST × LIST

/-- The constructors, `print` and `NC` of the types. -/
def comp : (k : CovType) → Comp k.Data
  | limitedSLBW => limitedC
  | limitedMLBW => limitedC
  | generalSLBW => generalC dapC shortRangeC
  | generalMLBW => generalC dapC shortRangeC
  | generalRM => generalC dapListC shortRangeC
  | generalRML => generalC dapNoneC shortRangeRmlC
  | compactSLBW => compactC dapC compactUncertaintiesC
  | compactMLBW => compactC dapC compactUncertaintiesC
  | compactRM => compactC dapListC compactUncertaintiesC
  | compactRML => compactC dapNoneC compactRmlC
  | unresolved => unresolvedC

/-- `LRU()`: LimitedCovarianceBase.hpp 46-49, GeneralCovarianceBase.hpp 52-55, CompactCovarianceBase.hpp 50-53, UnresolvedRelativeCovariances.hpp 39 -/
def lru : CovType → Int
  | unresolved => 2
  | _ => 1

/-- `LRF()` of the derived classes; UnresolvedRelativeCovariances.hpp 49 -/
def lrf : CovType → Int
  | limitedSLBW | generalSLBW | compactSLBW => 1
  | limitedMLBW | generalMLBW | compactMLBW => 2
  | generalRM | compactRM => 3
  | generalRML | compactRML => 7
  | unresolved => 1

/-- `LCOMP()`: LimitedCovarianceBase.hpp 36, GeneralCovarianceBase.hpp 42, CompactCovarianceBase.hpp 40 (the unresolved resonances have 0 there) -/
def lcomp : CovType → Int
  | limitedSLBW | limitedMLBW => 0
  | generalSLBW | generalMLBW | generalRM | generalRML => 1
  | compactSLBW | compactMLBW | compactRM | compactRML => 2
  | unresolved => 0

/-- The type for LRU, LRF and LCOMP: section/32/151/Isotope/src/readParameters.hpp 17-116 -/
def ofFlags (lru lrf lcomp : Int) : Option CovType :=
  if lru = 1 then
    if lcomp = 0 then
      if lrf = 1 then some limitedSLBW else if lrf = 2 then some limitedMLBW else none
    else if lcomp = 1 then
      if lrf = 1 then some generalSLBW else if lrf = 2 then some generalMLBW else if lrf = 3 then some generalRM
      else if lrf = 7 then some generalRML else none
    else if lcomp = 2 then
      if lrf = 1 then some compactSLBW else if lrf = 2 then some compactMLBW else if lrf = 3 then some compactRM
      else if lrf = 7 then some compactRML else none
    else none
  else if lru = 2 then some unresolved
  else none

end CovType

/-- ResonanceRange::ResonanceParameters -/
structure CovParams where
  type : CovType
  data : type.Data

namespace CovParams

/-- section/32/151/Isotope/src/readParameters.hpp 13-116: a CONT record is read from a copy of the iterator; the line counter is advanced by that, and
    then the parameters are read from the same line. -/
def read (lru lrf : Int) (t : Nums) : Parser CovParams := fun s =>
  match readCont t s with
  | .error e => .error e
  | .ok (c, s1) =>
    match CovType.ofFlags lru lrf (toInt32 c.l2) with
    | none => .error .exc
    | some k => (do
        let x ← k.comp.read t
        pure ⟨k, x⟩ : Parser CovParams) ⟨s.rest, s1.line⟩

def print (p : CovParams) (t : Nums) : Text := p.type.comp.print p.data t
def nc (p : CovParams) : Nat := p.type.comp.nc p.data

end CovParams

/-! ### resonance range -/

/-- section/32/151/ScatteringRadiusCovariances/src/ctor.hpp, print.hpp, NC.hpp: the covariances are those of file 33 -/
def radiusCovC : Comp (Unit × List LIST) :=
  hdrC (fun _ => ()) (fun _ b => ⟨Disco.zero, Disco.zero, 0, 0, 0, asInt b.length⟩) (fun r => seqC explicitC r.n2)

/-- section/32/151/ResonanceRange.hpp 35-39 -/
structure CovRange where
  el : Dbl
  eh : Dbl
  naps : Int
  parameters : CovParams
  radius : Option (Unit × List LIST)

/-- section/32/151/ResonanceRange/src/verifyOptions.hpp 1-39 -/
def covOptionsOk (nro : Bool) (naps lru lrf : Int) : Prop :=
  (nro = false → 0 ≤ naps ∧ naps ≤ 1) ∧ (nro = true → 0 ≤ naps ∧ naps ≤ 2) ∧ (nro = true → lru ≠ 0) ∧ (nro = true → ¬(lru = 1 ∧ lrf = 7))

instance (a : Bool) (b c d : Int) : Decidable (covOptionsOk a b c d) := by unfold covOptionsOk; exact inferInstance

namespace CovRange

/-- section/32/151/ResonanceRange.hpp, NRO(), LRU(), LRF(), and the CONT record of print.hpp 14-16 -/
def cont (r : CovRange) : Cont := ⟨r.el, r.eh, r.parameters.type.lru, r.parameters.type.lrf, ofBool r.radius.isSome, r.naps⟩

/-- section/32/151/Isotope/src/readRanges.hpp 21-36, readScatteringRadiusCovariances.hpp 1-29, ResonanceRange/src/ctor.hpp 26-39 -/
def read (t : Nums) : Parser CovRange := do
  let c ← readCont t
  if toInt32 c.n1 ≠ 0 ∧ toInt32 c.n1 ≠ 1 then Parser.fail .exc
  else do
    let radius ← (optC (toInt32 c.n1 = 1) radiusCovC).read t
    let p ← CovParams.read (toInt32 c.l1) (toInt32 c.l2) t
    if covOptionsOk radius.isSome (toInt32 c.n2) p.type.lru p.type.lrf then pure ⟨c.c1, c.c2, toInt32 c.n2, p, radius⟩ else Parser.fail .exc

/-- section/32/151/ResonanceRange/src/print.hpp 17 -/
def radiusPrint (t : Nums) : Option (Unit × List LIST) → Text
  | none => []
  | some x => radiusCovC.print x t

/-- section/32/151/ResonanceRange/src/NC.hpp 9 -/
def radiusNC : Option (Unit × List LIST) → Nat
  | none => 0
  | some x => radiusCovC.nc x

/-- section/32/151/ResonanceRange/src/print.hpp 11-21 -/
def print (r : CovRange) (t : Nums) : Text := printCont r.cont t ++ (radiusPrint t r.radius ++ r.parameters.print t)

/-- section/32/151/ResonanceRange/src/NC.hpp 4-11 -/
def nc (r : CovRange) : Nat := 1 + (radiusNC r.radius + r.parameters.nc)

end CovRange

/-! ### isotope and section -/

/-- section/32/151/Isotope.hpp 13-16 -/
structure CovIsotope where
  zai : Dbl
  abn : Dbl
  lfw : Bool
  ranges : List CovRange

namespace CovIsotope

/-- The CONT record of section/32/151/Isotope/src/print.hpp 4-6 -/
def cont (b : CovIsotope) : Cont := ⟨b.zai, b.abn, 0, ofBool b.lfw, asInt b.ranges.length, 0⟩

/-- section/32/151/Isotope/src/ctor.hpp 9-55, readRanges.hpp 1-39 -/
def read (t : Nums) : Parser CovIsotope := Parser.mapErr catchStd do
  let c ← readCont t
  let ranges ← readSequence (CovRange.read t) c.n1
  pure ⟨c.c1, c.c2, toBool c.l2, ranges⟩

/-- section/32/151/Isotope/src/print.hpp 1-8 -/
def print (b : CovIsotope) (t : Nums) : Text := printCont b.cont t ++ b.ranges.flatMap (fun r => r.print t)

/-- section/32/151/Isotope/src/NC.hpp 1-6 -/
def nc (b : CovIsotope) : Nat := 1 + (b.ranges.map CovRange.nc).sum

end CovIsotope

end

end ENDFtk

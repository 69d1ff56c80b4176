import Verif.Format.Print
import Verif.Section.MF32Laws
/-
  The format of section 32/151.  Its records are those of the other sections, compact correlation matrices, and the CONT records that
  are looked at before they are read.
-/
set_option linter.unusedVariables false
set_option linter.unusedSectionVars false
namespace ENDFtk
variable [Disco] [CorrOps]

/-- A record of section 32/151. -/
inductive Rec32 where
  | plain (r : Rec)
  | matrix (m : CorrMatrix)
  | look (c : Cont)

/-- From this position the record can be read, and the position after it is `s'`.  Looking at a CONT record changes nothing but the line counter.
    (What is accepted as a matrix is the subject of C56.) -/
def Rec32.At (t : Nums) : Rec32 → St → St → Prop
  | .plain r, s, s' => r.At t s s'
  | .matrix m, s, s' => CorrMatrix.read t s = .ok (m, s')
  | .look c, s, s' => ∃ s1, readCont t s = .ok (c, s1) ∧ s' = ⟨s.rest, s1.line⟩

/-- The records `rs`, one after the other. -/
inductive Recs32 (t : Nums) : List Rec32 → St → St → Prop
  | nil {s : St} : Recs32 t [] s s
  | cons {r : Rec32} {rs : List Rec32} {s s1 s2 : St} : r.At t s s1 → Recs32 t rs s1 s2 → Recs32 t (r :: rs) s s2

/-- The record as it is printed. -/
def Rec32.print : Rec32 → Nums → Text
  | .plain r, t => r.print t
  | .matrix m, t => m.print t
  | .look _, _ => []

namespace Fmt32

/-! ### parts -/

/-- The uncertainty of the scattering radius: C2 of a CONT record. -/
def dap (x : Dbl) (rs : List Rec) : Prop := ∃ c : Cont, rs = [.cont c] ∧ x = c.c2
/-- Reich-Moore: a LIST record. -/
def dapList (x : LIST) (rs : List Rec) : Prop := rs = [.list x]
/-- R-matrix limited: rejected. -/
def dapNone (x : LIST) (rs : List Rec) : Prop := False

/-- It is there exactly if ISR is not 0. -/
def optional {δ : Type} (isr : Int) (G : δ → List Rec → Prop) (x : Option δ) (rs : List Rec) : Prop := match x with
  | some d => isr ≠ 0 ∧ G d rs
  | none => isr = 0 ∧ rs = []

/-- A LIST record that satisfies `P`. -/
def list (P : LIST → Prop) (x : LIST) (rs : List Rec) : Prop := rs = [.list x] ∧ P x

/-- NRB >= 1 (N2) groups of 18 values. -/
def limitedOk (l : LIST) : Prop := 1 ≤ toInt32 l.n2 ∧ toInt32 l.data.length = 18 * toInt32 l.n2
/-- NRB >= 1 groups of 6 values, and the upper triangle of a matrix of the MPAR NRB parameters; MPAR = 1 .. 5 is L1.
    (The product is an `int`, here and below.) -/
def shortOk (l : LIST) : Prop :=
  1 ≤ toInt32 l.n2 ∧ 1 ≤ toInt32 l.l1 ∧ toInt32 l.l1 ≤ 5 ∧
    2 * (toInt32 l.data.length - 6 * toInt32 l.n2) = (toInt32 l.l1 * toInt32 l.n2) * (toInt32 l.l1 * toInt32 l.n2 + 1) ∧
    (toInt32 l.l1 * toInt32 l.n2) * (toInt32 l.l1 * toInt32 l.n2 + 1) < 2147483648
/-- The upper triangle of a matrix of order N2 >= 1. -/
def triangle (l : LIST) : Prop := 1 ≤ toInt32 l.n2 ∧ 2 * toInt32 l.data.length = toInt32 l.n2 * (toInt32 l.n2 + 1) ∧
  toInt32 l.n2 * (toInt32 l.n2 + 1) < 2147483648
/-- N2 >= 1 groups of 12 values. -/
def compactOk (l : LIST) : Prop := 1 ≤ toInt32 l.n2 ∧ toInt32 l.data.length = 12 * toInt32 l.n2
/-- Long range covariances: LB = 0, 1, 2: pairs, LT = 0; LB = 5: a square matrix.  (LB = -1 is never accepted.) -/
def longOk (l : LIST) : Prop :=
  (l.l2 ∈ [0, 1, 2] ∧ toInt32 l.l1 = 0 ∧ toInt32 l.data.length = 2 * toInt32 l.n2) ∨
  (l.l2 = 5 ∧ Fmt.squareOk (toInt32 l.l1) (toInt32 l.n2) (toInt32 l.data.length))

/-! ### the parameters -/

/-- LCOMP = 0: a CONT record with SPI, AP, NLS, ISR; the uncertainty of the scattering radius; NLS >= 1 LIST records. -/
def limited (x : (Dbl × Dbl) × Option Dbl × List LIST) (rs : List Rec) : Prop :=
  ∃ c r, rs = .cont c :: r ++ x.2.2.map .list ∧ x.1 = (c.c1, c.c2) ∧ optional c.n2 dap x.2.1 r ∧ toInt32 c.n1 = x.2.2.length ∧ x.2.2 ≠ [] ∧
    ∀ l ∈ x.2.2, limitedOk l

/-- LCOMP = 1: a CONT record with SPI, AP, NLS, ISR; the uncertainty of the scattering radius; a CONT record with AWRI, NSRS, NLRS; NSRS short range and NLRS
    long range blocks. -/
def general {δ α : Type} (D : δ → List Rec → Prop) (S : α → List Rec → Prop) (x : (Dbl × Dbl × Int) × Option δ × Dbl × List α × List LIST)
    (rs : List Rec) : Prop :=
  ∃ c r q r', rs = .cont c :: r ++ .cont q :: r' ++ x.2.2.2.2.map .list ∧ x.1.1 = c.c1 ∧ x.1.2.1 = c.c2 ∧ x.1.2.2 = toUInt32 c.n1 ∧ optional c.n2 D x.2.1 r ∧
    x.2.2.1 = q.c1 ∧ toInt32 q.n1 = x.2.2.2.1.length ∧ Many S x.2.2.2.1 r' ∧ toInt32 q.n2 = x.2.2.2.2.length ∧ ∀ l ∈ x.2.2.2.2, longOk l

/-- A short range block of the R-matrix limited formalism: a CONT record with NJSX; NJSX LIST records with groups of 6 values; the covariance matrix. -/
def shortRml (x : Unit × List LIST × LIST) (rs : List Rec) : Prop :=
  ∃ c, rs = .cont c :: x.2.1.map .list ++ [.list x.2.2] ∧ toInt32 c.l1 = x.2.1.length ∧
    (∀ l ∈ x.2.1, 1 ≤ toInt32 l.data.length ∧ 6 ∣ toInt32 l.data.length) ∧ triangle x.2.2

/-- Unresolved resonances: a CONT record with SPI, AP, NLS; NLS LIST records with NJS groups of 6 values; the covariance matrix. -/
def unresolved (x : (Dbl × Dbl) × List LIST × LIST) (rs : List Rec) : Prop :=
  ∃ c, rs = .cont c :: x.2.1.map .list ++ [.list x.2.2] ∧ x.1 = (c.c1, c.c2) ∧ toInt32 c.n1 = x.2.1.length ∧
    (∀ l ∈ x.2.1, toInt32 l.data.length = 6 * toInt32 l.n2) ∧ triangle x.2.2

/-- Compact format of the R-matrix limited formalism: a LIST record with NPP >= 1 (L1) groups of 12 values and NJSX (L2); NJSX >= 1 spin groups, each a LIST
    record with NCH >= 1 groups of 6 values and one with groups of 12 values. -/
def compactRml (x : LIST × List (LIST × LIST)) (rs : List Rec) : Prop :=
  rs = .list x.1 :: x.2.flatMap (fun g => [.list g.1, .list g.2]) ∧ 1 ≤ toInt32 x.1.l1 ∧ toInt32 x.1.data.length = 12 * toInt32 x.1.l1 ∧
    toInt32 x.1.l2 = x.2.length ∧ x.2 ≠ [] ∧
    ∀ g ∈ x.2, 1 ≤ toInt32 g.1.n2 ∧ toInt32 g.1.data.length = 6 * toInt32 g.1.n2 ∧ 1 ≤ toInt32 g.2.data.length ∧ 12 ∣ toInt32 g.2.data.length

/-- LCOMP = 2: a CONT record with SPI, AP, L1, N1, ISR; the uncertainty of the scattering radius; the parameters and their uncertainties; the correlations. -/
def compact {δ α : Type} (D : δ → List Rec → Prop) (U : α → List Rec → Prop) (x : (Dbl × Dbl × Int × Int) × Option δ × α × CorrMatrix)
    (rs : List Rec32) : Prop :=
  ∃ c r r', rs = (.cont c :: r ++ r').map .plain ++ [.matrix x.2.2.2] ∧ x.1 = (c.c1, c.c2, c.l1, c.n1) ∧ optional c.n2 D x.2.1 r ∧ U x.2.2.1 r'

/-- The LRU, LRF and LCOMP numbers of the types of parameters (for unresolved resonances, LRF and LCOMP are not looked at). -/
def isType (lru lrf lcomp : Int) : CovType → Prop
  | .limitedSLBW => lru = 1 ∧ lcomp = 0 ∧ lrf = 1
  | .limitedMLBW => lru = 1 ∧ lcomp = 0 ∧ lrf = 2
  | .generalSLBW => lru = 1 ∧ lcomp = 1 ∧ lrf = 1
  | .generalMLBW => lru = 1 ∧ lcomp = 1 ∧ lrf = 2
  | .generalRM => lru = 1 ∧ lcomp = 1 ∧ lrf = 3
  | .generalRML => lru = 1 ∧ lcomp = 1 ∧ lrf = 7
  | .compactSLBW => lru = 1 ∧ lcomp = 2 ∧ lrf = 1
  | .compactMLBW => lru = 1 ∧ lcomp = 2 ∧ lrf = 2
  | .compactRM => lru = 1 ∧ lcomp = 2 ∧ lrf = 3
  | .compactRML => lru = 1 ∧ lcomp = 2 ∧ lrf = 7
  | .unresolved => lru = 2

/-- The format of each type. -/
def params : (k : CovType) → k.Data → List Rec32 → Prop
  | .limitedSLBW, x, rs | .limitedMLBW, x, rs => ∃ r, rs = r.map .plain ∧ limited x r
  | .generalSLBW, x, rs | .generalMLBW, x, rs => ∃ r, rs = r.map .plain ∧ general dap (list shortOk) x r
  | .generalRM, x, rs => ∃ r, rs = r.map .plain ∧ general dapList (list shortOk) x r
  | .generalRML, x, rs => ∃ r, rs = r.map .plain ∧ general dapNone shortRml x r
  | .compactSLBW, x, rs | .compactMLBW, x, rs => compact dap (list compactOk) x rs
  | .compactRM, x, rs => compact dapList (list compactOk) x rs
  | .compactRML, x, rs => compact dapNone compactRml x rs
  | .unresolved, x, rs => ∃ r, rs = r.map .plain ∧ unresolved x r

/-! ### ranges and isotopes -/

/-- The covariances of the scattering radius: a CONT record with NI, and NI explicit covariances. -/
def radius (x : Unit × List LIST) (rs : List Rec) : Prop :=
  ∃ c, rs = .cont c :: x.2.map .list ∧ toInt32 c.n2 = x.2.length ∧ ∀ l ∈ x.2, Fmt.explicitOk l

/-- A resonance range: a CONT record with EL, EH, LRU, LRF, NRO, NAPS; for NRO = 1 the covariances of the scattering radius; the parameters, LCOMP being L2
    of their first record.  NAPS is 0 or 1, for NRO = 1 also 2.  NRO = 1 is not possible for LRF = 7 with LRU = 1. -/
def range (x : CovRange) (rs : List Rec32) : Prop :=
  ∃ c r c' r', rs = (.cont c :: r).map .plain ++ .look c' :: r' ∧ x.el = c.c1 ∧ x.eh = c.c2 ∧ x.naps = toInt32 c.n2 ∧
    isType (toInt32 c.l1) (toInt32 c.l2) (toInt32 c'.l2) x.parameters.type ∧ params x.parameters.type x.parameters.data r' ∧ 0 ≤ x.naps ∧
    ((toInt32 c.n1 = 0 ∧ x.radius = none ∧ r = [] ∧ x.naps ≤ 1) ∨
     (toInt32 c.n1 = 1 ∧ (∃ y, x.radius = some y ∧ radius y r) ∧ x.naps ≤ 2 ∧ ¬(toInt32 c.l1 = 1 ∧ toInt32 c.l2 = 7)))

/-- An isotope: a CONT record with ZAI, ABN, LFW, NER, and NER ranges. -/
def isotope (x : CovIsotope) (rs : List Rec32) : Prop :=
  ∃ c r, rs = .plain (.cont c) :: r ∧ x.zai = c.c1 ∧ x.abn = c.c2 ∧ (x.lfw = true ↔ c.l2 ≠ 0) ∧ toInt32 c.n1 = x.ranges.length ∧ Many range x.ranges r

/-- NIS >= 1 isotopes, NIS being N1 of the HEAD record. -/
def body (h : Cont) (x : List CovIsotope) (rs : List Rec32) : Prop :=
  toInt32 h.n1 = x.length ∧ x ≠ [] ∧ Many isotope x rs

/-! ### what is printed -/

/-- ISR of an uncertainty. -/
def flag {δ : Type} (x : Option δ) : Int := Fmt.ofBool x.isSome

def dapRec (x : Dbl) : List Rec := [.cont ⟨Disco.zero, x, 0, 0, 0, 0⟩]

def limitedRecs (x : (Dbl × Dbl) × Option Dbl × List LIST) : List Rec :=
  .cont ⟨x.1.1, x.1.2, 0, 0, Fmt.size x.2.2, flag x.2.1⟩ :: x.2.1.toList.flatMap dapRec ++ x.2.2.map .list

def generalRecs {δ α : Type} (D : δ → List Rec) (S : α → List Rec) (x : (Dbl × Dbl × Int) × Option δ × Dbl × List α × List LIST) : List Rec :=
  .cont ⟨x.1.1, x.1.2.1, 0, 1, x.1.2.2, flag x.2.1⟩ :: x.2.1.toList.flatMap D ++
    .cont ⟨x.2.2.1, Disco.zero, 0, 0, Fmt.size x.2.2.2.1, Fmt.size x.2.2.2.2⟩ :: x.2.2.2.1.flatMap S ++ x.2.2.2.2.map .list

def shortRmlRecs (x : Unit × List LIST × LIST) : List Rec :=
  .cont ⟨Disco.zero, Disco.zero, Fmt.size x.2.1, 0, 0, 0⟩ :: x.2.1.map .list ++ [.list x.2.2]

def unresolvedRecs (x : (Dbl × Dbl) × List LIST × LIST) : List Rec :=
  .cont ⟨x.1.1, x.1.2, 0, 0, Fmt.size x.2.1, 0⟩ :: x.2.1.map .list ++ [.list x.2.2]

def compactRmlRecs (x : LIST × List (LIST × LIST)) : List Rec := .list x.1 :: x.2.flatMap (fun g => [.list g.1, .list g.2])

def compactRecs {δ α : Type} (D : δ → List Rec) (U : α → List Rec) (x : (Dbl × Dbl × Int × Int) × Option δ × α × CorrMatrix) : List Rec32 :=
  (.cont ⟨x.1.1, x.1.2.1, x.1.2.2.1, 2, x.1.2.2.2, flag x.2.1⟩ :: x.2.1.toList.flatMap D ++ U x.2.2.1).map .plain ++ [.matrix x.2.2.2]

def paramsRecs : (k : CovType) → k.Data → List Rec32
  | .limitedSLBW, x | .limitedMLBW, x => (limitedRecs x).map .plain
  | .generalSLBW, x | .generalMLBW, x => (generalRecs dapRec (fun l => [.list l]) x).map .plain
  | .generalRM, x => (generalRecs (fun l => [.list l]) (fun l => [.list l]) x).map .plain
  | .generalRML, x => (generalRecs (fun l => [.list l]) shortRmlRecs x).map .plain
  | .compactSLBW, x | .compactMLBW, x => compactRecs dapRec (fun l => [.list l]) x
  | .compactRM, x => compactRecs (fun l => [.list l]) (fun l => [.list l]) x
  | .compactRML, x => compactRecs (fun l => [.list l]) compactRmlRecs x
  | .unresolved, x => (unresolvedRecs x).map .plain

/-- LRU and LRF of the types. -/
def lruOf : CovType → Int
  | .unresolved => 2
  | _ => 1
def lrfOf : CovType → Int
  | .limitedSLBW | .generalSLBW | .compactSLBW | .unresolved => 1
  | .limitedMLBW | .generalMLBW | .compactMLBW => 2
  | .generalRM | .compactRM => 3
  | .generalRML | .compactRML => 7

def radiusRecs (x : Unit × List LIST) : List Rec := .cont ⟨Disco.zero, Disco.zero, 0, 0, 0, Fmt.size x.2⟩ :: x.2.map .list

def rangeRecs (x : CovRange) : List Rec32 :=
  (.cont ⟨x.el, x.eh, lruOf x.parameters.type, lrfOf x.parameters.type, flag x.radius, x.naps⟩ :: x.radius.toList.flatMap radiusRecs).map .plain ++
    paramsRecs x.parameters.type x.parameters.data

def isotopeRecs (x : CovIsotope) : List Rec32 :=
  .plain (.cont ⟨x.zai, x.abn, 0, Fmt.ofBool x.lfw, Fmt.size x.ranges, 0⟩) :: x.ranges.flatMap rangeRecs

/-- HEAD with ZA, AWR and NIS, then the isotopes. -/
def printed (x : Sect (List CovIsotope)) : List Rec32 :=
  .plain (.cont ⟨Disco.ofInt x.za, x.awr, 0, 0, Fmt.size x.data, 0⟩) :: x.data.flatMap isotopeRecs

def printRecs (rs : List Rec32) (t : Nums) : Text := rs.flatMap (fun r => r.print t)

/-- `rs` are the records read, `rs'` records printed: the same matrices, LIST and other records in the same order, and CONT records in the same places (their fields
    may differ); a record that was only looked at is not printed for itself. -/
inductive Same : List Rec32 → List Rec32 → Prop
  | nil : Same [] []
  | look {c : Cont} {rs rs' : List Rec32} : Same rs rs' → Same (.look c :: rs) rs'
  | cont {c c' : Cont} {rs rs' : List Rec32} : Same rs rs' → Same (.plain (.cont c) :: rs) (.plain (.cont c') :: rs')
  | cons {r : Rec32} {rs rs' : List Rec32} : Same rs rs' → Same (r :: rs) (r :: rs')

end Fmt32
end ENDFtk

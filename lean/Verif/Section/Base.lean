import Verif.Section.Comp
import Verif.Tree.Layout
/-
  What all sections have in common: section/Base.hpp, section/BaseWithoutMT.hpp, and the common pattern of `ctor.hpp` and `print.hpp` of
  every section type.
-/
set_option linter.unusedVariables false
set_option linter.unusedSectionVars false
set_option linter.unusedSimpArgs false
namespace ENDFtk
variable [Disco]

/-- A number of type `int`. -/
def IsInt32 (n : Int) : Prop := -2147483648 ≤ n ∧ n < 2147483648

instance (n : Int) : Decidable (IsInt32 n) := by unfold IsInt32; exact inferInstance

/-- HeadRecord.hpp 40-43: `std::round` converted to `int`.  (Outside of the range of `int` the conversion is undefined in C++; here it is some
    number of type `int`.) -/
def headZA (d : Division) : Int := toInt32 (Disco.round d.base.c1)

/-- section/BaseWithoutMT/src/ctor.hpp 9-26, section/Base/src/ctor.hpp 9-20: ZA >= 1, AWR >= 0, and for the types that store MT also MT >= 1. -/
def checkBase (za : Int) (awr : Dbl) (mt : Option Int) : Except Err Unit :=
  if za < 1 then .error .exc
  else if Disco.ltD awr Disco.zero then .error .exc
  else match mt with
    | some mt => if mt < 1 then .error .exc else .ok ()
    | none => .ok ()

/-- section/BaseWithoutMT/src/ctor.hpp 28-45, section/Base/src/ctor.hpp 22-38: additionally the MAT and MF of the HEAD record. -/
def checkHead (head : Division) (mat mf : Int) (mt : Option Int) : Except Err Unit :=
  match checkBase (headZA head) head.base.c2 mt with
  | .error e => .error e
  | .ok () =>
    if mat ≠ head.tail.mat then .error .exc
    else if mf ≠ head.tail.mf then .error .exc
    else .ok ()

/-- section/BaseWithoutMT/src/readSEND.hpp 1-37 -/
def readSEND (mat mf : Int) : Parser Unit := Parser.mapErr catchStd do
  let d ← readDivision
  if !d.isSend then Parser.fail .exc
  else if mat ≠ d.tail.mat then Parser.fail .exc
  else if mf ≠ d.tail.mf then Parser.fail .exc
  else pure ()

/-- What distinguishes one section type from another.  `β` is its data apart from ZA, AWR and MT.
  * `fixedMT`: the MT number of types derived from `BaseWithoutMT`, `none` for types that store it;
  * `checksHead`: the constructor compares the MAT and MF of the HEAD record with the expected numbers (`Base( head, MAT, MF )`); many types
    only check ZA, AWR and MT (`Base( ZA, AWR, MT )`);
  * `recHeadMAT`, `recHeadMT`: the records are expected to have the MAT (MT) number of the HEAD record rather than the expected MAT (the MT of the type);
  * `head`: L1, L2, N1, N2 of the HEAD line it prints;
  * `read`: what the constructor reads between HEAD and SEND (given the HEAD record and the expected numbers);
  * `body`: what it prints between HEAD and SEND (given AWR, which one type prints again);  `nc`: `NC() - 1`;
  * `Valid`, `reals`: as for components;
  * `mtOk`: what the data have to satisfy (also depending on MT) to be read back, in addition to what the constructors check;
  * `strict`: whatever is read also satisfies `mtOk`. -/
structure SecDef (β : Type) where
  mf : Int
  fixedMT : Option Int
  checksHead : Bool := true
  recHeadMAT : Bool := false
  recHeadMT : Bool := false
  head : β → Int × Int × Int × Int
  read : Division → Nums → Parser β
  body : Dbl → β → Nums → Text
  nc : β → Nat
  Valid : β → Prop
  reals : β → List Dbl
  mtOk : Int → β → Prop := fun _ _ => True
  strict : Bool := true

/-- A section: ZA, AWR, MT (section/Base.hpp, section/BaseWithoutMT.hpp) and its data. -/
structure Sect (β : Type) where
  za : Int
  awr : Dbl
  mt : Int
  data : β
deriving DecidableEq

namespace SecDef
variable {β : Type}

/-- The MT number of the section. -/
def mtOf (D : SecDef β) (head : Division) : Int := D.fixedMT.getD head.tail.mt

/-- The numbers expected in the records of the section. -/
def recNums (D : SecDef β) (head : Division) (mat : Int) : Nums :=
  ⟨if D.recHeadMAT then head.tail.mat else mat, D.mf, if D.recHeadMT then head.tail.mt else D.mtOf head⟩

/-- The MT number that is checked to be at least 1: only the types derived from `Base` do so. -/
def mtCheck (D : SecDef β) (head : Division) : Option Int := if D.fixedMT.isSome then none else some head.tail.mt

/-- The pattern of all `Type( HEAD& head, it, end, lineNumber, MAT )`, e.g. section/3/src/ctor.hpp 53-72, section/1/451/src/ctor.hpp 71-103;
    without the comparison of the HEAD's MAT and MF e.g. section/9/src/ctor.hpp 34-51.  (Some constructors check ZA, AWR and MT after having
    read the records: this only changes which of two exceptions is thrown.) -/
def readSect (D : SecDef β) (head : Division) (mat : Int) : Parser (Sect β) := Parser.mapErr catchStd do
  liftE (if D.checksHead then checkHead head mat D.mf (D.mtCheck head) else checkBase (headZA head) head.base.c2 (D.mtCheck head))
  let b ← D.read head (D.recNums head mat)
  readSEND mat D.mf
  pure ⟨headZA head, head.base.c2, D.mtOf head, b⟩

/-- The pattern of reading a section from its first line: HEAD, then the constructor with the MAT of the HEAD
    (tree/Section/src/parse.hpp 6-14). -/
def parse (D : SecDef β) : Parser (Sect β) := do
  let head ← readDivision
  D.readSect head head.tail.mat

/-- The record printed first. -/
def headCont (D : SecDef β) (s : Sect β) : Cont :=
  let h := D.head s.data
  ⟨Disco.ofInt s.za, s.awr, h.1, h.2.1, h.2.2.1, h.2.2.2⟩

/-- The lines before SEND. -/
def lines (D : SecDef β) (s : Sect β) (mat mf : Int) : Text := printCont (D.headCont s) ⟨mat, mf, s.mt⟩ ++ D.body s.awr s.data ⟨mat, mf, s.mt⟩

/-- The pattern of all `print( it, MAT, MF )`, e.g. section/3/src/print.hpp 10-17; `SEND( MAT, MF )` throws for MAT < 1 or MF < 1. -/
def print (D : SecDef β) (s : Sect β) (mat mf : Int) : Except Err Text :=
  match SEND mat mf with
  | .ok d => .ok (D.lines s mat mf ++ d.print)
  | .error e => .error e

/-- `NC()` -/
def NC (D : SecDef β) (s : Sect β) : Nat := D.nc s.data + 1

/-- ZA, AWR and MT pass the checks of the constructors, MT fits its columns; the data are valid. -/
def WellFormed (D : SecDef β) (s : Sect β) : Prop :=
  1 ≤ s.za ∧ IsInt32 s.za ∧ Disco.ltD s.awr Disco.zero = false ∧ (match D.fixedMT with
    | some mt => s.mt = mt
    | none => 1 ≤ s.mt) ∧ fits 3 s.mt ∧ D.Valid s.data

/-- Well formed, and can be read back. -/
def ValidSect (D : SecDef β) (s : Sect β) : Prop := D.WellFormed s ∧ D.mtOk s.mt s.data

/-- All reals of a section. -/
def realsSect (D : SecDef β) (s : Sect β) : List Dbl := Disco.ofInt s.za :: s.awr :: D.reals s.data

/-- Requirements on a section type (compare `Comp.Law`). -/
structure Law (D : SecDef β) (E : Err → Prop := StdErr) : Prop where
  mf_pos : 1 ≤ D.mf ∧ D.mf < 100
  mt_fits : ∀ mt, D.fixedMT = some mt → 1 ≤ mt ∧ fits 3 mt
  head_fits : ∀ {b}, D.Valid b → fits 11 (D.head b).1 ∧ fits 11 (D.head b).2.1 ∧ fits 11 (D.head b).2.2.1 ∧ fits 11 (D.head b).2.2.2
  round : ∀ {b t awr} (head : Division), D.Valid b → Rep awr → Reps (D.reals b) → t.Fit →
    (head.base.l1, head.base.l2, head.base.n1, head.base.n2) = D.head b → D.mtOk t.mt b →
    ∀ s n, D.read head t ⟨D.body awr b t ++ s, n⟩ = .ok (b, ⟨s, n + (D.nc b : Int)⟩)
  canon : ∀ {b t} (awr : Dbl), D.Valid b → t.Fit → CanonicalText t (D.nc b) (D.body awr b t)
  reads : ∀ (head : Division) t, head.base.Fits → Reads E (fun b ls => D.Valid b ∧ AllTail t ls ∧ ls.length = D.nc b) (D.read head t)
  mt_reads : D.strict = true → ∀ {head t s b s'}, D.read head t s = .ok (b, s') → D.mtOk t.mt b := by intros; trivial
  mt_any : D.recHeadMT = true → ∀ mt b, D.mtOk mt b := by intros; trivial

end SecDef

/-- The line is a SEND record with these numbers. -/
def SendLine (mat mf : Int) (l : Text) : Prop := ∃ c, ShowsCont c l ∧ ZeroCols c ∧ HasTail ⟨mat, mf, 0⟩ l ∧ 0 < mat ∧ 0 < mf

end ENDFtk

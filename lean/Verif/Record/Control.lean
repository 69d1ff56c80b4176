import Verif.Disco
/-
  Single line records: tail, CONT, structure divisions / HEAD, TEXT, DIR, TPID, skip.
-/
namespace ENDFtk

/-- The MAT, MF and MT numbers in columns 67-75.  Models `record::Tail::fields`, record/Tail.hpp 31. -/
structure Nums where
  mat : Int
  mf : Int
  mt : Int
deriving DecidableEq, Repr

/-- The numbers fit their columns (4, 2 and 3 columns, record/Tail.hpp 24-28). -/
def Nums.Fit (t : Nums) : Prop := fits 4 t.mat ∧ fits 2 t.mf ∧ fits 3 t.mt

instance (t : Nums) : Decidable t.Fit := by unfold Nums.Fit; exact inferInstance

/-- Columns of a control record.  Models the `FieldTuple` of
    `record::Base< Real, Real, Integer<11>, Integer<11>, Integer<11>, Integer<11> >`, ControlRecord.hpp 21-30,
    StructureDivision.hpp 18-21. -/
structure Cont [Disco] where
  c1 : Dbl
  c2 : Dbl
  l1 : Int
  l2 : Int
  n1 : Int
  n2 : Int
deriving DecidableEq

variable [Disco]

/-- record/Tail.hpp 34-50: the format has four integer fields (4, 2, 3 and 5 columns), the last one (the sequence number) is
    read but not stored; the rest of the line is consumed; `++lineNumber`. -/
def readTail : Parser Nums := do
  let mat ← readInt 4
  let mf ← readInt 2
  let mt ← readInt 3
  let _ ← readInt 5
  readEndLine
  let s ← Parser.get
  Parser.set { s with line := s.line + 1 }
  pure ⟨mat, mf, mt⟩

/-- record/TailVerifying.hpp 24-37 for `TailVerifying< MAT, MF, MT >`: the innermost check (MT, position 2) runs first. -/
def verifyTail (e : Nums) : Parser Unit := do
  let t ← readTail
  if t.mt ≠ e.mt then Parser.fail (.int 8)
  else if t.mf ≠ e.mf then Parser.fail (.int 7)
  else if t.mat ≠ e.mat then Parser.fail (.int 6)
  else pure ()

/-- Writing of the tail by every `Format::write( it, ..., MAT, MF, MT )`:
    `Integer<4>, Integer<2>, Integer<3>, Column<5>` and the newline (e.g. ControlRecord/src/print.hpp 15-24). -/
def tailText (t : Nums) : Text :=
  writeInt 4 t.mat ++ writeInt 2 t.mf ++ writeInt 3 t.mt ++ blanks 5 ++ ['\n']

/-- record/Base.hpp 62-87 for `Base< Real, Real, Integer<11> x 4 >` (the newline is retained). -/
def readContBase : Parser Cont := do
  let c1 ← readReal
  let c2 ← readReal
  let l1 ← readInt 11
  let l2 ← readInt 11
  let n1 ← readInt 11
  let n2 ← readInt 11
  pure ⟨c1, c2, l1, l2, n1, n2⟩

/-- The 66 columns of a control record. -/
def contText (c : Cont) : Text :=
  writeReal c.c1 ++ writeReal c.c2 ++ writeInt 11 c.l1 ++ writeInt 11 c.l2 ++ writeInt 11 c.n1 ++ writeInt 11 c.n2

/-- ControlRecord.hpp 72-84 (reading constructor with its catch clauses). -/
def readCont (e : Nums) : Parser Cont := Parser.mapErr catchInt do
  let c ← readContBase
  verifyTail e
  pure c

/-- ControlRecord/src/print.hpp 11-25. -/
def printCont (c : Cont) (t : Nums) : Text := contText c ++ tailText t

/-- A structure division (also a HEAD record: HeadRecord.hpp 22-79 adds no data).  StructureDivision.hpp 13-32. -/
structure Division where
  base : Cont
  tail : Nums
deriving DecidableEq

/-- StructureDivision.hpp 38-104 (reading constructor; `HeadRecord( it, end, lineNumber )`, HeadRecord.hpp 36-38, is the same). -/
def readDivision : Parser Division := Parser.mapErr catchInt do
  let base ← readContBase
  let tail ← readTail
  if tail.mat < -1 then Parser.fail .exc
  else if tail.mf < 0 then Parser.fail .exc
  else if tail.mt < 0 then Parser.fail .exc
  else pure ⟨base, tail⟩

namespace Division

/-- StructureDivision.hpp 106-109 -/
def isHead (d : Division) : Bool := d.tail.mt ≠ 0 && d.tail.mf ≠ 0 && d.tail.mat ≠ 0

/-- `this->base == empty` with `Base empty( 0.0, 0.0, 0, 0, 0, 0 )` (record/Base.hpp 95-115, doubles compared with ==) -/
def baseIsZero (d : Division) : Bool :=
  Disco.eqD Disco.zero d.base.c1 && Disco.eqD Disco.zero d.base.c2 &&
  d.base.l1 == 0 && d.base.l2 == 0 && d.base.n1 == 0 && d.base.n2 == 0

/-- StructureDivision.hpp 111-115 -/
def isSendPermissive (d : Division) : Bool := d.baseIsZero && d.tail.mt == 0

/-- StructureDivision.hpp 117-122 -/
def isSend (d : Division) : Bool := d.isSendPermissive && d.tail.mf ≠ 0 && decide (d.tail.mat > 0)

/-- StructureDivision.hpp 124-127 -/
def isFendPermissive (d : Division) : Bool := d.isSendPermissive && d.tail.mf == 0

/-- StructureDivision.hpp 129-132 -/
def isFend (d : Division) : Bool := d.isFendPermissive && decide (d.tail.mat > 0)

/-- StructureDivision.hpp 134-137 -/
def isMend (d : Division) : Bool := d.isFendPermissive && d.tail.mat == 0

/-- StructureDivision.hpp 139-142 -/
def isTend (d : Division) : Bool := d.isFendPermissive && d.tail.mat == -1

/-- StructureDivision.hpp 144-172 -/
def print (d : Division) : Text :=
  if d.isHead then contText d.base ++ tailText d.tail
  else writeInt 70 d.tail.mat ++ writeInt 2 d.tail.mf ++ writeInt 3 d.tail.mt ++ blanks 5 ++ ['\n']

/-- HeadRecord.hpp 40-43 -/
def za (d : Division) : Int := Disco.round d.base.c1

end Division

/-- `Base( 0.0, 0.0, 0, 0, 0, 0 )` -/
def zeroCont : Cont := ⟨Disco.zero, Disco.zero, 0, 0, 0, 0⟩

/-- StructureDivision.hpp 175-197 -/
def SEND (mat mf : Int) : Except Err Division :=
  if mat < 1 then .error .exc
  else if mf < 1 then .error .exc
  else .ok ⟨zeroCont, ⟨mat, mf, 0⟩⟩

/-- StructureDivision.hpp 199-211 -/
def FEND (mat : Int) : Except Err Division :=
  if mat < 1 then .error .exc
  else .ok ⟨zeroCont, ⟨mat, 0, 0⟩⟩

/-- StructureDivision.hpp 213-218 -/
def MEND : Division := ⟨zeroCont, ⟨0, 0, 0⟩⟩

/-- StructureDivision.hpp 220-225 -/
def TEND : Division := ⟨zeroCont, ⟨-1, 0, 0⟩⟩

/-- record/skip.hpp 16-25: skip a record, returning its tail. -/
def skip : Parser Nums := do
  let _ ← readChars 66
  readTail

/-- TextRecord.hpp 23-40 -/
def readText (e : Nums) : Parser Text := Parser.mapErr catchInt do
  let t ← readChars 66
  verifyTail e
  pure t

/-- TextRecord/src/print.hpp 1-10 -/
def printText (text : Text) (t : Nums) : Text := writeChars 66 text ++ tailText t

/-- An entry of the MF1 MT451 directory.  DirectoryRecord.hpp 21-46. -/
structure Dir where
  mf : Int
  mt : Int
  nc : Int
  mod : Int
deriving DecidableEq, Repr

/-- DirectoryRecord.hpp 67-83 -/
def readDir (e : Nums) : Parser Dir := Parser.mapErr catchInt do
  let mf ← readInt 33
  let mt ← readInt 11
  let nc ← readInt 11
  let mod ← readInt 11
  verifyTail e
  pure ⟨mf, mt, nc, mod⟩

/-- DirectoryRecord/src/print.hpp 11-21 -/
def printDir (d : Dir) (t : Nums) : Text :=
  writeInt 33 d.mf ++ writeInt 11 d.mt ++ writeInt 11 d.nc ++ writeInt 11 d.mod ++ tailText t

/-- TapeIdentification.hpp 23-27 -/
structure Tpid where
  text : Text
  ntape : Int
deriving DecidableEq, Repr

/-- TapeIdentification.hpp 30-42 -/
def executeOrder66 (t : Text) : Text := if t.length > 66 then t.take 66 else t ++ blanks (66 - t.length)

/-- TapeIdentification.hpp 54-55 -/
def Tpid.make (text : Text) (tape : Int := 0) : Tpid := ⟨executeOrder66 text, tape⟩

/-- `TailVerifying< MF, MT >` with expected values 0, 0 (TapeIdentification.hpp 27, 68; TailVerifying.hpp 24-37): MT is checked first. -/
def verifyTailMFMT (mf mt : Int) : Parser Nums := do
  let t ← readTail
  if t.mt ≠ mt then Parser.fail (.int 8)
  else if t.mf ≠ mf then Parser.fail (.int 7)
  else pure t

/-- TapeIdentification.hpp 66-79 -/
def readTpid : Parser Tpid := Parser.mapErr catchInt do
  let text ← readChars 66
  let t ← verifyTailMFMT 0 0
  pure ⟨text, t.mat⟩

/-- TapeIdentification/src/print.hpp 11-20: the numbers are those given, the stored tape number is not used. -/
def printTpid (p : Tpid) (t : Nums) : Text := writeChars 66 p.text ++ tailText t

end ENDFtk

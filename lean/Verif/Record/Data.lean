import Verif.Record.Control
/-
  Multi line records: the block reader `record::Zipper`, LIST, TAB1, TAB2, interpolation sequences, and INTG.
-/
namespace ENDFtk
variable [Disco]

/-- The entry type of a block of data: `Zipped< ENDFTypes... >`, record/Zipper/src/Zipped.hpp 1-55.
    `per` is `tuplesPerRecord`; `read` is `TupleFormat::read` (newline retained); `isDefault x` is `x == defaultTuple()`. -/
structure Fmt (α : Type) where
  per : Nat
  read : Parser α
  write : α → Text
  blank : Text
  isDefault : α → Bool

/-- `Zipped< Real >`: six entries of 11 columns (tuplesPerRecord = 66 / 11). -/
def realFmt : Fmt Dbl := ⟨6, readReal, writeReal, blanks 11, fun x => Disco.eqD x Disco.zero⟩

/-- Two fields after each other. -/
def pairRead {α β : Type} (p : Parser α) (q : Parser β) : Parser (α × β) := do
  let a ← p
  let b ← q
  pure (a, b)

/-- `Zipped< Real, Real >`: three pairs of 22 columns; printing as in TabulationRecord/src/print.hpp 29-48. -/
def realPairFmt : Fmt (Dbl × Dbl) :=
  ⟨3, pairRead readReal readReal, fun p => writeReal p.1 ++ writeReal p.2, blanks 11 ++ blanks 11,
    fun p => Disco.eqD p.1 Disco.zero && Disco.eqD p.2 Disco.zero⟩

/-- `Zipped< Integer<11>, Integer<11> >`: three pairs of 22 columns; printing as in InterpolationBase/src/print.hpp 31-55. -/
def intPairFmt : Fmt (Int × Int) :=
  ⟨3, pairRead (readInt 11) (readInt 11), fun p => writeInt 11 p.1 ++ writeInt 11 p.2, blanks 11 ++ blanks 11,
    fun p => p.1 == 0 && p.2 == 0⟩

namespace Fmt
variable {α : Type}

/-- `n` entries one after the other: record/Zipper/src/expandReferencePack.hpp 1-27, process.hpp 4, readPartialLine.hpp 13-16. -/
def readEntries (f : Fmt α) : Nat → Parser (List α)
  | 0 => pure []
  | n + 1 => do
    let x ← f.read
    let xs ← f.readEntries n
    pure (x :: xs)

/-- record/Zipper/src/readPartialLine.hpp 18-27: the unused entries of the line. -/
def readLeftovers (f : Fmt α) : Nat → Parser Unit
  | 0 => pure ()
  | n + 1 => do
    let x ← f.read
    if f.isDefault x then f.readLeftovers n else Parser.fail .exc

/-- record/Zipper/src/readLine.hpp 1-9, process.hpp 1-7 -/
def readFullLine (f : Fmt α) (e : Nums) : Parser (List α) := do
  let xs ← f.readEntries f.per
  verifyTail e
  pure xs

/-- record/Zipper/src/readPartialLine.hpp 1-35 -/
def readPartialLine (f : Fmt α) (e : Nums) (n : Nat) : Parser (List α) := do
  let xs ← (do
    let xs ← f.readEntries n
    f.readLeftovers (f.per - n)
    pure xs)
  verifyTail e
  pure xs

/-- record/Zipper/src/unzip.hpp 14-18 (`while ( remainingLines-- )`) -/
def readFullLines (f : Fmt α) (e : Nums) : Nat → Parser (List α)
  | 0 => pure []
  | k + 1 => do
    let xs ← f.readFullLine e
    let ys ← f.readFullLines e k
    pure (xs ++ ys)

/-- record/Zipper/src/unzip.hpp 1-28 (and record/Sequence/src/read.hpp 1-10).
    Simplification: `int remainingLines` is unbounded (memory for the result would be exhausted first), a `std::bad_alloc` /
    `std::length_error` of `resize` is not distinguished from the exception raised when the text ends. -/
def unzip (f : Fmt α) (e : Nums) (n : Nat) : Parser (List α) := do
  let xs ← f.readFullLines e (n / f.per)
  if n % f.per ≠ 0 then do
    let ys ← f.readPartialLine e (n % f.per)
    pure (xs ++ ys)
  else pure xs

/-- Full lines of a block: ListRecord/src/print.hpp 36-44, InterpolationBase/src/print.hpp 31-38, TabulationRecord/src/print.hpp 29-32. -/
def writeFullLines (f : Fmt α) (t : Nums) : Nat → List α → Text
  | 0, _ => []
  | k + 1, xs => (xs.take f.per).flatMap f.write ++ tailText t ++ f.writeFullLines t k (xs.drop f.per)

/-- Printing of a block: ListRecord/src/print.hpp 31-60, InterpolationBase/src/print.hpp 25-55, TabulationRecord/src/print.hpp 23-49. -/
def writeBlock (f : Fmt α) (t : Nums) (xs : List α) : Text :=
  f.writeFullLines t (xs.length / f.per) xs ++
  (if xs.length % f.per ≠ 0 then
    (xs.drop (xs.length / f.per * f.per)).flatMap f.write ++
      (List.replicate (f.per - xs.length % f.per) f.blank).flatten ++ tailText t
  else [])

end Fmt

/-! ### LIST -/

/-- ListRecord.hpp 21-34: `metadata` (its N1 is overridden by `data.size()` in every accessor) and `data`. -/
structure LIST where
  c1 : Dbl
  c2 : Dbl
  l1 : Int
  l2 : Int
  n2 : Int
  data : List Dbl
deriving DecidableEq

namespace LIST

/-- ListRecord.hpp 112 -/
def npl (r : LIST) : Int := r.data.length

/-- ListRecord.hpp 162 (`long` division; all operands are non negative) -/
def nc (r : LIST) : Nat := 1 + (r.data.length + 5) / 6

/-- The first line: C1, C2, L1, L2, NPL, N2. -/
def meta' (r : LIST) : Cont := ⟨r.c1, r.c2, r.l1, r.l2, r.npl, r.n2⟩

/-- ListRecord/src/print.hpp 11-61 -/
def print (r : LIST) (t : Nums) : Text := printCont r.meta' t ++ realFmt.writeBlock t r.data

end LIST

/-- ListRecord/src/readMetadata.hpp 1-19 -/
def readListMeta (e : Nums) : Parser Cont := do
  let c ← (do
    let c ← readContBase
    verifyTail e
    pure c)
  if c.n1 < 0 then Parser.fail .exc else pure c

/-- ListRecord.hpp 82-95 -/
def readLIST (e : Nums) : Parser LIST := Parser.mapErr catchInt do
  let c ← readListMeta e
  let data ← realFmt.unzip e c.n1.toNat
  pure ⟨c.c1, c.c2, c.l1, c.l2, c.n2, data⟩

/-! ### interpolation tables -/

/-- `std::is_sorted_until( ... ) == end` with `operator<` given by `lt`. -/
def isSorted {α : Type} (lt : α → α → Bool) : List α → Bool
  | a :: b :: l => !lt b a && isSorted lt (b :: l)
  | _ => true

/-- `record::InterpolationBase` (record/InterpolationBase.hpp 33-36) and `InterpolationRecord` (TAB2), which adds nothing. -/
structure TAB2 where
  c1 : Dbl
  c2 : Dbl
  l1 : Int
  l2 : Int
  bounds : List Int
  ints : List Int
deriving DecidableEq

namespace TAB2

/-- record/InterpolationBase.hpp 74 -/
def nr (r : TAB2) : Int := r.bounds.length

/-- record/InterpolationBase.hpp 78: `boundaryIndices.back()` (undefined on an empty vector; the constructors exclude it). -/
def n2 (r : TAB2) : Int := r.bounds.getLastD 0

/-- record/InterpolationBase/src/ctor.hpp 9-18, InterpolationRecord/src/ctor.hpp 19-29.
    `boundaryIndices.back()` is evaluated first: undefined behaviour for an empty vector. -/
def make (c1 c2 : Dbl) (l1 l2 : Int) (bounds ints : List Int) : Except Err TAB2 :=
  if bounds = [] then .error .ub
  else if bounds.length ≠ ints.length then .error .exc
  else if !isSorted (fun a b => decide (a < b)) bounds then .error .exc
  else .ok ⟨c1, c2, l1, l2, bounds, ints⟩

/-- record/InterpolationBase.hpp 107 -/
def nc (r : TAB2) : Nat := 1 + (r.bounds.length + 2) / 3

/-- The first line. -/
def meta' (r : TAB2) : Cont := ⟨r.c1, r.c2, r.l1, r.l2, r.nr, r.n2⟩

/-- record/InterpolationBase/src/print.hpp 1-57 -/
def print (r : TAB2) (t : Nums) : Text := printCont r.meta' t ++ intPairFmt.writeBlock t (r.bounds.zip r.ints)

end TAB2

/-- Lift a constructor (which reads nothing) into a reading function. -/
def liftE {α : Type} (x : Except Err α) : Parser α := fun s =>
  match x with
  | .ok a => .ok (a, s)
  | .error e => .error e

/-- record/InterpolationBase/src/readMetadata.hpp 1-18 -/
def readInterpMeta (e : Nums) : Parser Cont := do
  let c ← (do
    let c ← readContBase
    verifyTail e
    pure c)
  if c.n1 < 1 then Parser.fail .exc
  else if c.n2 < 0 then Parser.fail .illegalN2
  else pure c

/-- record/InterpolationBase/src/readRangeDescriptions.hpp 1-17 -/
def readRanges (e : Nums) (n : Nat) : Parser (List (Int × Int)) := do
  let ps ← intPairFmt.unzip e n
  if !isSorted (fun a b => decide (a < b)) (ps.map Prod.fst) then Parser.fail .exc else pure ps

/-- record/InterpolationBase/src/ctor.hpp 29-57, verifyN2.hpp 1-7 -/
def readInterpBase (e : Nums) : Parser TAB2 := do
  let c ← readInterpMeta e
  let ps ← readRanges e c.n1.toNat
  let r ← liftE (TAB2.make c.c1 c.c2 c.l1 c.l2 (ps.map Prod.fst) (ps.map Prod.snd))
  if c.n2 ≠ r.n2 then Parser.fail .inconsistentN2 else pure r

/-- InterpolationRecord/src/ctor.hpp 58-85 -/
def readTAB2 (e : Nums) : Parser TAB2 := Parser.mapErr catchAll (readInterpBase e)

/-- TabulationRecord.hpp 29-33 -/
structure TAB1 where
  base : TAB2
  x : List Dbl
  y : List Dbl
deriving DecidableEq

namespace TAB1

/-- TabulationRecord/src/verifyNP.hpp 1-13: the arguments are converted to `unsigned int` (32 bits). -/
def npDiffer (index np : Int) : Bool := index % 4294967296 != np % 4294967296

/-- TabulationRecord/src/ctor.hpp 21-38 -/
def make (c1 c2 : Dbl) (l1 l2 : Int) (bounds ints : List Int) (x y : List Dbl) : Except Err TAB1 :=
  match TAB2.make c1 c2 l1 l2 bounds ints with
  | .error e => .error e
  | .ok base =>
    if !isSorted Disco.ltD x then .error .exc
    else if x.length ≠ y.length then .error .exc
    else if npDiffer base.n2 x.length then .error .exc
    else .ok ⟨base, x, y⟩

/-- TabulationRecord.hpp 69 -/
def np (r : TAB1) : Nat := r.x.length

/-- TabulationRecord.hpp 144-147 -/
def nc (r : TAB1) : Nat := r.base.nc + (r.x.length + 2) / 3

/-- TabulationRecord/src/print.hpp 11-50 -/
def print (r : TAB1) (t : Nums) : Text := r.base.print t ++ realPairFmt.writeBlock t (r.x.zip r.y)

/-- A subrange `begin + left .. begin + right` of a vector; iterators outside of the vector are undefined behaviour. -/
def subrange {α : Type} (v : List α) (left right : Int) : Except Err (List α) :=
  if 0 ≤ left ∧ left ≤ right ∧ right ≤ v.length then .ok ((v.take right.toNat).drop left.toNat)
  else .error .ub

/-- TabulationRecord.hpp 43-53 for region `i` (counted from 0). -/
def region (r : TAB1) (i : Nat) : Except Err (List Dbl × List Dbl) :=
  let left : Int := if i = 0 then 0 else r.base.bounds.getD (i - 1) 0 - 1
  let right : Int := r.base.bounds.getD i 0
  match subrange r.x left right, subrange r.y left right with
  | .ok a, .ok b => .ok (a, b)
  | _, _ => .error .ub

/-- TabulationRecord.hpp 111-117 -/
def regions (r : TAB1) : List (Except Err (List Dbl × List Dbl)) := (List.range r.base.bounds.length).map r.region

end TAB1

/-- TabulationRecord/src/readPairs.hpp 1-19.  `nPairs` is `interpolation.N2()`, converted to `uint64_t`: it equals the N2 of the first
    line, which has been checked to be non negative. -/
def readPairs (e : Nums) (n : Int) : Parser (List (Dbl × Dbl)) := do
  let ps ← realPairFmt.unzip e n.toNat
  if !isSorted Disco.ltD (ps.map Prod.fst) then Parser.fail .exc else pure ps

/-- TabulationRecord/src/ctor.hpp 66-125 -/
def readTAB1 (e : Nums) : Parser TAB1 := Parser.mapErr catchAll do
  let base ← readInterpBase e
  let ps ← readPairs e base.n2
  pure ⟨base, ps.map Prod.fst, ps.map Prod.snd⟩

/-! ### sequences of components -/

/-- readSequence.hpp 31-37, the loop. -/
def readMany {α : Type} (p : Parser α) : Nat → Parser (List α)
  | 0 => pure []
  | n + 1 => do
    let x ← p
    let xs ← readMany p n
    pure (x :: xs)

/-- Conversion to a 32 bit `int`. -/
@[irreducible] def toInt32 (n : Int) : Int := (n + 2147483648) % 4294967296 - 2147483648

/-- readSequence.hpp 21-40: the number of components is converted to `int`; `reserve` of a negative size throws `std::length_error`. -/
def readSequence {α : Type} (p : Parser α) (n : Int) : Parser (List α) :=
  if toInt32 n < 0 then Parser.fail .exc else readMany p (toInt32 n).toNat

/-- InterpolationSequenceRecord.hpp 105-110 -/
structure ISeq (α : Type) where
  tab2 : TAB2
  seq : List α

/-- InterpolationSequenceRecord/src/ctor.hpp 15-22, verifyNZ.hpp 1-20.  (`validateSequence` does nothing, InterpolationSequenceRecord.hpp 89-90;
    there are no other overloads.) -/
def ISeq.make {α : Type} (tab2 : TAB2) (seq : List α) : Except Err (ISeq α) :=
  if (seq.length : Int) % 4294967296 = 0 then .error .exc
  else if TAB1.npDiffer tab2.n2 seq.length then .error .exc
  else .ok ⟨tab2, seq⟩

/-- InterpolationSequenceRecord/src/NC.hpp 1-9 -/
def ISeq.nc {α : Type} (nc : α → Nat) (r : ISeq α) : Nat := r.tab2.nc + (r.seq.map nc).sum

/-- InterpolationSequenceRecord/src/print.hpp 11-19 -/
def ISeq.print {α : Type} (pr : α → Nums → Text) (r : ISeq α) (t : Nums) : Text :=
  r.tab2.print t ++ r.seq.flatMap (fun a => pr a t)

/-- InterpolationSequenceRecord/src/readInterpolationSequenceRecord.hpp 9-23 -/
def readISeq {α : Type} (p : Nums → Parser α) (e : Nums) : Parser (ISeq α) := do
  let tab2 ← readTAB2 e
  let seq ← readSequence (p e) tab2.n2
  liftE (ISeq.make tab2 seq)

/-! ### INTG -/

/-- `++it`, `it += n` without a check against `end` (record/IntegerBase/src/readIntegers.hpp 7, 24, 25). -/
def advance (n : Nat) : Parser Unit := fun s =>
  if s.rest.length < n then .error .ub else .ok ((), { s with rest := s.rest.drop n })

/-- record/IntegerBase.hpp 23-25 (`I` and `J` are `unsigned int`) -/
structure INTG where
  i : Int
  j : Int
  k : List Int
deriving DecidableEq, Repr

/-- `IntegerBase< NDIGIT, N >`, as instantiated in section/32/151/CompactCorrelationMatrix/src/readMatrixElements.hpp 46-96. -/
def intgN : Nat → Nat
  | 2 => 18
  | 3 => 13
  | 4 => 11
  | 5 => 9
  | 6 => 8
  | _ => 0

/-- Trailing columns: readIntegers.hpp 20-27, print.hpp 26-32. -/
def intgPad : Nat → Nat
  | 2 => 1
  | 3 => 3
  | 5 => 1
  | _ => 0

/-- readIntegers.hpp 15-18 -/
def stripZeros (k : List Int) : List Int := (k.reverse.dropWhile (· == 0)).reverse

/-- record/IntegerBase/src/readIntegers.hpp 1-30 -/
def readIntegers (nd n : Nat) : Parser (List Int) := do
  let _ ← (if nd ≠ 6 then advance 1 else pure () : Parser Unit)
  let k ← readMany (readInt (nd + 1)) n
  advance (intgPad nd)
  pure (stripZeros k)

/-- verifyUnsigned.hpp 1-12: a value that is not positive is only logged; conversion to `unsigned int`. -/
def toUnsigned (v : Int) : Int := v % 4294967296

/-- record/IntegerBase/src/ctor.hpp 8-12, verifySize.hpp 1-11 -/
def INTG.make (n : Nat) (i j : Int) (k : List Int) : Except Err INTG :=
  if k.length > n then .error .exc else .ok ⟨toUnsigned i, toUnsigned j, k⟩

/-- record/IntegerBase/src/ctor.hpp 16-69 -/
def readINTG (nd n : Nat) (e : Nums) : Parser INTG := Parser.mapErr catchInt do
  let i ← readInt 5
  let j ← readInt 5
  let k ← readIntegers nd n
  let r ← liftE (INTG.make n i j k)
  verifyTail e
  pure r

/-- record/IntegerBase/src/print.hpp 11-42 -/
def INTG.print (nd n : Nat) (r : INTG) (t : Nums) : Text :=
  writeInt 5 r.i ++ writeInt 5 r.j ++ (if nd ≠ 6 then blanks 1 else []) ++
  r.k.flatMap (writeInt (nd + 1)) ++ blanks (intgPad nd) ++
  (List.replicate (n - r.k.length) (blanks (nd + 1))).flatten ++ tailText t

end ENDFtk

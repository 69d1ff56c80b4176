import Verif.Record.Data
/-
  The ENDF tree: tree/Section, tree/File, tree/Material, tree/Tape.
  Modifying member functions return the outcome (normal or exception) together with the state they leave behind.
-/
namespace ENDFtk

/-! ### std::map< int, X > and std::multimap< int, X > -/

/-- `std::map< int, X >` / `std::multimap< int, X >` with `std::less< int >`: the entries in iteration order. -/
abbrev SMap (α : Type) := List (Int × α)

namespace SMap
variable {α : Type}

/-- `count( k ) != 0` -/
def has (m : SMap α) (k : Int) : Bool := m.any (fun e => e.1 == k)

/-- `find( k )` of a map -/
def get? (m : SMap α) (k : Int) : Option α := (m.find? (fun e => e.1 == k)).map (·.2)

/-- `at( k )` -/
def at' (m : SMap α) (k : Int) : Except Err α :=
  match m.get? k with
  | some a => .ok a
  | none => .error .outOfRange

/-- Insertion after all entries with a key not larger than `k`: `multimap::emplace`. -/
def emplaceMulti (k : Int) (v : α) : SMap α → SMap α
  | [] => [(k, v)]
  | e :: m => if k < e.1 then (k, v) :: e :: m else e :: emplaceMulti k v m

/-- `map::emplace`: does nothing if the key is present. -/
def emplace (m : SMap α) (k : Int) (v : α) : SMap α := if m.has k then m else emplaceMulti k v m

/-- `erase( k )`: removes all entries with that key. -/
def erase (m : SMap α) (k : Int) : SMap α := m.filter (fun e => e.1 != k)

/-- Modification of the element found by `find( k )`. -/
def modify (m : SMap α) (k : Int) (f : α → α) : SMap α := m.map (fun e => if e.1 == k then (e.1, f e.2) else e)

/-- keys in iteration order (`views::keys`) -/
def keys (m : SMap α) : List Int := m.map (·.1)

/-- values in iteration order (`views::values`) -/
def values (m : SMap α) : List α := m.map (·.2)

/-- A modifying call on every value in turn; an exception ends the loop. -/
def forEach (f : α → Except Err Unit × α) : SMap α → Except Err Unit × SMap α
  | [] => (.ok (), [])
  | (k, v) :: m =>
      match f v with
      | (.error e, v') => (.error e, (k, v') :: m)
      | (.ok (), v') =>
          let (r, m') := forEach f m
          (r, (k, v') :: m')

end SMap

variable [Disco]

/-- The `catch ( std::exception& e ) { ...; throw e; }` of the tree constructors: the exception is sliced. -/
def catchStd : Err → Err
  | .outOfRange => .exc
  | e => e

/-! ### tree::Section -/

/-- tree/Section.hpp 26-29 -/
structure TSection where
  mat : Int
  mf : Int
  mt : Int
  content : Text
deriving DecidableEq, Repr

/-- tree/Section/src/findEnd.hpp 1-15.  The first argument is fuel. -/
def findEnd : Nat → Parser Unit
  | 0 => Parser.fail .fuel
  | fuel + 1 => do
      let t ← skip
      if t.mt ≠ 0 then do
        let s ← Parser.get
        if s.rest = [] then Parser.fail .exc
        else findEnd fuel
      else pure ()

/-- tree/Section/src/ctor.hpp 26-45: the content is the buffer from `begin` up to the position after the SEND record. -/
def readTSection (head : Nums) (begin : Text) : Parser TSection := Parser.mapErr catchStd do
  let s ← Parser.get
  findEnd (s.rest.length + 1)
  let s' ← Parser.get
  pure ⟨head.mat, head.mf, head.mt, begin.take (begin.length - s'.rest.length)⟩

namespace TSection

/-- tree/Section.hpp 76-83: `std::count( ... ) - 1` as `unsigned int`. -/
def nc (s : TSection) : Int := ((s.content.count '\n' : Int) - 1) % 4294967296

/-- The loop of tree/Section/src/clean.hpp 17-21: the text produced so far and the outcome. -/
def cleanLoop (t : Nums) : Nat → St → Text → Except Err Unit × Text
  | 0, _, out => (.ok (), out)
  | n + 1, s, out =>
      match readText t s with
      | .error e => (.error e, out)
      | .ok (x, s') => cleanLoop t n s' (out ++ printText x t)

/-- tree/Section/src/clean.hpp 6-23.  `int NC = this->NC()` narrows to 32 bits; a negative number runs no iteration. -/
def clean (s : TSection) : Except Err Unit × TSection :=
  match cleanLoop ⟨s.mat, s.mf, s.mt⟩ (toInt32 s.nc).toNat ⟨s.content, 0⟩ [] with
  | (.error e, out) => (.error e, { s with content := out })
  | (.ok (), out) =>
      match SEND s.mat s.mf with
      | .error e => (.error e, { s with content := out })
      | .ok d => (.ok (), { s with content := out ++ d.print })

end TSection

/-! ### indexing loops -/

/-- "skip any duplicate SEND / FEND / MEND records": tree/File/src/createMap.hpp 44-53, tree/Material/src/createMap.hpp 44-53,
    tree/Tape/src/createMap.hpp 17-28.  `begin` is the position of `division`; the first argument is fuel. -/
def skipWhile (p : Division → Bool) : Nat → Text → Division → Parser (Text × Division)
  | 0, _, _ => Parser.fail .fuel
  | fuel + 1, begin, division =>
      if p division then do
        let s ← Parser.get
        let division' ← readDivision
        let s' ← Parser.get
        if s'.rest = [] then pure (s.rest, division') else skipWhile p fuel s.rest division'
      else pure (begin, division)

/-- The loop shared by tree/File/src/createMap.hpp 16-54 and tree/Material/src/createMap.hpp 16-54 (the same statements):
    `mine` is the loop condition on a HEAD, `key` its map key, `item` the element constructor, `isEnd` the redundant end record. -/
def createLoop {α : Type} (mine : Division → Bool) (key : Division → Int) (item : Nums → Text → Parser α) (isEnd : Division → Bool) :
    Nat → Text → Division → SMap α → Parser (Text × Division × SMap α)
  | 0, _, _, _ => Parser.fail .fuel
  | fuel + 1, begin, division, m =>
      if division.isHead && mine division then
        if m.has (key division) then Parser.fail .exc
        else do
          let x ← item division.tail begin
          let s ← Parser.get
          if s.rest = [] then Parser.fail .exc
          else do
            let d ← readDivision
            let s' ← Parser.get
            let (begin', d') ← skipWhile isEnd (s'.rest.length + 1) s.rest d
            createLoop mine key item isEnd fuel begin' d' (m.emplace (key division) x)
      else pure (begin, division, m)

/-- tree/File/src/createMap.hpp 1-66 and tree/Material/src/createMap.hpp 1-66 around the loop: `--lineNumber`, back to `begin`, and afterwards
    back to the last division if it is not the proper end record (`lineNumber` is not set back). -/
def createMap {α : Type} (mine : Division → Bool) (key : Division → Int) (item : Nums → Text → Parser α) (isEnd isFinal : Division → Bool)
    (begin : Text) : Parser (SMap α) := do
  let s ← Parser.get
  Parser.set ⟨begin, s.line - 1⟩
  let d ← readDivision
  let (begin', d', m) ← createLoop mine key item isEnd (begin.length + 1) begin d []
  let s' ← Parser.get
  if isFinal d' then pure m
  else do
    Parser.set ⟨begin', s'.line⟩
    pure m

/-! ### tree::File -/

/-- tree/File.hpp 31-33 -/
structure TFile where
  mat : Int
  mf : Int
  sections : SMap TSection
deriving DecidableEq, Repr

/-- tree/File/src/ctor.hpp 20-31, tree/File/src/createMap.hpp 1-66: only MF is compared with that of the first HEAD. -/
def readTFile (head : Nums) (begin : Text) : Parser TFile := Parser.mapErr catchStd do
  let m ← createMap (fun d => d.tail.mf == head.mf) (fun d => d.tail.mt) readTSection Division.isSend Division.isFend begin
  pure ⟨head.mat, head.mf, m⟩

namespace TFile

/-- tree/File/src/ctor.hpp 1-7 -/
def empty (mat mf : Int) : TFile := ⟨mat, mf, []⟩
/-- tree/File.hpp 93-96 -/
def hasMT (f : TFile) (mt : Int) : Bool := f.sections.has mt
/-- tree/File/src/section.hpp 6-18 (`throw error` of the caught `std::out_of_range`) -/
def section' (f : TFile) (mt : Int) : Except Err TSection := f.sections.at' mt
/-- tree/File.hpp 66-69 -/
def sectionNumbers (f : TFile) : List Int := f.sections.keys
/-- tree/File.hpp 109-120 -/
def sections' (f : TFile) : List TSection := f.sections.values
/-- tree/File.hpp 158 -/
def size (f : TFile) : Nat := f.sections.length

/-- tree/File.hpp 163-178: FEND( MAT ) throws for MAT < 1. -/
def content (f : TFile) : Except Err Text :=
  let c := f.sections'.flatMap (·.content)
  if c.length ≠ 0 then
    match FEND f.mat with
    | .ok d => .ok (c ++ d.print)
    | .error e => .error e
  else .ok c

/-- tree/File/src/remove.hpp 6-13 -/
def remove (f : TFile) (mt : Int) : TFile := { f with sections := f.sections.erase mt }

/-- tree/File/src/insertOrReplace.hpp 11-24 -/
def insertOrReplace (f : TFile) (s : TSection) : Except Err Unit × TFile :=
  if f.mat ≠ s.mat ∨ f.mf ≠ s.mf then (.error .exc, f)
  else (.ok (), { f with sections := (f.remove s.mt).sections.emplace s.mt s })

/-- tree/File/src/insert.hpp 13-23 -/
def insert (f : TFile) (s : TSection) : Except Err Unit × TFile :=
  if f.hasMT s.mt then (.error .exc, f) else f.insertOrReplace s

/-- tree/File/src/clean.hpp 6-12 -/
def clean (f : TFile) : Except Err Unit × TFile :=
  let (r, m) := f.sections.forEach TSection.clean
  (r, { f with sections := m })

end TFile

/-! ### tree::Material -/

/-- tree/Material.hpp 30-31 -/
structure TMaterial where
  mat : Int
  files : SMap TFile
deriving DecidableEq, Repr

/-- tree/Material/src/ctor.hpp 19-30, tree/Material/src/createMap.hpp 1-66 -/
def readTMaterial (head : Nums) (begin : Text) : Parser TMaterial := Parser.mapErr catchStd do
  let m ← createMap (fun d => d.tail.mat == head.mat) (fun d => d.tail.mf) readTFile Division.isFend Division.isMend begin
  pure ⟨head.mat, m⟩

namespace TMaterial

/-- tree/Material/src/ctor.hpp 1-6 -/
def empty (mat : Int) : TMaterial := ⟨mat, []⟩
/-- tree/Material.hpp 126 -/
def hasMF (m : TMaterial) (mf : Int) : Bool := m.files.has mf
/-- tree/Material/src/file.hpp 6-22 -/
def file (m : TMaterial) (mf : Int) : Except Err TFile := m.files.at' mf
/-- tree/Material.hpp 82-85 -/
def section' (m : TMaterial) (mf mt : Int) : Except Err TSection :=
  match m.file mf with
  | .ok f => f.section' mt
  | .error e => .error e
/-- tree/Material.hpp 143-146 -/
def hasMFMT (m : TMaterial) (mf mt : Int) : Bool :=
  if m.hasMF mf then
    match m.file mf with
    | .ok f => f.hasMT mt
    | .error _ => false
  else false
/-- tree/Material.hpp 55-58 -/
def fileNumbers (m : TMaterial) : List Int := m.files.keys
/-- tree/Material.hpp 160-165 -/
def files' (m : TMaterial) : List TFile := m.files.values
/-- tree/Material.hpp 202 -/
def size (m : TMaterial) : Nat := m.files.length

/-- The contents of the elements, one after the other; an exception ends the loop. -/
def concat : List (Except Err Text) → Except Err Text
  | [] => .ok []
  | .error e :: _ => .error e
  | .ok t :: l =>
      match concat l with
      | .ok u => .ok (t ++ u)
      | .error e => .error e

/-- tree/Material.hpp 207-222 -/
def content (m : TMaterial) : Except Err Text :=
  match concat (m.files'.map TFile.content) with
  | .error e => .error e
  | .ok c => if c.length ≠ 0 then .ok (c ++ MEND.print) else .ok c

/-- tree/Material/src/remove.hpp 6-13 -/
def remove (m : TMaterial) (mf : Int) : TMaterial := { m with files := m.files.erase mf }

/-- tree/Material/src/remove.hpp 21-28 -/
def removeSection (m : TMaterial) (mf mt : Int) : TMaterial := { m with files := m.files.modify mf (fun f => f.remove mt) }

/-- `if ( !this->hasMF( mf ) ) this->files_.emplace( mf, File( this->MAT(), mf ) )`, tree/Material/src/insert.hpp 16-19,
    tree/Material/src/insertOrReplace.hpp 13-16 -/
def ensureMF (m : TMaterial) (mf : Int) : TMaterial :=
  if m.hasMF mf then m else { m with files := m.files.emplace mf (TFile.empty m.mat mf) }

/-- A modifying call on `this->MF( mf )`. -/
def onFile (m : TMaterial) (mf : Int) (op : TFile → Except Err Unit × TFile) : Except Err Unit × TMaterial :=
  match m.file mf with
  | .error e => (.error e, m)
  | .ok f =>
      let (r, f') := op f
      (r, { m with files := m.files.modify mf (fun _ => f') })

/-- tree/Material/src/insert.hpp 14-22 -/
def insertSection (m : TMaterial) (s : TSection) : Except Err Unit × TMaterial :=
  (m.ensureMF s.mf).onFile s.mf (fun f => f.insert s)

/-- tree/Material/src/insertOrReplace.hpp 11-19 -/
def insertOrReplaceSection (m : TMaterial) (s : TSection) : Except Err Unit × TMaterial :=
  (m.ensureMF s.mf).onFile s.mf (fun f => f.insertOrReplace s)

/-- tree/Material/src/insertOrReplace.hpp 49-62 -/
def insertOrReplaceFile (m : TMaterial) (f : TFile) : Except Err Unit × TMaterial :=
  if m.mat ≠ f.mat then (.error .exc, m)
  else (.ok (), { m with files := (m.remove f.mf).files.emplace f.mf f })

/-- tree/Material/src/insert.hpp 55-65 -/
def insertFile (m : TMaterial) (f : TFile) : Except Err Unit × TMaterial :=
  if m.hasMF f.mf then (.error .exc, m) else m.insertOrReplaceFile f

/-- tree/Material/src/clean.hpp 6-12 -/
def clean (m : TMaterial) : Except Err Unit × TMaterial :=
  let (r, x) := m.files.forEach TFile.clean
  (r, { m with files := x })

end TMaterial

/-! ### tree::Tape -/

/-- tree/Tape.hpp 37-38 -/
structure TTape where
  tpid : Option Tpid
  materials : SMap TMaterial
deriving DecidableEq, Repr

/-- The loop of tree/Tape/src/createMap.hpp 11-35. -/
def tapeLoop : Nat → Text → Division → SMap TMaterial → Parser (SMap TMaterial)
  | 0, _, _, _ => Parser.fail .fuel
  | fuel + 1, begin, division, m =>
      if division.isHead then do
        let x ← readTMaterial division.tail begin
        let s ← Parser.get
        let d ← readDivision
        let s' ← Parser.get
        let (begin', d') ← skipWhile Division.isMend (s'.rest.length + 1) s.rest d
        tapeLoop fuel begin' d' (SMap.emplaceMulti division.tail.mat x m)
      else if division.isTend then pure m
      else Parser.fail .exc

/-- tree/Tape/src/ctor.hpp 14-27 with tree/Tape/src/createMap.hpp 1-46.
    (`createMap` takes the position by value, the position after the TEND record is only visible in the model.) -/
def readTTape : Parser TTape := Parser.mapErr catchStd do
  let id ← readTpid
  let s ← Parser.get
  let d ← readDivision
  let m ← tapeLoop (s.rest.length + 1) s.rest d []
  pure ⟨some id, m⟩

namespace TTape

/-- The constructor `Tape( buffer, lineNumber = 0 )`, tree/Tape/src/ctor.hpp 14-27. -/
def ofBuffer (b : Text) (line : Int := 0) : Except Err TTape :=
  match readTTape ⟨b, line⟩ with
  | .ok (t, _) => .ok t
  | .error e => .error e

/-- tree/Tape/src/ctor.hpp 1-6 -/
def empty (id : Tpid) : TTape := ⟨some id, []⟩
/-- tree/Tape.hpp 78-81 -/
def numberMAT (t : TTape) (mat : Int) : Nat := (t.materials.filter (fun e => e.1 == mat)).length
/-- tree/Tape.hpp 97-100 -/
def hasMAT (t : TTape) (mat : Int) : Bool := t.numberMAT mat ≠ 0
/-- tree/Tape/src/material.hpp 10-24: `equal_range` -/
def material (t : TTape) (mat : Int) : Except Err (List TMaterial) :=
  if t.numberMAT mat = 0 then .error .outOfRange
  else .ok (SMap.values (t.materials.filter (fun e => e.1 == mat)))
/-- tree/Tape.hpp 113-124 -/
def materials' (t : TTape) : List TMaterial := t.materials.values
/-- tree/Tape.hpp 154 -/
def size (t : TTape) : Nat := t.materials.length

/-- `actions::unique`: of equal neighbours only the first is kept. -/
def unique : List Int → List Int
  | [] => []
  | [a] => [a]
  | a :: b :: l => if a = b then unique (b :: l) else a :: unique (b :: l)

/-- tree/Tape.hpp 190-195 -/
def materialNumbers (t : TTape) : List Int := unique (t.materials.keys.mergeSort (fun a b => decide (a ≤ b)))

/-- tree/Tape.hpp 159-180: the tape identification is printed with MAT = MF = MT = 0. -/
def content (t : TTape) : Except Err Text :=
  let c0 := match t.tpid with
    | some id => printTpid id ⟨0, 0, 0⟩
    | none => []
  match TMaterial.concat (t.materials'.map TMaterial.content) with
  | .error e => .error e
  | .ok c => if (c0 ++ c).length ≠ 0 then .ok (c0 ++ c ++ TEND.print) else .ok (c0 ++ c)

/-- tree/Tape/src/remove.hpp 6-9 -/
def remove (t : TTape) (mat : Int) : TTape := { t with materials := t.materials.erase mat }

/-- tree/Tape/src/insert.hpp 10-13 -/
def insert (t : TTape) (m : TMaterial) : TTape := { t with materials := SMap.emplaceMulti m.mat m t.materials }

/-- tree/Tape/src/replace.hpp 10-14 -/
def replace (t : TTape) (m : TMaterial) : TTape :=
  { t with materials := SMap.emplaceMulti m.mat m (t.remove m.mat).materials }

/-- tree/Tape/src/clean.hpp 6-12 -/
def clean (t : TTape) : Except Err Unit × TTape :=
  let (r, x) := t.materials.forEach TMaterial.clean
  (r, { t with materials := x })

end TTape

end ENDFtk

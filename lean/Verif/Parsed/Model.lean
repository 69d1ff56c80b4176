import Verif.Section.All
import Verif.Section.MF32Laws
import Verif.Tree.UpdateDirectory
/-
  The parsed layers: file::Type< MF >, Material, Tape, and their conversion to the tree (tree/toFile.hpp, tree/toMaterial.hpp).
-/
namespace ENDFtk
variable [Disco] [CorrOps]

/-! ### sections of any type -/

/-- The section types of the files: those of `SectionType`, and section 32/151 (file/32.hpp 23-34), which does not satisfy the same laws. -/
inductive SecType where
  | std (T : SectionType)
  | cov

namespace SecType
abbrev Data : SecType → Type
  | .std T => T.Data
  | .cov => List CovIsotope

def defn : (T : SecType) → SecDef T.Data
  | .std T => T.defn
  | .cov => mf32mt151

@[match_pattern] abbrev mf1mt451 : SecType := .std .mf1mt451
@[match_pattern] abbrev mf1mt452 : SecType := .std .mf1mt452
@[match_pattern] abbrev mf1mt455 : SecType := .std .mf1mt455
@[match_pattern] abbrev mf1mt456 : SecType := .std .mf1mt456
@[match_pattern] abbrev mf1mt458 : SecType := .std .mf1mt458
@[match_pattern] abbrev mf1mt460 : SecType := .std .mf1mt460
@[match_pattern] abbrev mf2mt151 : SecType := .std .mf2mt151
@[match_pattern] abbrev mf2mt152 : SecType := .std .mf2mt152
@[match_pattern] abbrev mf3 : SecType := .std .mf3
@[match_pattern] abbrev mf4 : SecType := .std .mf4
@[match_pattern] abbrev mf5 : SecType := .std .mf5
@[match_pattern] abbrev mf6 : SecType := .std .mf6
@[match_pattern] abbrev mf7mt2 : SecType := .std .mf7mt2
@[match_pattern] abbrev mf7mt4 : SecType := .std .mf7mt4
@[match_pattern] abbrev mf7mt451 : SecType := .std .mf7mt451
@[match_pattern] abbrev mf8mt454 : SecType := .std .mf8mt454
@[match_pattern] abbrev mf8mt457 : SecType := .std .mf8mt457
@[match_pattern] abbrev mf8mt459 : SecType := .std .mf8mt459
@[match_pattern] abbrev mf9 : SecType := .std .mf9
@[match_pattern] abbrev mf10 : SecType := .std .mf10
@[match_pattern] abbrev mf12 : SecType := .std .mf12
@[match_pattern] abbrev mf13 : SecType := .std .mf13
@[match_pattern] abbrev mf14 : SecType := .std .mf14
@[match_pattern] abbrev mf15 : SecType := .std .mf15
@[match_pattern] abbrev mf23 : SecType := .std .mf23
@[match_pattern] abbrev mf26 : SecType := .std .mf26
@[match_pattern] abbrev mf27 : SecType := .std .mf27
@[match_pattern] abbrev mf28 : SecType := .std .mf28
@[match_pattern] abbrev mf31 : SecType := .std .mf31
@[match_pattern] abbrev mf33 : SecType := .std .mf33
@[match_pattern] abbrev mf34 : SecType := .std .mf34
@[match_pattern] abbrev mf35 : SecType := .std .mf35
@[match_pattern] abbrev mf40 : SecType := .std .mf40
end SecType

/-- A section of some type: `SectionVariant` of Material.hpp 53-87 and of file/1.hpp, file/2.hpp, file/7.hpp, file/8.hpp, file/32.hpp. -/
abbrev AnySection := (T : SecType) × Sect T.Data

namespace AnySection
/-- `MT()` -/
def mt (x : AnySection) : Int := x.2.mt
/-- `MF()` -/
def mf (x : AnySection) : Int := x.1.defn.mf
/-- `NC()` -/
def NC (x : AnySection) : Nat := x.1.defn.NC x.2
/-- `print( it, MAT, MF )`; file/1/src/printSection.hpp 1-8, file/Type/src/printSection.hpp 1-6 -/
def print (x : AnySection) (mat mf : Int) : Except Err Text := x.1.defn.print x.2 mat mf
end AnySection

/-- The section type that a file reads for an MT number: the `switch` statements of file/1/src/readSection.hpp 8-23, file/2/src/readSection.hpp 8-15,
    file/7/src/readSection.hpp 8-17, file/8/src/readSection.hpp 8-17, file/32/src/readSection.hpp 8-13; the other files have one type for all
    MT numbers (file/Type/src/readSection.hpp 1-10). -/
def sectionType? (mf mt : Int) : Option SecType :=
  if mf = 1 then
    if mt = 451 then some .mf1mt451
    else if mt = 452 then some .mf1mt452
    else if mt = 455 then some .mf1mt455
    else if mt = 456 then some .mf1mt456
    else if mt = 458 then some .mf1mt458
    else if mt = 460 then some .mf1mt460
    else none
  else if mf = 2 then
    if mt = 151 then some .mf2mt151
    else if mt = 152 then some .mf2mt152
    else none
  else if mf = 7 then
    if mt = 2 then some .mf7mt2
    else if mt = 4 then some .mf7mt4
    else if mt = 451 then some .mf7mt451
    else none
  else if mf = 8 then
    if mt = 454 then some .mf8mt454
    else if mt = 457 then some .mf8mt457
    else if mt = 459 then some .mf8mt459
    else none
  else if mf = 32 then
    if mt = 151 then some .cov
    else none
  else if mf = 3 then some .mf3
  else if mf = 4 then some .mf4
  else if mf = 5 then some .mf5
  else if mf = 6 then some .mf6
  else if mf = 9 then some .mf9
  else if mf = 10 then some .mf10
  else if mf = 12 then some .mf12
  else if mf = 13 then some .mf13
  else if mf = 14 then some .mf14
  else if mf = 15 then some .mf15
  else if mf = 23 then some .mf23
  else if mf = 26 then some .mf26
  else if mf = 27 then some .mf27
  else if mf = 28 then some .mf28
  else if mf = 31 then some .mf31
  else if mf = 33 then some .mf33
  else if mf = 34 then some .mf34
  else if mf = 35 then some .mf35
  else if mf = 40 then some .mf40
  else none

/-- The `case` labels of Material/src/read.hpp 14-40. -/
def implementedMF (mf : Int) : Bool :=
  [1, 2, 3, 4, 5, 6, 7, 8, 9, 10, 12, 13, 14, 15, 23, 26, 27, 28, 30, 31, 32, 33, 34, 35, 40].contains mf

/-- `fill`: file/Base/src/fill.hpp 1-17, Material/src/fill.hpp 1-17 -/
def fillMap {α : Type} (key : α → Int) : List α → SMap α → Except Err (SMap α)
  | [], m => .ok m
  | a :: l, m => if m.has (key a) then .error .exc else fillMap key l (m.emplace (key a) a)

/-! ### file::Type< MF > -/

/-- file/Base.hpp 20 (map), 37-40 (`MF()`; file/Type.hpp 39, file/30.hpp 31). -/
structure PFile where
  mf : Int
  sections : SMap AnySection

/-- `readSection` of file/1, 2, 7, 8, 32 and file/Type (see `sectionType?`); `asHead` is a cast (HeadRecord/src/asHead.hpp 1-4). -/
def readAny (mf : Int) (d : Division) : Parser AnySection :=
  match sectionType? mf d.tail.mt with
  | some T => do
    let x ← T.defn.readSect d d.tail.mat
    pure ⟨T, x⟩
  | none => Parser.fail .exc

/-- The loop of file/Base/src/read.hpp 9-13.  The first argument is fuel. -/
def readSections (mf : Int) : Nat → Division → Parser (List AnySection)
  | 0, _ => Parser.fail .fuel
  | fuel + 1, d =>
    if d.isFend then pure []
    else do
      let x ← readAny mf d
      let d' ← readDivision
      let xs ← readSections mf fuel d'
      pure (x :: xs)

/-- file/Base/src/verifyFEND.hpp 1-34: a line that is no end record and no HEAD passes. -/
def verifyFEND (d : Division) : Except Err Unit :=
  if !d.isFend then
    if d.isSend then .error .exc
    else if d.isHead then .error .exc
    else if d.isMend then .error .exc
    else if d.isTend then .error .exc
    else .ok ()
  else .ok ()

/-- The inner loop of file/8/src/ctor.hpp 85-89: lines are skipped as long as their MT is that of the division. -/
def skipMT (mt : Int) : Nat → Parser Unit
  | 0 => Parser.fail .fuel
  | fuel + 1 => do
    let t ← skip
    if t.mt = mt then skipMT mt fuel else pure ()

/-- The outer loop of file/8/src/ctor.hpp 81-91. -/
def skipFile8 : Nat → Division → Parser Division
  | 0, _ => Parser.fail .fuel
  | fuel + 1, d =>
    if d.tail.mf = 8 then do
      let s ← Parser.get
      skipMT d.tail.mt (s.rest.length + 1)
      let d' ← readDivision
      skipFile8 fuel d'
    else pure d

/-- The loop of file/NotImplementedYet.hpp 67-71. -/
def skipMF (mf : Int) : Nat → Parser Unit
  | 0 => Parser.fail .fuel
  | fuel + 1 => do
    let t ← skip
    if t.mf = mf then skipMF mf fuel else pure ()

/-- The reading constructors: file/Base/src/ctor.hpp 27-36 with file/Base/src/read.hpp 1-16; file/8/src/ctor.hpp 60-101;
    file/NotImplementedYet.hpp 55-73 for MF30.
    (The parameter `division`, which they modify, is not part of the outcome: all callers overwrite it.) -/
def readPFile (mf : Int) (d : Division) : Parser PFile :=
  if mf = 30 then
    if d.tail.mf = 30 then do
      let s ← Parser.get
      skipMF 30 (s.rest.length + 1)
      pure ⟨30, []⟩
    else pure ⟨30, []⟩
  else if mf = 8 ∧ ¬(d.tail.mt = 454 ∨ d.tail.mt = 457 ∨ d.tail.mt = 459) then Parser.mapErr catchStd do
    let s ← Parser.get
    let d' ← skipFile8 (s.rest.length + 1) d
    liftE (verifyFEND d')
    pure ⟨8, []⟩
  else Parser.mapErr catchStd do
    let s ← Parser.get
    let xs ← readSections mf (s.rest.length + 1) d
    let m ← liftE (fillMap AnySection.mt xs [])
    pure ⟨mf, m⟩

namespace PFile

/-- `Type( std::vector< Section >&& )`: file/Base/src/ctor.hpp 14-15 (file/Type/src/ctor.hpp 15-16, file/1/src/ctor.hpp 21-22) -/
def make (mf : Int) (xs : List AnySection) : Except Err PFile :=
  match fillMap AnySection.mt xs [] with
  | .ok m => .ok ⟨mf, m⟩
  | .error e => .error e

/-- file/Base.hpp 99-102; file/30.hpp 38 -/
def hasMT (f : PFile) (mt : Int) : Bool := f.sections.has mt
/-- file/Base.hpp 119-133 -/
def section' (f : PFile) (mt : Int) : Except Err AnySection := f.sections.at' mt
/-- file/Base.hpp 45-72 -/
def sections' (f : PFile) : List AnySection := f.sections.values

/-- file/Base/src/print.hpp 9-18; MF30 prints nothing (file/NotImplementedYet.hpp 33-37) -/
def print (f : PFile) (mat : Int) : Except Err Text :=
  if f.mf = 30 then .ok []
  else match TMaterial.concat (f.sections'.map (fun x => x.print mat f.mf)) with
    | .error e => .error e
    | .ok t => match FEND mat with
      | .ok d => .ok (t ++ d.print)
      | .error e => .error e

end PFile

/-! ### Material -/

/-- Material.hpp 92-93 -/
structure PMaterial where
  mat : Int
  files : SMap PFile

/-- The loop of Material/src/read.hpp 9-46; `verifyMEND` (verifyMEND.hpp 1-11) cannot fail after it. -/
def readFiles : Nat → Division → Parser (List PFile)
  | 0, _ => Parser.fail .fuel
  | fuel + 1, d =>
    if d.isMend then pure []
    else if implementedMF d.tail.mf then do
      let f ← readPFile d.tail.mf d
      let d' ← readDivision
      let fs ← readFiles fuel d'
      pure (f :: fs)
    else Parser.fail .exc

/-- Material/src/ctor.hpp 16-22, 36-49, read.hpp 1-49 -/
def readPMaterial (d : Division) : Parser PMaterial := Parser.mapErr catchStd do
  let s ← Parser.get
  let fs ← readFiles (s.rest.length + 1) d
  let m ← liftE (fillMap PFile.mf fs [])
  pure ⟨d.tail.mat, m⟩

namespace PMaterial

/-- Material/src/ctor.hpp 6-7 -/
def make (mat : Int) (fs : List PFile) : Except Err PMaterial :=
  match fillMap PFile.mf fs [] with
  | .ok m => .ok ⟨mat, m⟩
  | .error e => .error e

/-- Material.hpp 174-177 -/
def hasMF (m : PMaterial) (mf : Int) : Bool := m.files.has mf
/-- Material.hpp 219-234 -/
def file (m : PMaterial) (mf : Int) : Except Err PFile := m.files.at' mf
/-- Material.hpp 196-203 -/
def hasMFMT (m : PMaterial) (mf mt : Int) : Bool :=
  if m.hasMF mf then
    match m.file mf with
    | .ok f => f.hasMT mt
    | .error _ => false
  else false
/-- Material.hpp 254-288: MF30 throws -/
def section' (m : PMaterial) (mf mt : Int) : Except Err AnySection :=
  match m.file mf with
  | .ok f => if f.mf = 30 then .error .exc else f.section' mt
  | .error e => .error e
/-- Material.hpp 118-147 -/
def files' (m : PMaterial) : List PFile := m.files.values

/-- Material/src/print.hpp 8-17 -/
def print (m : PMaterial) : Except Err Text :=
  match TMaterial.concat (m.files'.map (fun f => f.print m.mat)) with
  | .ok t => .ok (t ++ MEND.print)
  | .error e => .error e

end PMaterial

/-! ### Tape -/

/-- Tape.hpp 24-25 -/
structure PTape where
  id : Tpid
  materials : List PMaterial

/-- The loop of Tape/src/readMaterials.hpp 19-23: only the MAT number of the last line is looked at. -/
def readMaterials : Nat → Division → Parser (List PMaterial)
  | 0, _ => Parser.fail .fuel
  | fuel + 1, d =>
    if d.tail.mat ≠ -1 then do
      let m ← readPMaterial d
      let d' ← readDivision
      let ms ← readMaterials fuel d'
      pure (m :: ms)
    else pure []

namespace PTape

/-- Tape/src/ctor.hpp 6-10, verifySize.hpp 1-10 (`int size`) -/
def make (id : Tpid) (ms : List PMaterial) : Except Err PTape :=
  if asInt ms.length = 0 then .error .exc else .ok ⟨id, ms⟩

/-- Tape/src/ctor.hpp 26-52, readMaterials.hpp 10-26 -/
def read : Parser PTape := Parser.mapErr catchStd do
  let id ← readTpid
  let d ← readDivision
  let s ← Parser.get
  let ms ← readMaterials (s.rest.length + 1) d
  liftE (make id ms)

/-- Tape.hpp 41 -/
def numberMaterials (t : PTape) : Nat := t.materials.length
/-- Tape.hpp 81-87 -/
def material (t : PTape) (mat : Int) : List PMaterial := t.materials.filter (fun m => m.mat == mat)
/-- Tape.hpp 102-105 -/
def hasMAT (t : PTape) (mat : Int) : Bool := decide ((t.material mat).length > 0)

/-- Tape/src/print.hpp 1-7 -/
def print (t : PTape) : Except Err Text :=
  match TMaterial.concat (t.materials.map PMaterial.print) with
  | .ok txt => .ok (printTpid t.id ⟨0, 0, 0⟩ ++ txt ++ TEND.print)
  | .error e => .error e

end PTape

/-! ### from and to the tree -/

/-- tree/File/src/parse.hpp 6-25 (lineNumber = 1) -/
def TFile.parse (mf : Int) (f : TFile) : Except Err PFile :=
  match f.content with
  | .error e => .error e
  | .ok c =>
    match (do let d ← readDivision; readPFile mf d : Parser PFile) ⟨c, 1⟩ with
    | .ok (x, _) => .ok x
    | .error e => .error e

/-- tree/Material/src/parse.hpp 6-23 -/
def TMaterial.parse (m : TMaterial) : Except Err PMaterial :=
  match m.content with
  | .error e => .error e
  | .ok c =>
    match (do let d ← readDivision; readPMaterial d : Parser PMaterial) ⟨c, 1⟩ with
    | .ok (x, _) => .ok x
    | .error e => .error e

/-- tree/Tape/src/parse.hpp 6-22 -/
def TTape.parse (t : TTape) : Except Err PTape :=
  match t.content with
  | .error e => .error e
  | .ok c =>
    match PTape.read ⟨c, 1⟩ with
    | .ok (x, _) => .ok x
    | .error e => .error e

/-- `parse< MF, MT >()` of tree/Section/src/parse.hpp 6-24 with the type that belongs to the section's numbers. -/
def TSection.parseAny (s : TSection) : Except Err AnySection :=
  match sectionType? s.mf s.mt with
  | some T =>
    match s.parse T.defn with
    | .ok x => .ok ⟨T, x⟩
    | .error e => .error e
  | none => .error .exc

/-- tree/toSection.hpp 18-27 for any type. -/
def toSectionAny (x : AnySection) (mat : Int) : Except Err TSection := toSection x.1.defn x.2 mat

/-- tree/toFile.hpp 18-35 -/
def toFile (f : PFile) (mat : Int) : Except Err TFile :=
  match f.print mat with
  | .error e => .error e
  | .ok c =>
    match (do let d ← readDivision; readTFile d.tail c : Parser TFile) ⟨c, 0⟩ with
    | .ok (x, _) => .ok x
    | .error e => .error e

/-- tree/toMaterial.hpp 20-34 -/
def toMaterial (m : PMaterial) : Except Err TMaterial :=
  match m.print with
  | .error e => .error e
  | .ok c =>
    match (do let d ← readDivision; readTMaterial d.tail c : Parser TMaterial) ⟨c, 0⟩ with
    | .ok (x, _) => .ok x
    | .error e => .error e

/-- tree/File/src/insert.hpp 37-41 -/
def TFile.insertParsed (f : TFile) (x : AnySection) : Except Err Unit × TFile :=
  match toSectionAny x f.mat with
  | .ok s => f.insert s
  | .error e => (.error e, f)

/-- tree/File/src/insertOrReplace.hpp 36-40 -/
def TFile.insertOrReplaceParsed (f : TFile) (x : AnySection) : Except Err Unit × TFile :=
  match toSectionAny x f.mat with
  | .ok s => f.insertOrReplace s
  | .error e => (.error e, f)

/-- tree/Material/src/insert.hpp 37-41 -/
def TMaterial.insertParsed (m : TMaterial) (x : AnySection) : Except Err Unit × TMaterial :=
  match toSectionAny x m.mat with
  | .ok s => m.insertSection s
  | .error e => (.error e, m)

/-- tree/Material/src/insertOrReplace.hpp 30-34 for any type -/
def TMaterial.insertOrReplaceAny (m : TMaterial) (x : AnySection) : Except Err Unit × TMaterial := m.insertOrReplaceParsed x.1.defn x.2

/-- tree/Material/src/insert.hpp 79-83 -/
def TMaterial.insertParsedFile (m : TMaterial) (f : PFile) : Except Err Unit × TMaterial :=
  match toFile f m.mat with
  | .ok s => m.insertFile s
  | .error e => (.error e, m)

/-- tree/Material/src/insertOrReplace.hpp 76-80 -/
def TMaterial.insertOrReplaceParsedFile (m : TMaterial) (f : PFile) : Except Err Unit × TMaterial :=
  match toFile f m.mat with
  | .ok s => m.insertOrReplaceFile s
  | .error e => (.error e, m)

/-- tree/Tape/src/insert.hpp 24-27 -/
def TTape.insertParsed (t : TTape) (m : PMaterial) : Except Err Unit × TTape :=
  match toMaterial m with
  | .ok x => (.ok (), t.insert x)
  | .error e => (.error e, t)

/-- tree/Tape/src/replace.hpp 25-28 -/
def TTape.replaceParsed (t : TTape) (m : PMaterial) : Except Err Unit × TTape :=
  match toMaterial m with
  | .ok x => (.ok (), t.replace x)
  | .error e => (.error e, t)

end ENDFtk

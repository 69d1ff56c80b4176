import Verif.Parsed.Model
/-
  The Python interface (python/src) where it is more than a list of names: reading from strings, writing to strings, the choice of the type in `parse()`,
  and the files on disk (also tree/fromFile.hpp).
  Simplification: a Python `str` is the `std::string` with the same characters; pybind11 itself (overload resolution, lifetime of views) is not modelled.
-/
namespace ENDFtk
variable [Disco] [CorrOps]

namespace Py

/-- The value of a reader that starts at the beginning of a string, with the line counter at 1 (python/src/read.hpp 19-28, 35-44, 51-60); the rest of the
    string is ignored. -/
def fromString {α : Type} (p : Parser α) (t : Text) : Except Err α :=
  match p ⟨t, 1⟩ with
  | .ok (x, _) => .ok x
  | .error e => .error e

/-- `from_string( string, mat, mf, mt )` of a component: python/src/definitions.hpp 128-143, read.hpp 19-28 -/
def componentFromString {α : Type} (read : Nums → Parser α) (t : Text) (mat mf mt : Int) : Except Err α := fromString (read ⟨mat, mf, mt⟩) t

/-- `from_string( section )`: python/src/definitions.hpp 223-234, read.hpp 35-44 -/
def sectionFromString (T : SecType) (t : Text) : Except Err AnySection :=
  match fromString T.defn.parse t with
  | .ok x => .ok ⟨T, x⟩
  | .error e => .error e

/-- `to_string( mat, mf )` of a section: python/src/definitions.hpp 235-246, print.hpp 33-40 -/
def sectionToString (x : AnySection) (mat mf : Int) : Except Err Text := x.print mat mf

/-- `to_tree( mat )` of a section: python/src/definitions.hpp 247-256 -/
def sectionToTree (x : AnySection) (mat : Int) : Except Err TSection := toSectionAny x mat

/-- `from_string( file )`: python/src/definitions.hpp 361-372, read.hpp 51-60 -/
def fileFromString (mf : Int) (t : Text) : Except Err PFile := fromString (do let d ← readDivision; readPFile mf d) t

/-- `to_string( mat )` of a file: python/src/definitions.hpp 373-383, print.hpp 48-55 -/
def fileToString (f : PFile) (mat : Int) : Except Err Text := f.print mat

/-- `to_tree( mat )` of a file: python/src/definitions.hpp 384-394 -/
def fileToTree (f : PFile) (mat : Int) : Except Err TFile := toFile f mat

/-- `from_string( material )`: python/src/Material.python.cpp 151-170 -/
def materialFromString (t : Text) : Except Err PMaterial := fromString (do let d ← readDivision; readPMaterial d) t

/-- `to_string()` of a material: python/src/Material.python.cpp 171-184 -/
def materialToString (m : PMaterial) : Except Err Text := m.print

/-- The nested `switch` of tree.Section.parse(): python/src/tree/Section.python.cpp 85-179; `none` where it throws. -/
def typeFor (mf mt : Int) : Option SecType :=
  if mf = 1 then
    (if mt = 451 then some .mf1mt451
     else if mt = 452 then some .mf1mt452
     else if mt = 455 then some .mf1mt455
     else if mt = 456 then some .mf1mt456
     else if mt = 458 then some .mf1mt458
     else if mt = 460 then some .mf1mt460
     else none)
  else if mf = 2 then
    (if mt = 151 then some .mf2mt151
     else if mt = 152 then some .mf2mt152
     else none)
  else if mf = 3 then some .mf3
  else if mf = 4 then some .mf4
  else if mf = 5 then some .mf5
  else if mf = 6 then some .mf6
  else if mf = 7 then
    (if mt = 2 then some .mf7mt2
     else if mt = 4 then some .mf7mt4
     else if mt = 451 then some .mf7mt451
     else none)
  else if mf = 8 then
    (if mt = 454 then some .mf8mt454
     else if mt = 457 then some .mf8mt457
     else if mt = 459 then some .mf8mt459
     else none)
  else if mf = 9 then some .mf9
  else if mf = 10 then some .mf10
  else if mf = 12 then some .mf12
  else if mf = 13 then some .mf13
  else if mf = 14 then some .mf14
  else if mf = 15 then some .mf15
  else if mf = 23 then some .mf23
  else if mf = 26 then some .mf26
  else if mf = 27 then some .mf27
  else if mf = 28 then some .mf28
  else if mf = 31 then some .mf31
  else if mf = 32 then (if mt = 151 then some .cov else none)
  else if mf = 33 then some .mf33
  else if mf = 34 then some .mf34
  else if mf = 35 then some .mf35
  else if mf = 40 then some .mf40
  else none

/-- tree.Section.parse(): python/src/tree/Section.python.cpp 79-181 -/
def parseSection (s : TSection) : Except Err AnySection :=
  match typeFor s.mf s.mt with
  | some T =>
    match s.parse T.defn with
    | .ok x => .ok ⟨T, x⟩
    | .error e => .error e
  | none => .error .exc

/-- The `case` labels of tree.File.parse(): python/src/tree/File.python.cpp 139-165 -/
def fileTypes : List Int := [1, 2, 3, 4, 5, 6, 7, 8, 9, 10, 12, 13, 14, 15, 23, 26, 27, 28, 31, 32, 33, 34, 35, 40]

/-- tree.File.parse(): python/src/tree/File.python.cpp 134-168 -/
def parseFile (f : TFile) : Except Err PFile := if f.mf ∈ fileTypes then f.parse f.mf else .error .exc

/-- tree.Tape.MAT( mat ), material( mat ): python/src/tree/Tape.python.cpp 33-41.  `inl`: one material, `inr`: a sequence -/
def tapeMaterial (t : TTape) (mat : Int) : Except Err (TMaterial ⊕ List TMaterial) :=
  if t.numberMAT mat = 1 then
    match t.material mat with
    | .ok (m :: _) => .ok (.inl m)
    | .ok [] => .error .ub
    | .error e => .error e
  else match t.material mat with
    | .ok ms => .ok (.inr ms)
    | .error e => .error e

end Py

/-! ### files on disk -/

/-- The files on disk: content by name; `none` if there is no file with that name or it cannot be opened. -/
abbrev Disk := String → Option Text

/-- The disk with other content under one name. -/
def Disk.put (d : Disk) (name : String) (t : Text) : Disk := fun n => if n = name then some t else d n

/-- tree/fromFile.hpp 21-37: `tree::fromFile( filename )`, and tree.Tape.from_file( filename ) of python/src/tree/Tape.python.cpp 172-184 -/
def fromFile (d : Disk) (name : String) : Except Err TTape :=
  match d name with
  | none => .error .exc
  | some t => TTape.ofBuffer t 0

/-- What the operating system does with a call to `to_file`: the file cannot be opened for writing, or it is opened (and then is empty) and `k` characters
    reach it (fewer than all of them after a crash or on a full disk). -/
inductive Write where
  | notOpened
  | opened (k : Nat)

/-- tree.Tape.to_file( filename ): python/src/tree/Tape.python.cpp 186-197.  The file is opened before content() is called; the state of the stream is not looked at. -/
def toDisk (t : TTape) (name : String) (w : Write) (d : Disk) : Except Err Unit × Disk :=
  let d1 : Disk := match w with
    | .notOpened => d
    | .opened _ => d.put name []
  match t.content with
  | .error e => (.error e, d1)
  | .ok c => match w with
    | .notOpened => (.ok (), d1)
    | .opened k => (.ok (), d1.put name (c.take k))

end ENDFtk

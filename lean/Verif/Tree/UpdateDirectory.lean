import Verif.Section.MF1
/-
  tree/updateDirectory.hpp, and what it uses: tree/Section/src/parse.hpp, tree/toSection.hpp, the description and the constructor of section 1/451.
-/
namespace ENDFtk

/-- `views::split( text, '\n' )` of range-v3 (assumption D10 of DESIGN.md): every piece is ended by a newline or by the end of the text;
    after a final newline no further piece follows. -/
def splitNL : Text → List Text
  | [] => []
  | c :: s =>
    if c = '\n' then [] :: splitNL s
    else match splitNL s with
      | [] => [[c]]
      | p :: ps => (c :: p) :: ps

variable [Disco]

/-- tree/Section/src/parse.hpp 6-25 (lineNumber = 1) -/
def TSection.parse {β : Type} (D : SecDef β) (s : TSection) : Except Err (Sect β) :=
  match D.parse ⟨s.content, 1⟩ with
  | .ok (x, _) => .ok x
  | .error e => .error e

/-- tree/toSection.hpp 18-27 -/
def toSection {β : Type} (D : SecDef β) (x : Sect β) (mat : Int) : Except Err TSection :=
  match D.print x mat D.mf with
  | .ok txt => .ok ⟨mat, D.mf, x.mt, txt⟩
  | .error e => .error e

/-- tree/Material/src/insertOrReplace.hpp 30-34 -/
def TMaterial.insertOrReplaceParsed {β : Type} (D : SecDef β) (m : TMaterial) (x : Sect β) : Except Err Unit × TMaterial :=
  match toSection D x m.mat with
  | .ok s => m.insertOrReplaceSection s
  | .error e => (.error e, m)

namespace Info451

/-- section/1/451/src/description.hpp 4-14: the lines joined by newlines, and a final newline. -/
def description (b : Info451) : Text := List.intercalate ['\n'] b.desc ++ ['\n']

/-- The getters of section/1/451.hpp 103-228: several convert to `int`. -/
def elis (b : Info451) : Dbl := b.p0.c1
def sta (b : Info451) : Dbl := b.p0.c2
def lis (b : Info451) : Int := toInt32 b.p0.l1
def liso (b : Info451) : Int := toInt32 b.p0.l2
def nfor (b : Info451) : Int := toInt32 b.p0.n2
def awi (b : Info451) : Dbl := b.p1.c1
def emax (b : Info451) : Dbl := b.p1.c2
def lrel (b : Info451) : Int := toInt32 b.p1.l1
def nsub (b : Info451) : Int := toInt32 b.p1.n1
def nver (b : Info451) : Int := toInt32 b.p1.n2
def temp (b : Info451) : Dbl := b.p2.c1
def rtol (b : Info451) : Dbl := b.p2.c2
def ldrv (b : Info451) : Int := toInt32 b.p2.l1

/-- section/1/451/src/ctor.hpp 50-70, makeParameters.hpp 1-11, makeDescription.hpp 1-11 (without the checks of ZA and AWR) -/
def make (lrp lfi nlib nmod : Int) (elis sta : Dbl) (lis liso nfor : Int) (awi emax : Dbl) (lrel nsub nver : Int) (temp : Dbl) (ldrv : Int)
    (description : Text) (index : List Dir) (rtol : Dbl) : Info451 :=
  ⟨lrp, lfi, nlib, nmod, ⟨elis, sta, lis, liso, 0, nfor⟩, ⟨awi, emax, lrel, 0, nsub, nver⟩,
    ⟨temp, rtol, ldrv, 0, asInt (splitNL description).length, asInt index.length⟩, splitNL description, index⟩

end Info451

/-- The inner loop of tree/updateDirectory.hpp 48-72; `begin` is the position in the old index from which is searched. -/
def directoryEntries (copyMod : Bool) : List Dir → List TSection → List Dir
  | _, [] => []
  | begin, s :: ss =>
    if copyMod then
      match begin.dropWhile (fun e => !(e.mf == s.mf && e.mt == s.mt)) with
      | [] => ⟨s.mf, s.mt, s.nc, 0⟩ :: directoryEntries copyMod begin ss
      | e :: r => ⟨s.mf, s.mt, s.nc, e.mod⟩ :: directoryEntries copyMod (e :: r) ss
    else ⟨s.mf, s.mt, s.nc, 0⟩ :: directoryEntries copyMod begin ss

/-- tree/updateDirectory.hpp 44-73: the index before its first entry is replaced. -/
def newIndex (copyMod : Bool) (old : List Dir) (files : List TFile) : List Dir :=
  files.flatMap (fun f => directoryEntries copyMod old f.sections')

/-- tree/updateDirectory.hpp 75-85: the new section from the old one and the new index (`index[0]` of an empty vector is undefined). -/
def updated451 (old : Sect Info451) (index : List Dir) : Except Err (Sect Info451) :=
  match index with
  | [] => .error .ub
  | d :: ds =>
    let index' := ⟨1, 451, 4 + old.data.nwd + ((d :: ds).length : Int), d.mod⟩ :: ds
    match checkBase old.za old.awr none with
    | .error e => .error e
    | .ok () =>
      let b := old.data
      .ok ⟨old.za, old.awr, 451, Info451.make b.lrp b.lfi b.nlib b.nmod b.elis b.sta b.lis b.liso b.nfor b.awi b.emax b.lrel b.nsub b.nver
        b.temp b.ldrv b.description index' b.rtol⟩

/-- tree/updateDirectory.hpp 23-89 -/
def updateDirectory (m : TMaterial) (copyMod : Bool := false) : Except Err Unit × TMaterial :=
  if !m.hasMF 1 then (.error .exc, m)
  else
    match m.file 1 with
    | .error e => (.error e, m)
    | .ok f =>
      if !f.hasMT 451 then (.error .exc, m)
      else
        match f.section' 451 with
        | .error e => (.error e, m)
        | .ok s =>
          match s.parse mf1mt451 with
          | .error e => (.error e, m)
          | .ok old =>
            match updated451 old (newIndex copyMod old.data.index m.files') with
            | .error e => (.error e, m)
            | .ok new => m.insertOrReplaceParsed mf1mt451 new

/-- tree/updateDirectory.hpp 101-107 -/
def updateDirectoryTape (t : TTape) (copyMod : Bool := false) : Except Err Unit × TTape :=
  let (r, x) := t.materials.forEach (fun m => updateDirectory m copyMod)
  (r, { t with materials := x })

end ENDFtk

import Verif.Spec
import Verif.Tree.Model
/-
  Specification: the layout of an ENDF tape as lines of text.  No reading function is used here.
-/
namespace ENDFtk
variable [Disco]

/-- A line without newline inside, with these MAT, MF, MT numbers and readable sequence number columns (76-80). -/
def TextLine (t : Nums) (l : Text) : Prop := '\n' ∉ l ∧ HasTail t l ∧ ∃ n, parseInt (cols 76 80 l) = some n

/-- A line readable as control record or structure division with valid numbers. -/
def DivLine (d : Division) (l : Text) : Prop :=
  TextLine d.tail l ∧ ShowsCont d.base l ∧ -1 ≤ d.tail.mat ∧ 0 ≤ d.tail.mf ∧ 0 ≤ d.tail.mt

/-- The six data columns are zero. -/
def ZeroCols (c : Cont) : Prop :=
  Disco.eqD Disco.zero c.c1 = true ∧ Disco.eqD Disco.zero c.c2 = true ∧ c.l1 = 0 ∧ c.l2 = 0 ∧ c.n1 = 0 ∧ c.n2 = 0

/-- A line of text together with what it is read as. -/
structure DLine where
  text : Text
  div : Division

namespace DLine
/-- A HEAD line: all three numbers are present. -/
def IsHead (l : DLine) : Prop := DivLine l.div l.text ∧ l.div.tail.mat ≠ 0 ∧ l.div.tail.mf ≠ 0 ∧ l.div.tail.mt ≠ 0
/-- A SEND line: zero data columns, MAT > 0, MF > 0, MT = 0. -/
def IsSend (l : DLine) : Prop := DivLine l.div l.text ∧ ZeroCols l.div.base ∧ 0 < l.div.tail.mat ∧ 0 < l.div.tail.mf ∧ l.div.tail.mt = 0
/-- A FEND line: zero data columns, MAT > 0, MF = 0, MT = 0. -/
def IsFend (l : DLine) : Prop := DivLine l.div l.text ∧ ZeroCols l.div.base ∧ 0 < l.div.tail.mat ∧ l.div.tail.mf = 0 ∧ l.div.tail.mt = 0
/-- A MEND line: zero data columns, MAT = MF = MT = 0. -/
def IsMend (l : DLine) : Prop := DivLine l.div l.text ∧ ZeroCols l.div.base ∧ l.div.tail = ⟨0, 0, 0⟩
/-- A TEND line: zero data columns, MAT = -1, MF = MT = 0. -/
def IsTend (l : DLine) : Prop := DivLine l.div l.text ∧ ZeroCols l.div.base ∧ l.div.tail = ⟨-1, 0, 0⟩
end DLine

/-- A section on a tape: its HEAD line, further lines, its SEND line, repetitions of the SEND line. -/
structure SecL where
  head : DLine
  body : List Text
  send : Text
  extra : List DLine

namespace SecL
def nums (s : SecL) : Nums := s.head.div.tail
/-- The lines that belong to the section. -/
def core (s : SecL) : List Text := s.head.text :: s.body ++ [s.send]
def lines (s : SecL) : List Text := s.core ++ s.extra.map DLine.text
/-- What the section is read as: numbers of the HEAD line, and its bytes from HEAD through SEND. -/
def tree (s : SecL) : TSection := ⟨s.nums.mat, s.nums.mf, s.nums.mt, unlines s.core⟩
/-- The lines between HEAD and SEND have any MT but 0, the SEND line has MT 0. -/
def Valid (s : SecL) : Prop :=
  s.head.IsHead ∧ (∀ l ∈ s.body, ∃ t, TextLine t l ∧ t.mt ≠ 0) ∧ (∃ t, TextLine t s.send ∧ t.mt = 0) ∧ ∀ l ∈ s.extra, l.IsSend
end SecL

/-- A file on a tape: sections and FEND lines (none if it is missing, several if it is repeated). -/
structure FileL where
  first : SecL
  others : List SecL
  fends : List DLine

namespace FileL
def secs (f : FileL) : List SecL := f.first :: f.others
def mat (f : FileL) : Int := f.first.nums.mat
def mf (f : FileL) : Int := f.first.nums.mf
def lines (f : FileL) : List Text := f.secs.flatMap SecL.lines ++ f.fends.map DLine.text
def tree (f : FileL) : TFile := ⟨f.mat, f.mf, f.secs.foldl (fun m s => m.emplace s.nums.mt s.tree) []⟩
/-- All sections have the MF of the first one, and different MT. -/
def Valid (f : FileL) : Prop :=
  (∀ s ∈ f.secs, s.Valid ∧ s.nums.mf = f.mf) ∧ (f.secs.map (fun s => s.nums.mt)).Nodup ∧ ∀ l ∈ f.fends, l.IsFend
end FileL

/-- No SEND line is repeated, and there is exactly one FEND line. -/
def FileL.Plain (f : FileL) : Prop := (∀ s ∈ f.secs, s.extra = []) ∧ f.fends.length = 1

/-- A material on a tape: files and MEND lines (none if it is missing, several if it is repeated). -/
structure MatL where
  first : FileL
  others : List FileL
  mends : List DLine

namespace MatL
def files (m : MatL) : List FileL := m.first :: m.others
def mat (m : MatL) : Int := m.first.mat
def lines (m : MatL) : List Text := m.files.flatMap FileL.lines ++ m.mends.map DLine.text
def tree (m : MatL) : TMaterial := ⟨m.mat, m.files.foldl (fun x f => x.emplace f.mf f.tree) []⟩
/-- All files have the MAT of the first one, and different MF. -/
def Valid (m : MatL) : Prop :=
  (∀ f ∈ m.files, f.Valid ∧ f.mat = m.mat) ∧ (m.files.map FileL.mf).Nodup ∧ ∀ l ∈ m.mends, l.IsMend
/-- No end line is repeated or missing. -/
def Plain (m : MatL) : Prop := (∀ f ∈ m.files, f.Plain) ∧ m.mends.length = 1
/-- The last file. -/
def last (m : MatL) : FileL := m.files.getLastD m.first
/-- Material `n` can follow `m`: if the MEND of `m` is missing then `n` has another MAT; if the last FEND of `m` is missing as well, then `n`
    also begins with another MF. -/
def CanFollow (m n : MatL) : Prop :=
  m.mends = [] → n.mat ≠ m.mat ∧ (m.last.fends = [] → n.first.mf ≠ m.last.mf)
end MatL

/-- Each material can follow the previous one. -/
def Chained : List MatL → Prop
  | [] => True
  | [_] => True
  | m :: n :: l => m.CanFollow n ∧ Chained (n :: l)

/-- A tape: identification, materials, TEND line. -/
structure TapeL where
  tpid : Text
  ntape : Int
  mats : List MatL
  tend : DLine

namespace TapeL
def lines (t : TapeL) : List Text := t.tpid :: t.mats.flatMap MatL.lines ++ [t.tend.text]
/-- The first 66 columns of the identification line, blanks added on the right if it is shorter. -/
def label (t : TapeL) : Text := t.tpid.take 66 ++ blanks (66 - (t.tpid.take 66).length)
def tree (t : TapeL) : TTape :=
  ⟨some ⟨t.label, t.ntape⟩, t.mats.foldl (fun x m => SMap.emplaceMulti m.mat m.tree x) []⟩
def Valid (t : TapeL) : Prop :=
  TextLine ⟨t.ntape, 0, 0⟩ t.tpid ∧ (∀ m ∈ t.mats, m.Valid) ∧ Chained t.mats ∧ t.tend.IsTend
end TapeL

end ENDFtk

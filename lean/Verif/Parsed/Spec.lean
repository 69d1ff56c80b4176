import Verif.Parsed.Read
/-
  Specification: which lines are the text of a parsed section, file, material or tape, in terms of the lines of its parts.
-/
set_option linter.unusedVariables false
set_option linter.unusedSectionVars false
set_option linter.unusedSimpArgs false
namespace ENDFtk
variable [Disco] [CorrOps]

/-- The reading function, put in front of these lines (whatever follows them, and whatever the line number is), reads exactly them and
    returns `a`.  If `exact` holds, the line number is advanced by the number of lines (section 32/151 advances it by more). -/
def ReadsAs {α : Type} (exact : Prop) (p : Parser α) (a : α) (ls : List Text) : Prop :=
  (∀ l ∈ ls, '\n' ∉ l) ∧ ∃ k : Nat, (exact → k = ls.length) ∧ ∀ r n, p ⟨unlines ls ++ r, n⟩ = .ok (a, ⟨r, n + (k : Int)⟩)

/-- The first line is a control record with these numbers. -/
def StartsWith (ls : List Text) (t : Nums) : Prop := ∃ l rest d, ls = l :: rest ∧ DivLine d l ∧ d.tail = t

/-- Reading a file from its first line: tree/File/src/parse.hpp 15-21, file/Base/test. -/
def readFileFrom (mf : Int) : Parser PFile := do
  let d ← readDivision
  readPFile mf d

/-- Reading a material from its first line: tree/Material/src/parse.hpp 13-19. -/
def readMaterialFrom : Parser PMaterial := do
  let d ← readDivision
  readPMaterial d

/-- These lines, taken by themselves, are parsed as the section `x`, whose type is the one that belongs to MF and the MT of the first line. -/
def SectionText (mf : Int) (x : AnySection) (ls : List Text) : Prop :=
  (∃ t, StartsWith ls t ∧ sectionType? mf t.mt = some x.1) ∧ ReadsAs (mf ≠ 32) x.1.defn.parse x.2 ls

/-- Sections one after the other, and a FEND line. -/
def FileText (mf : Int) (xs : List AnySection) (ls : List Text) : Prop :=
  ∃ (bs : List (List Text)) (fend : DLine), ls = bs.flatten ++ [fend.text] ∧ All2 (SectionText mf) xs bs ∧ fend.IsFend

/-- The MF numbers `Material` accepts. -/
def KnownMF (mf : Int) : Prop := implementedMF mf = true

/-- These lines, taken by themselves, are read as the file `f`, whose MF is that of the first line. -/
def FileBlock (f : PFile) (ls : List Text) : Prop :=
  (∃ t, StartsWith ls t ∧ t.mf = f.mf ∧ KnownMF t.mf) ∧ ReadsAs f.NoCov (readFileFrom f.mf) f ls

/-- Files one after the other, and a MEND line. -/
def MaterialText (fs : List PFile) (ls : List Text) : Prop :=
  ∃ (bs : List (List Text)) (mend : DLine), ls = bs.flatten ++ [mend.text] ∧ All2 FileBlock fs bs ∧ mend.IsMend

/-- These lines, taken by themselves, are read as the material `m`. -/
def MaterialBlock (m : PMaterial) (ls : List Text) : Prop :=
  (∃ t, StartsWith ls t ∧ t.mat = m.mat ∧ t.mat ≠ -1) ∧ ReadsAs m.NoCov readMaterialFrom m ls

/-- A tape identification line (MF = MT = 0), materials one after the other, and a line with MAT = -1 that is a control record. -/
def TapeText (id : Tpid) (ms : List PMaterial) (ls : List Text) : Prop :=
  ∃ tpid bs tend dt, ls = tpid :: bs.flatten ++ [tend] ∧ TextLine ⟨id.ntape, 0, 0⟩ tpid ∧ id.text = padded 66 tpid ∧ All2 MaterialBlock ms bs ∧
    DivLine dt tend ∧ dt.tail.mat = -1

/-! ### valid objects -/

/-- A section that satisfies the invariants of its class. -/
def AnySection.Valid (x : AnySection) : Prop := x.1.defn.ValidSect x.2
/-- All its reals survive 11 columns. -/
def AnySection.Rep (x : AnySection) : Prop := Reps (x.1.defn.realsSect x.2)

/-- A file with sections of its MF, ordered by their MT. -/
def PFile.Valid (f : PFile) : Prop :=
  KnownMF f.mf ∧ f.mf ≠ 30 ∧ f.sections.Sorted ∧ ∀ e ∈ f.sections, e.1 = e.2.mt ∧ e.2.mf = f.mf ∧ e.2.Valid
def PFile.Rep (f : PFile) : Prop := ∀ x ∈ f.sections', x.Rep

/-- A material with at least one file, files ordered by MF, none of them empty. -/
def PMaterial.Valid (m : PMaterial) : Prop :=
  (1 ≤ m.mat ∧ m.mat ≤ 9999) ∧ m.files ≠ [] ∧ m.files.Sorted ∧ ∀ e ∈ m.files, e.1 = e.2.mf ∧ e.2.Valid ∧ e.2.sections ≠ []
def PMaterial.Rep (m : PMaterial) : Prop := ∀ f ∈ m.files', f.Rep

/-- A tape with at least one material (and fewer than 2^31), whose identification has 66 columns. -/
def PTape.Valid (t : PTape) : Prop :=
  t.id.text.length = 66 ∧ '\n' ∉ t.id.text ∧ t.materials ≠ [] ∧ t.materials.length < 2147483648 ∧ ∀ m ∈ t.materials, m.Valid
def PTape.Rep (t : PTape) : Prop := ∀ m ∈ t.materials, m.Rep

end ENDFtk

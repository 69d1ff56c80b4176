import Verif.Record.Control
/-
  Specification vocabulary: what a user sees on a line of an ENDF file.  No reading function is used here.
-/
namespace ENDFtk
variable [Disco]

/-- Columns `a` to `b` (counted from 1, inclusive) of a line. -/
def cols (a b : Nat) (l : Text) : Text := (l.drop (a - 1)).take (b + 1 - a)

/-- The line carries these MAT, MF and MT numbers: columns 67-70, 71-72 and 73-75.
    (Columns missing on a short line are blank, and blank columns are 0.) -/
def HasTail (t : Nums) (l : Text) : Prop :=
  parseInt (cols 67 70 l) = some t.mat ∧ parseInt (cols 71 72 l) = some t.mf ∧ parseInt (cols 73 75 l) = some t.mt

/-- The six columns of data of a control line. -/
def ShowsCont (c : Cont) (l : Text) : Prop :=
  parseReal (cols 1 11 l) = some c.c1 ∧ parseReal (cols 12 22 l) = some c.c2 ∧
  parseInt (cols 23 33 l) = some c.l1 ∧ parseInt (cols 34 44 l) = some c.l2 ∧
  parseInt (cols 45 55 l) = some c.n1 ∧ parseInt (cols 56 66 l) = some c.n2

/-- A text that is the given lines, each ended by a newline. -/
def unlines (ls : List Text) : Text := ls.flatMap (fun l => l ++ ['\n'])

/-- A canonical 80 column line: MAT, MF, MT in columns 67-75, blanks in 76-80, no newline inside. -/
def CanonicalLine (t : Nums) (l : Text) : Prop :=
  l.length = 80 ∧ '\n' ∉ l ∧ HasTail t l ∧ cols 76 80 l = blanks 5

/-- `d` printed as an integer in `w` columns. -/
def NumText (w : Nat) (d : Int) : Text := blanks (w - (dec d).length) ++ dec d

/-- The only errors are exceptions derived from `std::exception`. -/
def StdErr (e : Err) : Prop := e.isStd = true

omit [Disco] in
@[simp] theorem unlines_nil : unlines [] = [] := rfl
omit [Disco] in
@[simp] theorem unlines_cons (l : Text) (ls : List Text) : unlines (l :: ls) = l ++ '\n' :: unlines ls := by
  simp [unlines]
omit [Disco] in
@[simp] theorem unlines_append (ls ms : List Text) : unlines (ls ++ ms) = unlines ls ++ unlines ms := by
  simp [unlines]

end ENDFtk

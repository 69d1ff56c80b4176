import Verif.Disco
/-
  Specification: texts whose lines agree in columns 1-75.  (Columns 76-80 of a line hold the line number NS; what follows them is a comment.)
-/
namespace ENDFtk
variable [Disco]

/-- Two lines agree in columns 1-75, and columns 76-80 of both can be read as an integer (blanks, or no characters at all, can). -/
structure SameLine (l l' : Text) : Prop where
  nl : '\n' ∉ l
  nl' : '\n' ∉ l'
  len : 75 ≤ l.length
  len' : 75 ≤ l'.length
  cols : l.take 75 = l'.take 75
  ns : ∃ v, parseInt ((l.drop 75).take 5) = some v
  ns' : ∃ v, parseInt ((l'.drop 75).take 5) = some v

/-- Two texts agree, line by line, in columns 1-75.  (If the last line has no newline, it has 80 columns.) -/
inductive SameText : Text → Text → Prop
  | refl (t : Text) : SameText t t
  | line {l l' t t' : Text} : SameLine l l' → SameText t t' → SameText (l ++ '\n' :: t) (l' ++ '\n' :: t')
  | last {l l' : Text} : SameLine l l' → 80 ≤ l.length → 80 ≤ l'.length → SameText l l'

/-- The same for texts all of whose lines have 75 columns at least. -/
inductive SameLines : Text → Text → Prop
  | nil : SameLines [] []
  | line {l l' t t' : Text} : SameLine l l' → SameLines t t' → SameLines (l ++ '\n' :: t) (l' ++ '\n' :: t')
  | last {l l' : Text} : SameLine l l' → 80 ≤ l.length → 80 ≤ l'.length → SameLines l l'

/-- The same if the last line has a newline, too. -/
inductive SameBlock : Text → Text → Prop
  | nil : SameBlock [] []
  | line {l l' t t' : Text} : SameLine l l' → SameBlock t t' → SameBlock (l ++ '\n' :: t) (l' ++ '\n' :: t')

end ENDFtk

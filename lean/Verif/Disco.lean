import Verif.Basic
/-
  The dependency njoy::tools::disco (fixed width field I/O), as far as ENDFtk uses it.
  disco's source is not part of /repo: the class `Disco` states what is assumed about it (D1-D7 of DESIGN.md);
  `Verif/DiscoInstance.lean` gives a concrete instance.
-/
namespace ENDFtk

/-- Decimal digit character. -/
def digitChar (d : Nat) : Char := Char.ofNat (48 + d % 10)

/-- Decimal digits of `n`, most significant first (`fuel` > number of digits). -/
def decAux : Nat → Nat → Text
  | 0, _ => []
  | fuel + 1, n => if n < 10 then [digitChar n] else decAux fuel (n / 10) ++ [digitChar (n % 10)]

/-- Decimal notation of a natural number. -/
def decNat (n : Nat) : Text := decAux (n + 1) n

/-- Decimal notation of an integer, as a user writes it. -/
def dec : Int → Text
  | .ofNat n => decNat n
  | .negSucc n => '-' :: decNat (n + 1)

/-- `n` fits in `w` columns (one column of which is the sign if `n` is negative). -/
def fits (w : Nat) (n : Int) : Prop := n < 10 ^ w ∧ -(10 ^ (w - 1) : Int) < n

instance (w : Nat) (n : Int) : Decidable (fits w n) := by unfold fits; exact inferInstance

/-- Field I/O of `njoy::tools::disco`.  `Dbl` stands for C++ `double`. -/
class Disco where
  Dbl : Type
  decEqDbl : DecidableEq Dbl
  /-- the value `0.0` -/
  zero : Dbl
  /-- `operator==` on doubles -/
  eqD : Dbl → Dbl → Bool
  /-- `operator<` on doubles -/
  ltD : Dbl → Dbl → Bool
  /-- `static_cast< int >( std::round( x ) )` -/
  round : Dbl → Int
  /-- conversion `int` to `double` -/
  ofInt : Int → Dbl
  /-- `static_cast< int >( x )`, also the implicit conversion of a `double` to an integer type -/
  trunc : Dbl → Int
  /-- value of the characters of a real field, `none` if unreadable -/
  parseReal : Text → Option Dbl
  /-- `disco::ENDF::write` -/
  writeReal : Dbl → Text
  /-- value of the characters of an integer field, `none` if unreadable -/
  parseInt : Text → Option Int
  /-- `disco::Integer< w >::write` -/
  writeInt : Nat → Int → Text
  -- D2
  parseReal_blank : ∀ n, parseReal (blanks n) = some zero
  parseInt_blank : ∀ n, parseInt (blanks n) = some 0
  -- D4
  writeInt_fits : ∀ w n, fits w n → writeInt w n = blanks (w - (dec n).length) ++ dec n
  parseInt_dec : ∀ k n, parseInt (blanks k ++ dec n) = some n
  parseInt_fits : ∀ f n, parseInt f = some n → fits f.length n
  -- D5
  writeReal_length : ∀ x, (writeReal x).length = 11
  writeReal_nl : ∀ x, '\n' ∉ writeReal x
  -- doubles
  eqD_zero : eqD zero zero = true
  round_ofInt : ∀ n : Int, -(2 ^ 31) ≤ n → n < 2 ^ 31 → round (ofInt n) = n
  trunc_ofInt : ∀ n : Int, -(2 ^ 31) ≤ n → n < 2 ^ 32 → trunc (ofInt n) = n

export Disco (Dbl writeReal writeInt parseReal parseInt)

variable [Disco]

instance : DecidableEq Dbl := Disco.decEqDbl

/-- The real survives being written in 11 columns and read back. -/
def Rep (x : Dbl) : Prop := parseReal (writeReal x) = some x

instance (x : Dbl) : Decidable (Rep x) := by unfold Rep; exact inferInstance

/-- The characters of a field of width `w` (D1): the next `w` characters, ended early by a newline (which is not consumed);
    the end of the buffer inside the field is an exception.
    Models disco's field reading, used by record/Base.hpp 62-68, record/Tail.hpp 34-45, record/Zipper/src/process.hpp 1-7. -/
def takeField : Nat → Text → Except Err (Text × Text)
  | 0, s => .ok ([], s)
  | _ + 1, [] => .error .exc
  | n + 1, c :: s =>
      if c = '\n' then .ok ([], c :: s)
      else match takeField n s with
        | .ok (f, s') => .ok (c :: f, s')
        | .error e => .error e

/-- The rest of the line including its newline is skipped (end of `disco::Record::read` without `RetainCarriage`, D3). -/
def endLine : Text → Text
  | [] => []
  | c :: s => if c = '\n' then s else endLine s

/-- Raw characters of a field. -/
def readField (w : Nat) : Parser Text := fun s =>
  match takeField w s.rest with
  | .ok (f, r) => .ok (f, { s with rest := r })
  | .error e => .error e

/-- `disco::Integer< w >::read` (record/Integer.hpp 14-20). -/
def readInt (w : Nat) : Parser Int := do
  let f ← readField w
  match parseInt f with
  | some v => pure v
  | none => Parser.fail .exc

/-- `disco::ENDF::read` (record/Real.hpp 13-19). -/
def readReal : Parser Dbl := do
  let f ← readField 11
  match parseReal f with
  | some v => pure v
  | none => Parser.fail .exc

/-- `disco::Character< w >::read` (record/Character.hpp 14-21), D6: a short line is padded with blanks. -/
def readChars (w : Nat) : Parser Text := do
  let f ← readField w
  pure (f ++ blanks (w - f.length))

/-- `disco::Character< w >::write`, D6: left justified, padded with blanks. -/
def writeChars (w : Nat) (t : Text) : Text := t ++ blanks (w - t.length)

/-- End of a record read without `RetainCarriage`. -/
def readEndLine : Parser Unit := fun s => .ok ((), { s with rest := endLine s.rest })

end ENDFtk

import Verif.Disco
/-
  Specification: expressions of type `int` of C++, in which signed overflow and division by zero are undefined, and functions that verify
  something about `int`s and throw `std::exception` if it is not so.
-/
namespace ENDFtk.Cpp

/-- The value of an expression of type `int`; `none`: the behaviour is undefined. -/
structure Val where
  get : Option Int

/-- A result in the range of `int`. -/
def inRange (n : Int) : Option Int := if -2147483648 ≤ n ∧ n ≤ 2147483647 then some n else none

instance : Add Val := ⟨fun a b => ⟨a.get.bind fun x => b.get.bind fun y => inRange (x + y)⟩⟩
instance : Sub Val := ⟨fun a b => ⟨a.get.bind fun x => b.get.bind fun y => inRange (x - y)⟩⟩
instance : Mul Val := ⟨fun a b => ⟨a.get.bind fun x => b.get.bind fun y => inRange (x * y)⟩⟩
/-- Division truncates. -/
instance : Div Val := ⟨fun a b => ⟨a.get.bind fun x => b.get.bind fun y => if y = 0 then none else inRange (Int.tdiv x y)⟩⟩
instance : Mod Val := ⟨fun a b => ⟨a.get.bind fun x => b.get.bind fun y => if y = 0 then none else (inRange (Int.tdiv x y)).bind fun _ => some (Int.tmod x y)⟩⟩
instance (n : Nat) : OfNat Val n := ⟨⟨some (n : Int)⟩⟩

/-- A condition; `none`: undefined. -/
abbrev Cond := Option Bool

def eq (a b : Val) : Cond := a.get.bind fun x => b.get.bind fun y => some (decide (x = y))
def ne (a b : Val) : Cond := a.get.bind fun x => b.get.bind fun y => some (decide (x ≠ y))
def lt (a b : Val) : Cond := a.get.bind fun x => b.get.bind fun y => some (decide (x < y))
def le (a b : Val) : Cond := a.get.bind fun x => b.get.bind fun y => some (decide (x ≤ y))
/-- `p && q`: `q` is evaluated only if `p` is true. -/
def both (p q : Cond) : Cond := p.bind fun b => if b then q else some false
/-- `p || q`: `q` is evaluated only if `p` is false. -/
def either (p q : Cond) : Cond := p.bind fun b => if b then some true else q

/-- How the call of a function that verifies something ends. -/
inductive Verdict
  | returns
  | throws
  | undefined
  deriving DecidableEq

/-- `if ( c ) { throw std::exception(); }` followed by the rest of the function -/
def throwIf (c : Cond) (rest : Verdict) : Verdict :=
  match c with
  | none => .undefined
  | some true => .throws
  | some false => rest

/-- `if ( c ) { … } else { … }` -/
def branch (c : Cond) (yes no : Verdict) : Verdict :=
  match c with
  | none => .undefined
  | some true => yes
  | some false => no

end ENDFtk.Cpp

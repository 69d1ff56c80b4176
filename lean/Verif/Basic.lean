/-
  Basic vocabulary of the model: text, C++ outcomes, reading position, parsers.
-/
namespace ENDFtk

deriving instance DecidableEq for Except

/-- A text buffer.  C++: `std::string` / iterator range (models every `template< typename Iterator >` of /repo/src/ENDFtk).
    An iterator into a buffer is modelled by the remaining suffix, `it == end` is `[]`. -/
abbrev Text := List Char

/-- Abnormal outcomes of C++ code.
  * `exc` : an exception derived from `std::exception` (the catch handlers of the code re-throw by value, `throw e;`, so the
    dynamic type is sliced and not observable);
  * `outOfRange` : `std::out_of_range` thrown by look ups (tree/File/src/section.hpp 5-18, tree/Material/src/file.hpp 6-22,
    tree/Tape/src/material.hpp 10-24);
  * `int n` : `throw (position + 6)` of record/TailVerifying.hpp 35;
  * `illegalN2`, `inconsistentN2` : record/InterpolationBase.hpp 49-57;
  * `ub` : behaviour the C++ standard leaves undefined;
  * `fuel` : artefact of the model (a loop ran out of fuel); proved unreachable. -/
inductive Err where
  | exc
  | outOfRange
  | int (n : Nat)
  | illegalN2
  | inconsistentN2
  | ub
  | fuel
deriving DecidableEq, Repr

/-- Is the outcome an exception derived from `std::exception`? -/
def Err.isStd : Err → Bool
  | .exc => true
  | .outOfRange => true
  | _ => false

/-- Reading state: the remaining text (iterator `it`, with `end` fixed) and the reference parameter `lineNumber`. -/
structure St where
  rest : Text
  line : Int
deriving DecidableEq, Repr

/-- A reading function / constructor: takes `Iterator& it, const Iterator& end, long& lineNumber`.
    Simplification: on an exception the values of `it` and `lineNumber` are not part of the outcome. -/
def Parser (α : Type) := St → Except Err (α × St)

namespace Parser

@[inline] def pure {α : Type} (a : α) : Parser α := fun s => .ok (a, s)

@[inline] def bind {α β : Type} (p : Parser α) (f : α → Parser β) : Parser β := fun s =>
  match p s with
  | .ok (a, s') => f a s'
  | .error e => .error e

/-- `throw` -/
@[inline] def fail {α : Type} (e : Err) : Parser α := fun _ => .error e

/-- Current state. -/
@[inline] def get : Parser St := fun s => .ok (s, s)

/-- Set the iterator and line number. -/
@[inline] def set (s : St) : Parser Unit := fun _ => .ok ((), s)

/-- `catch` clauses: translate the exception. -/
@[inline] def mapErr {α : Type} (f : Err → Err) (p : Parser α) : Parser α := fun s =>
  match p s with
  | .ok r => .ok r
  | .error e => .error (f e)

instance : Monad Parser where
  pure := Parser.pure
  bind := Parser.bind

@[simp] theorem pure_run {α : Type} (a : α) (s : St) : (Pure.pure a : Parser α) s = .ok (a, s) := rfl

theorem bind_run {α β : Type} (p : Parser α) (f : α → Parser β) (s : St) :
    (p >>= f) s = match p s with
      | .ok (a, s') => f a s'
      | .error e => .error e := rfl

theorem bind_ok {α β : Type} {p : Parser α} {f : α → Parser β} {s s' : St} {a : α}
    (h : p s = .ok (a, s')) : (p >>= f) s = f a s' := by
  rw [bind_run, h]

theorem bind_err {α β : Type} {p : Parser α} {f : α → Parser β} {s : St} {e : Err}
    (h : p s = .error e) : (p >>= f) s = .error e := by
  rw [bind_run, h]

/-- Inversion: a successful sequence succeeded in both parts. -/
theorem bind_eq_ok {α β : Type} {p : Parser α} {f : α → Parser β} {s s'' : St} {b : β} :
    (p >>= f) s = .ok (b, s'') ↔ ∃ a s', p s = .ok (a, s') ∧ f a s' = .ok (b, s'') := by
  rw [bind_run]
  cases h : p s with
  | ok r =>
    cases r with
    | mk a s' =>
      constructor
      · intro h'; exact ⟨a, s', rfl, h'⟩
      · rintro ⟨a', s1, h1, h2⟩; cases h1; exact h2
  | error e => simp

theorem bind_eq_error {α β : Type} {p : Parser α} {f : α → Parser β} {s : St} {e : Err} :
    (p >>= f) s = .error e ↔ p s = .error e ∨ ∃ a s', p s = .ok (a, s') ∧ f a s' = .error e := by
  rw [bind_run]
  cases h : p s with
  | ok r =>
    cases r with
    | mk a s' =>
      constructor
      · intro h'; exact .inr ⟨a, s', rfl, h'⟩
      · rintro (h1 | ⟨a', s1, h1, h2⟩)
        · cases h1
        · cases h1; exact h2
  | error e => simp

@[simp] theorem fail_run {α : Type} (e : Err) (s : St) : (fail e : Parser α) s = .error e := rfl
@[simp] theorem get_run (s : St) : get s = .ok (s, s) := rfl
@[simp] theorem set_run (s t : St) : set t s = .ok ((), t) := rfl

theorem mapErr_ok {α : Type} {f : Err → Err} {p : Parser α} {s : St} {r : α × St} :
    mapErr f p s = .ok r ↔ p s = .ok r := by
  unfold mapErr
  cases h : p s with
  | ok r' => simp
  | error e => simp

theorem mapErr_error {α : Type} {f : Err → Err} {p : Parser α} {s : St} {e : Err} :
    mapErr f p s = .error e ↔ ∃ e', p s = .error e' ∧ f e' = e := by
  unfold mapErr
  cases h : p s with
  | ok r' => simp
  | error e' => simp

end Parser

/-- `catch ( int ) { throw std::exception(); }` together with `catch ( std::exception& e ) { throw e; }`. -/
def catchInt : Err → Err
  | .int _ => .exc
  | .outOfRange => .exc
  | e => e

/-- The catch clauses of the TAB1/TAB2 reading constructors
    (TabulationRecord/src/ctor.hpp 104-125, InterpolationRecord/src/ctor.hpp 64-85). -/
def catchAll : Err → Err
  | .int _ => .exc
  | .illegalN2 => .exc
  | .inconsistentN2 => .exc
  | .outOfRange => .exc
  | e => e

/-- `n` blanks. -/
def blanks (n : Nat) : Text := List.replicate n ' '

@[simp] theorem blanks_length (n : Nat) : (blanks n).length = n := by simp [blanks]

theorem nl_not_mem_blanks (n : Nat) : '\n' ∉ blanks n := by
  simp [blanks, List.mem_replicate]

theorem blanks_add (m n : Nat) : blanks (m + n) = blanks m ++ blanks n := by
  simp [blanks, List.replicate_append_replicate]

end ENDFtk

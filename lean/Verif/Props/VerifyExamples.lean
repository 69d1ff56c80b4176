import Verif.Props.Verify
import Verif.DiscoInstance
import Verif.Txt
/-
  C72 on concrete records: all three verdicts occur.
-/
set_option linter.unusedVariables false
set_option maxRecDepth 100000
namespace ENDFtk.Props.VerifyExamples
open ENDFtk Cpp
attribute [local instance] concDisco

/-- How reading a component ends, and how many lines it consumes. -/
inductive End
  | read (lines : Nat)
  | exc
  | ub
  | other
  deriving DecidableEq

def outcome {α : Type} (c : Comp α) (t : Nums) (s : Text) : End :=
  match c.read t ⟨s, 0⟩ with
  | .ok (_, s') => .read s'.line.toNat
  | .error .exc => .exc
  | .error .ub => .ub
  | .error _ => .other

/-- Two fission products, eight numbers. -/
example : outcome yieldsC ⟨9228, 8, 454⟩ (txt
    " 2.530000-2 0.000000+0          2          0          8          29228 8454    1\n"
    " 2.306600+4 0.000000+0 2.05032-19 1.31220-19 2.306700+4 0.000000+09228 8454    2\n"
    " 6.30881-18 4.03764-18                                            9228 8454    3\n") = .read 3 := by decide +kernel

/-- Three fission products, eight numbers. -/
example : outcome yieldsC ⟨9228, 8, 454⟩ (txt
    " 2.530000-2 0.000000+0          2          0          8          39228 8454    1\n"
    " 2.306600+4 0.000000+0 2.05032-19 1.31220-19 2.306700+4 0.000000+09228 8454    2\n"
    " 6.30881-18 4.03764-18                                            9228 8454    3\n") = .exc := by decide +kernel

/-- 536870912 fission products: four times this number is not an `int`. -/
example : outcome yieldsC ⟨9228, 8, 454⟩ (txt
    " 2.530000-2 0.000000+0          2          0          8  5368709129228 8454    1\n"
    " 2.306600+4 0.000000+0 2.05032-19 1.31220-19 2.306700+4 0.000000+09228 8454    2\n"
    " 6.30881-18 4.03764-18                                            9228 8454    3\n") = .ub := by decide +kernel

/-- The verdicts of the specification. -/
example : (Verify.fissionYields 8 2, Verify.fissionYields 8 3, Verify.fissionYields 8 536870912, Verify.fissionYields 0 536870912) =
    (.returns, .throws, .undefined, .undefined) := by decide
/-- The first comparison decides: the product of the second one is not computed. -/
example : (Verify.lvalue 12 2, Verify.lvalue 13 2, Verify.lvalue 0 536870912, Verify.lvalue 12 536870912) =
    (.returns, .throws, .throws, .undefined) := by decide
example : (Verify.legendreSize 2 2 3 true, Verify.legendreSize 2 2 4 true, Verify.legendreSize 2 3 3 true, Verify.legendreSize 2 3 6 false,
    Verify.legendreSize 46341 46341 1 true, Verify.legendreSize 46341 46342 1 true, Verify.legendreSize 65536 65536 0 false) =
    (.returns, .throws, .throws, .returns, .undefined, .throws, .undefined) := by decide
example : (Verify.rectangular 6 5 2, Verify.rectangular 6 6 2, Verify.rectangular 5 5 0, Verify.rectangular 6 5 0) =
    (.returns, .throws, .throws, .undefined) := by decide

end ENDFtk.Props.VerifyExamples

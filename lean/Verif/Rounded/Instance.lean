import Verif.Rounded.Base
import Verif.Section.CorrInstance
/-
  A small instance of `Disco` and `Rounding`: the reals are tenths, and are written as integers (rounded away from zero), so that digits are lost.
  It shows that the assumptions of `Rounding` are consistent, and is used in Props/RewriteExamples.lean.
-/
set_option linter.unusedVariables false
namespace ENDFtk
namespace Tenths

/-- The integer that is written for the number of tenths. -/
def whole (x : Int) : Int :=
  let n := if 0 ≤ x then (x + 9) / 10 else -((-x + 9) / 10)
  if 1000000000 < n then 1000000000 else if n < -1000000000 then -1000000000 else n

/-- The part before and after the decimal point. -/
def splitPoint : Text → Text × Text
  | [] => ([], [])
  | c :: t => if c = '.' then ([], t) else let p := splitPoint t; (c :: p.1, p.2)

/-- An integer, or an integer and one decimal. -/
def parse (t : Text) : Option Int :=
  match Conc.parseInt t with
  | some n => some (10 * n)
  | none =>
    let p := splitPoint t
    match Conc.parseInt p.1, p.2 with
    | some n, [c] => (Conc.natVal [c]).map (fun d => if '-' ∈ p.1 then 10 * n - d else 10 * n + d)
    | _, _ => none

def write (x : Int) : Text := Conc.padLeft 11 (dec (whole x))

theorem whole_fits (x : Int) : fits 11 (whole x) := by
  unfold fits whole
  simp only
  constructor <;> (split <;> split <;> (try split) <;> omega)

theorem whole_whole (x : Int) : whole (10 * whole x) = whole x := by
  have h : ∀ n : Int, -1000000000 ≤ n → n ≤ 1000000000 → whole (10 * n) = n := by
    intro n h1 h2
    unfold whole
    simp only
    split <;> split <;> (try split) <;> omega
  apply h <;> (unfold whole; simp only; split <;> split <;> (try split) <;> omega)

theorem whole_mono {a b : Int} (h : a ≤ b) : whole a ≤ whole b := by
  have h1 : (if 0 ≤ a then (a + 9) / 10 else -((-a + 9) / 10)) ≤ (if 0 ≤ b then (b + 9) / 10 else -((-b + 9) / 10)) := by
    split <;> split <;> omega
  unfold whole
  simp only
  generalize (if 0 ≤ a then (a + 9) / 10 else -((-a + 9) / 10)) = p at h1 ⊢
  generalize (if 0 ≤ b then (b + 9) / 10 else -((-b + 9) / 10)) = q at h1 ⊢
  split <;> split <;> (try split) <;> (try split) <;> omega

theorem whole_zero (x : Int) : whole x = 0 ↔ x = 0 := by
  unfold whole
  simp only
  split <;> split <;> (try split) <;> omega

theorem whole_small {n : Int} (h1 : -10000000 < n) (h2 : n < 10000000) : whole (10 * n) = n := by
  unfold whole
  simp only
  split <;> split <;> (try split) <;> omega

theorem parse_write (x : Int) : parse (write x) = some (10 * whole x) := by
  unfold parse write Conc.padLeft
  rw [Conc.parseInt_dec]

theorem write_length (x : Int) : (write x).length = 11 := by
  have := dec_length (by decide) (whole_fits x)
  simp [write, Conc.padLeft]; omega

theorem lt_whole {a b : Int} (h : decide (a < b) = false) : decide (10 * whole a < 10 * whole b) = false := by
  have h : ¬ (a < b) := of_decide_eq_false h
  have := whole_mono (show b ≤ a by omega)
  exact decide_eq_false (by omega)

theorem eq_whole {a b : Int} (h : decide (a = b) = true) : decide (10 * whole a = 10 * whole b) = true := by
  have h : a = b := of_decide_eq_true h
  subst h
  exact decide_eq_true rfl

theorem eqZero_whole (x : Int) : decide (10 * whole x = 0) = decide (x = 0) := by
  have := whole_zero x
  by_cases hx : x = 0
  · rw [decide_eq_true hx]
    exact decide_eq_true (by have := this.mpr hx; omega)
  · have : whole x ≠ 0 := fun h => hx (this.mp h)
    rw [decide_eq_false hx]
    exact decide_eq_false (by omega)

end Tenths

@[reducible] def tenths : Disco where
  Dbl := Int
  decEqDbl := inferInstance
  zero := 0
  eqD a b := decide (a = b)
  ltD a b := decide (a < b)
  round x := (x + 5) / 10
  ofInt n := 10 * n
  trunc x := Int.tdiv x 10
  parseReal := Tenths.parse
  writeReal := Tenths.write
  parseInt := Conc.parseInt
  writeInt := Conc.writeInt
  parseReal_blank n := by simp [Tenths.parse, Conc.parseInt_blank]
  parseInt_blank := Conc.parseInt_blank
  writeInt_fits w n _ := rfl
  parseInt_dec := Conc.parseInt_dec
  parseInt_fits := Conc.parseInt_fits
  writeReal_length := Tenths.write_length
  writeReal_nl x := by
    simp only [Tenths.write, Conc.padLeft, List.mem_append, not_or]
    exact ⟨by simp [blanks], dec_nl _⟩
  eqD_zero := rfl
  round_ofInt n _ _ := by omega
  trunc_ofInt n _ _ := by rw [Int.mul_tdiv_cancel_left _ (by decide)]

@[reducible] def tenthsRounding : @Rounding tenths :=
  @Rounding.mk tenths (fun x : Int => 10 * Tenths.whole x) Tenths.parse_write
    (fun x => by show Tenths.write (10 * Tenths.whole x) = Tenths.write x; simp only [Tenths.write, Tenths.whole_whole])
    Tenths.lt_whole Tenths.eq_whole Tenths.eqZero_whole
    (by decide)
    (fun n h1 h2 => by show 10 * Tenths.whole (10 * n) = 10 * n; rw [Tenths.whole_small h1 h2])

@[reducible] def tenthsCorr : @CorrOps tenths :=
  @CorrOps.mk tenths (fun _ (v : Int) => v) (fun _ (c : Int) => c) (fun _ _ _ _ _ _ => rfl)

end ENDFtk

import Verif.Props.BlameTape
import Verif.Props.BlameExamples
import Verif.Props.ResCovCounterexamples
/-
  C49, C55: texts that meet the hypotheses of `C55_safe_texts`, `C49_safe_mf` and `C49_tape_blame`, with the concrete number format `concDisco`.
-/
set_option linter.unusedVariables false
set_option maxRecDepth 100000
namespace ENDFtk.Props.BlameTapeExamples
open BlameExamples
attribute [local instance] concDisco concCorr

instance (c : Cont) : Decidable (Culprit32 c) := by unfold Culprit32; exact inferInstance

/-- The text has `n` lines, and none of them is to blame. -/
def Harmless32 (s : Text) (n : Nat) : Prop :=
  linesFrom n s = [] ∧ ∀ k < n, 66 ≤ (firstLine (linesFrom k s)).length ∧ ∀ c ∈ shown (firstLine (linesFrom k s)), ¬Culprit32 c

instance (s : Text) (n : Nat) : Decidable (Harmless32 s n) := by unfold Harmless32; exact inferInstance

theorem linesFrom_nil (k : Nat) : linesFrom k [] = [] := by
  induction k with
  | zero => rfl
  | succ k ih => exact ih

/-- The hypothesis of `C55_safe_texts` is met. -/
theorem harmless32_safe {s : Text} {n : Nat} (h : Harmless32 s n) (line : Int) : ∀ k, ¬BadLine32 (linesFrom k (⟨s, line⟩ : St).rest) := by
  intro k hb
  obtain ⟨h1, h2⟩ := h
  by_cases hk : k < n
  · obtain ⟨g1, g2⟩ := h2 k hk
    rcases hb with ⟨-, hb⟩ | ⟨c, hc, hb⟩
    · exact absurd hb (by show ¬((firstLine (linesFrom k s)).length < 66); omega)
    · exact g2 c (shown_of hc) hb
  · have e : linesFrom k s = [] := by rw [show k = (k - n) + n by omega, linesFrom_add, h1, linesFrom_nil]
    rcases hb with ⟨hb, -⟩ | ⟨c, hc, hb⟩
    · exact hb e
    · have hc := shown_of hc
      rw [e] at hc
      obtain ⟨x, y, e'⟩ := shown_nil
      rw [show firstLine [] = [] from rfl, e'] at hc
      cases hc
      revert hb
      simp [Culprit32, Beyond]

/-- A section with a compact matrix. -/
def compactSection : Text := txt
    " 9.223500+4 2.330250+2          0          0          1          0922232151     \n"
    " 9.223500+4 1.000000+0          0          0          1          0922232151     \n"
    " 1.000000-5 2.250000+3          1          1          0          1922232151     \n"
    " 2.500000+0 9.620000-1          0          2          0          0922232151     \n"
    " 2.310377+2 0.000000+0          0          0         12          1922232151     \n"
    "-1.060000+3 3.000000+0 1.524000+0 4.000000-2 2.600000-1 2.370000-1922232151     \n"
    " 2.061000+0 0.000000+0 1.453063+0 3.999991-2 2.592466-1 2.362210-1922232151     \n"
    " 0.000000+0 0.000000+0          2         10          1          0922232151     \n"
    "    2    1   1                                                    922232151     \n"
    "                                                                  922232  0     \n"

theorem safe_compact : Harmless32 compactSection 10 := by decide +kernel

example {er : Err} (h : mf32mt151.parse ⟨compactSection, 0⟩ = .error er) : er.isStd = true := C55_safe_texts (harmless32_safe safe_compact 0) h

/-- The text with undefined behaviour of `C55_undefined` has a bad line: its last one. -/
example : ∃ k, BadLine32 (linesFrom k cutMatrix) := C55_blame C55_undefined

/-- A tape whose only section has a rectangular matrix of covariances without rows. -/
def rowless : Text := txt
    "                                                                     1 0  0    0\n"
    " 1.001000+3 9.991673-1          0          0          0          1 12533  2    1\n"
    " 0.000000+0 0.000000+0          0          2          0          1 12533  2    2\n"
    " 0.000000+0 0.000000+0          0          6          1          0 12533  2    3\n"
    " 1.000000+0                                                        12533  2    4\n"
    "                                                                   12533  099999\n"
    "                                                                   125 0  0    0\n"
    "                                                                     0 0  0    0\n"
    "                                                                    -1 0  0    0\n"

def failureTape (s : Text) : Option Err :=
  match PTape.read ⟨s, 0⟩ with
  | .ok _ => none
  | .error e => some e

theorem rowless_undefined : PTape.read ⟨rowless, 0⟩ = .error .ub := by
  have h : failureTape rowless = some .ub := by decide +kernel
  unfold failureTape at h
  split at h
  · cases h
  · rename_i e he; rw [he]; cases h; rfl

example : MaterialBlamed rowless := C49_tape_blame rowless_undefined

/-- The MF numbers of the `n` lines of the text are not among those of `C49_safe_mf`. -/
def HarmlessMF (s : Text) (n : Nat) : Prop :=
  linesFrom n s = [] ∧ ∀ k < n, ∀ mf ∈ parseInt (cols 71 72 (lineAt k s)), mf ∉ [2, 6, 7, 8, 12, 26, 28, 31, 32, 33, 34, 35, 40]

instance (s : Text) (n : Nat) : Decidable (HarmlessMF s n) := by unfold HarmlessMF; exact inferInstance

theorem harmlessMF_safe {s : Text} {n : Nat} (h : HarmlessMF s n) :
    ∀ k t, HasTail t (lineAt k s) → t.mf ∉ [2, 6, 7, 8, 12, 26, 28, 31, 32, 33, 34, 35, 40] := by
  intro k t ht
  obtain ⟨h1, h2⟩ := h
  by_cases hk : k < n
  · exact h2 k hk t.mf ht.2.1
  · have e : lineAt k s = [] := by rw [show k = (k - n) + n by omega, lineAt_from, linesFrom_add, h1, linesFrom_nil]; rfl
    rw [e] at ht
    have h0 : parseInt (cols 71 72 []) = some 0 := by decide
    have h3 : parseInt (cols 71 72 []) = some t.mf := ht.2.1
    rw [h0] at h3
    rw [← Option.some.inj h3]
    decide

/-- A tape with a cross section. -/
def crossSection : Text := txt
    "                                                                     1 0  0    0\n"
    " 1.001000+3 9.991673-1          0          0          0          0 125 3  1    1\n"
    " 0.000000+0 0.000000+0          0          0          1          2 125 3  1    2\n"
    "          2          2                                             125 3  1    3\n"
    " 1.000000-5 3.719477+1 2.000000+7 4.818679-1                       125 3  1    4\n"
    "                                                                   125 3  099999\n"
    "                                                                   125 0  0    0\n"
    "                                                                     0 0  0    0\n"
    "                                                                    -1 0  0    0\n"

theorem crossSection_safe : HarmlessMF crossSection 9 := by decide +kernel

example {er : Err} (h : PTape.read ⟨crossSection, 0⟩ = .error er) : er.isStd = true := C49_safe_mf (harmlessMF_safe crossSection_safe) h

end ENDFtk.Props.BlameTapeExamples

import Verif.Props.Rewrite
import Verif.Rounded.Instance
import Verif.Txt
/-
  C67, concrete sections and a tape with reals that lose digits when they are written (with the instance `tenths`: the reals are tenths and are written as
  integers).  They meet the hypotheses of the theorems in Props/Rewrite.lean but not those of C41 and C46.
-/
set_option linter.unusedVariables false
set_option maxRecDepth 100000
namespace ENDFtk.Props.RewriteExamples

instance [Disco] (i : Int) (x : ResParams) : Decidable (x.lfwOk i) := by cases x <;> unfold ResParams.lfwOk <;> exact inferInstance
instance [Disco] (T : SectionType) (x : T.Data) : Decidable (T.WholeSmall x) := by cases T <;> unfold SectionType.WholeSmall <;> exact inferInstance
instance [Disco] [CorrOps] (x : AnySection) : Decidable x.Small := by
  obtain ⟨T, x⟩ := x
  cases T with
  | std T => unfold AnySection.Small SecType.WholeSmall; exact inferInstance
  | cov => unfold AnySection.Small SecType.WholeSmall; exact inferInstance
instance [Disco] [CorrOps] (f : PFile) : Decidable f.Small := by unfold PFile.Small; exact inferInstance
instance [Disco] [CorrOps] (m : PMaterial) : Decidable m.Small := by unfold PMaterial.Small; exact inferInstance
instance [Disco] [CorrOps] (t : PTape) : Decidable t.Small := by unfold PTape.Small; exact inferInstance

attribute [local instance] tenths tenthsRounding tenthsCorr

instance rewriteDecMatrix (m : CorrMatrix) : Decidable (ENDFtk.Faithful m) := by unfold ENDFtk.Faithful CorrMatrix.Printable; exact inferInstance
instance rewriteDecFaithful (x : AnySection) : Decidable x.Faithful := by
  obtain ⟨T, x⟩ := x
  cases T with
  | std T => cases T <;> unfold AnySection.Faithful <;> exact inferInstance
  | cov => unfold AnySection.Faithful; exact inferInstance
instance {α : Type} : (l : List α) → Decidable (l ≠ [])
  | [] => isFalse (fun h => h rfl)
  | _ :: _ => isTrue (by simp)

/-- The text is read as a section with the reals of `x`, rounded, and not the same; and it is printed as the same text. -/
def Same (T : SectionType) (mat : Int) (u : Text) (x : Sect T.Data) : Prop :=
  match T.defn.parse ⟨u, 0⟩ with
  | .ok (y, _) => T.defn.print y mat T.defn.mf = .ok u ∧ T.defn.realsSect y ≠ T.defn.realsSect x ∧ T.defn.realsSect y = (T.defn.realsSect x).map rnd
  | .error _ => False

instance (T : SectionType) (mat : Int) (u : Text) (x : Sect T.Data) : Decidable (Same T mat u x) := by
  unfold Same; split <;> exact inferInstance

/-- Reading and printing the text changes it: digits are lost; reading and printing the new text does not change it. -/
def SettlesAfterOnce (T : SectionType) (mat : Int) (s u : Text) : Prop :=
  match T.defn.parse ⟨s, 0⟩ with
  | .ok (x, _) => T.defn.print x mat T.defn.mf = .ok u ∧ s ≠ u ∧ ¬ Reps (T.defn.realsSect x) ∧ SevenDigits x.za ∧ T.WholeSmall x.data ∧
      Same T mat u x
  | .error _ => False

instance (T : SectionType) (mat : Int) (s u : Text) : Decidable (SettlesAfterOnce T mat s u) := by
  unfold SettlesAfterOnce; split <;> exact inferInstance

theorem rewrite_mf3 : SettlesAfterOnce .mf3 125 (txt
    "       1001        0.9          0          0          0          0 125 3102     \n"
    "       -0.1       -0.3          0          0          2          4 125 3102     \n"
    "          2          5          4          2                       125 3102     \n"
    "       12.5        0.1       20.4        7.7       20.4        8.2 125 3102     \n"
    "       20.5        9.9                                             125 3102     \n"
    "                                                                   125 3  0     \n") (txt
    "       1001          1          0          0          0          0 125 3102     \n"
    "         -1         -1          0          0          2          4 125 3102     \n"
    "          2          5          4          2                       125 3102     \n"
    "         13          1         21          8         21          9 125 3102     \n"
    "         21         10                                             125 3102     \n"
    "                                                                   125 3  0     \n") := by decide +kernel

theorem rewrite_mf33 : SettlesAfterOnce .mf33 125 (txt
    "       1001        0.9          0          0          0          1 12533102     \n"
    "          0          0          0          1          0          1 12533102     \n"
    "          0          0          1          5          6          3 12533102     \n"
    "        0.1        1.5     1000.7        0.3        0.2        0.1 12533102     \n"
    "                                                                   12533  0     \n") (txt
    "       1001          1          0          0          0          1 12533102     \n"
    "          0          0          0          1          0          1 12533102     \n"
    "          0          0          1          5          6          3 12533102     \n"
    "          1          2       1001          1          1          1 12533102     \n"
    "                                                                   12533  0     \n") := by decide +kernel

/-- The tape meets the hypotheses of `C67_read_tape`, but not `Rep`, the hypothesis of C46. -/
def TapeSettles (mats : List (Int × List Int)) (s : Text) : Prop :=
  match PTape.read ⟨s, 0⟩ with
  | .ok (t, _) => t.materials.map (fun m => (m.mat, m.files.keys)) = mats ∧ t.materials.length < 2147483648 ∧
      (∀ m ∈ t.materials, m.files ≠ [] ∧ ∀ f ∈ m.files', f.sections ≠ [] ∧ ∀ x ∈ f.sections', x.Faithful) ∧ t.Small ∧
      (∀ m ∈ t.materials, ∀ f ∈ m.files', ∀ x ∈ f.sections', ¬ Reps (x.1.defn.realsSect x.2)) ∧ t.print ≠ .ok s
  | .error _ => False

instance (a b : Except Err Text) : Decidable (a ≠ b) := by unfold Ne; exact inferInstance
instance (mats : List (Int × List Int)) (s : Text) : Decidable (TapeSettles mats s) := by
  unfold TapeSettles; split <;> exact inferInstance

def rewriteTape : Text := (txt
    "a tape whose reals have digits to lose                               7 0  0     \n"
    "       1001        0.9          0          0          1          0 125 2151     \n"
    "       1001          1          0          0          1          0 125 2151     \n"
    "        0.1      999.9          0          0          0          0 125 2151     \n"
    "        0.5        1.2          0          0          0          0 125 2151     \n"
    "                                                                   125 2  0     \n"
    "                                                                   125 0  0     \n"
    "       1001        0.9          0          0          0          0 125 3  1     \n"
    "       -0.1       -0.3          0          0          2          4 125 3  1     \n"
    "          2          5          4          2                       125 3  1     \n"
    "       12.5        0.1       20.4        7.7       20.4        8.2 125 3  1     \n"
    "       20.5        9.9                                             125 3  1     \n"
    "                                                                   125 3  0     \n"
    "       1001        0.9          0          0          0          0 125 3102     \n"
    "        3.3       -0.3          0          0          2          4 125 3102     \n"
    "          2          5          4          2                       125 3102     \n"
    "       12.5        0.1       20.4        7.7       20.4        8.2 125 3102     \n"
    "       99.3        9.9                                             125 3102     \n"
    "                                                                   125 3  0     \n"
    "                                                                   125 0  0     \n"
    "       1001        0.9          0          0          1          0 12532151     \n"
    "       1001          1          0          0          1          0 12532151     \n"
    "        0.1      999.9          2          1          0          0 12532151     \n"
    "        0.5        1.2          0          0          1          0 12532151     \n"
    "        0.9          0          0          0          6          1 12532151     \n"
    "        0.1        0.2        0.3        0.4        0.5        0.6 12532151     \n"
    "          0          0          1          0          1          1 12532151     \n"
    "        0.7                                                        12532151     \n"
    "                                                                   12532  0     \n"
    "                                                                   125 0  0     \n"
    "       1001        0.9          0          0          0          1 12533102     \n"
    "          0          0          0          1          0          1 12533102     \n"
    "          0          0          1          5          6          3 12533102     \n"
    "        0.1        1.5     1000.7        0.3        0.2        0.1 12533102     \n"
    "                                                                   12533  0     \n"
    "                                                                   125 0  0     \n"
    "                                                                     0 0  0     \n"
    "                                                                    -1 0  0     \n")

theorem rewrite_tape : TapeSettles [(125, [2, 3, 32, 33])] rewriteTape := by decide +kernel

/-- Hence `C67_read_tape` applies to it. -/
example : ∃ (s : Text) (t : PTape) (s' : St), PTape.read ⟨s, 0⟩ = .ok (t, s') ∧ t.materials ≠ [] ∧
    ∃ (u : Text) (v : PTape), t.print = .ok u ∧ u ≠ s ∧ (∀ r n, ∃ k, PTape.read ⟨u ++ r, n⟩ = .ok (v, ⟨r, k⟩)) ∧ v.print = .ok u ∧ t.RoundsTo v := by
  refine ⟨rewriteTape, ?_⟩
  have h := rewrite_tape
  unfold TapeSettles at h
  split at h
  · rename_i t s' e
    obtain ⟨h1, h2, h3, h4, _, h6⟩ := h
    obtain ⟨u, v, e1, e2, e3, e4⟩ := C67_read_tape e h2 h3 h4
    exact ⟨t, s', e, by rintro hm; rw [hm] at h1; simp at h1, u, v, e1, by rintro rfl; exact h6 e1, e2, e3, e4⟩
  · exact h.elim

end ENDFtk.Props.RewriteExamples

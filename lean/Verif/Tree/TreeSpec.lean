import Verif.Tree.Layout
import Verif.Lines
/-
  Specification: what it means that a tree indexes a layout.
-/
namespace ENDFtk
variable [Disco]

/-- The section has the numbers of the HEAD line and exactly the bytes from HEAD through SEND. -/
def SecIndexed (S : SecL) (t : TSection) : Prop :=
  t.mat = S.nums.mat ∧ t.mf = S.nums.mf ∧ t.mt = S.nums.mt ∧ t.content = unlines S.core

/-- `section( MT )` gives each section of the file, and there are no other sections; the numbers are listed in ascending order. -/
def FileIndexed (F : FileL) (t : TFile) : Prop :=
  t.mat = F.mat ∧ t.mf = F.mf ∧ (∀ S ∈ F.secs, ∃ s, t.section' S.nums.mt = .ok s ∧ SecIndexed S s) ∧
  t.sectionNumbers.Pairwise (· < ·) ∧ ∀ k, k ∈ t.sectionNumbers ↔ ∃ S ∈ F.secs, S.nums.mt = k

/-- `file( MF )` gives each file of the material, and there are no other files; the numbers are listed in ascending order. -/
def MatIndexed (M : MatL) (t : TMaterial) : Prop :=
  t.mat = M.mat ∧ (∀ F ∈ M.files, ∃ f, t.file F.mf = .ok f ∧ FileIndexed F f) ∧
  t.fileNumbers.Pairwise (· < ·) ∧ ∀ k, k ∈ t.fileNumbers ↔ ∃ F ∈ M.files, F.mf = k

/-- `material( MAT )` gives the materials with that MAT in the order of the tape; `numberMAT( MAT )` is their number. -/
def TapeIndexed (L : TapeL) (t : TTape) : Prop :=
  t.tpid = some ⟨L.label, L.ntape⟩ ∧
  ∀ k, t.numberMAT k = (L.mats.filter (fun M => M.mat == k)).length ∧
    (0 < t.numberMAT k → ∃ ms, t.material k = .ok ms ∧ All2 MatIndexed (L.mats.filter (fun M => M.mat == k)) ms) ∧
    (t.numberMAT k = 0 → t.material k = .error .outOfRange)

end ENDFtk

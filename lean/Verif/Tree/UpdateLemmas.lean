import Verif.Tree.UpdateDirectory
import Verif.Tree.MapLemmas
/-
  Lemmas about tree/updateDirectory.hpp.
-/
set_option linter.unusedVariables false
set_option linter.unusedSectionVars false
set_option linter.unusedSimpArgs false
namespace ENDFtk

theorem splitNL_line {l : Text} (h : '\n' ∉ l) (s : Text) : splitNL (l ++ '\n' :: s) = l :: splitNL s := by
  induction l with
  | nil => simp [splitNL]
  | cons c l ih =>
    simp only [List.mem_cons, not_or] at h
    rw [List.cons_append, splitNL, if_neg (fun e => h.1 e.symm), ih h.2]

/-- Splitting lines that are each ended by a newline gives the lines. -/
theorem splitNL_unlines {ls : List Text} (h : ∀ l ∈ ls, '\n' ∉ l) : splitNL (unlines ls) = ls := by
  induction ls with
  | nil => rfl
  | cons l ls ih =>
    simp only [List.mem_cons, forall_eq_or_imp] at h
    rw [unlines_cons, splitNL_line h.1, ih h.2]

theorem intercalate_unlines {ls : List Text} (h : ls ≠ []) : List.intercalate ['\n'] ls ++ ['\n'] = unlines ls := by
  induction ls with
  | nil => exact absurd rfl h
  | cons l ls ih =>
    cases ls with
    | nil => simp [List.intercalate]
    | cons k ls =>
      have := ih (by simp)
      simp only [List.intercalate, List.intersperse_cons_cons, List.flatten_cons] at this ⊢
      rw [unlines_cons, ← this]; simp

variable [Disco]

theorem description_split {b : Info451} (h : b.desc ≠ []) (hl : ∀ l ∈ b.desc, '\n' ∉ l) : splitNL b.description = b.desc := by
  rw [Info451.description, intercalate_unlines h, splitNL_unlines hl]

/-- Without descriptive lines a blank one appears. -/
theorem description_split_nil {b : Info451} (h : b.desc = []) : splitNL b.description = [[]] := by
  rw [Info451.description, h]; rfl

/-! ### the new index -/

/-- The MOD that the old index gives for this section: that of the first entry with its numbers, 0 if there is none. -/
def modOf (old : List Dir) (mf mt : Int) : Int := ((old.find? (fun e => e.mf == mf && e.mt == mt)).map Dir.mod).getD 0

/-- Within each file the MT numbers do not decrease. -/
def DirOrdered (old : List Dir) : Prop := old.Pairwise (fun a b => a.mf = b.mf → a.mt ≤ b.mt)

theorem directoryEntries_nums (c : Bool) (old : List Dir) (ss : List TSection) :
    (directoryEntries c old ss).map (fun d => (d.mf, d.mt, d.nc)) = ss.map (fun s => (s.mf, s.mt, s.nc)) := by
  induction ss generalizing old with
  | nil => rfl
  | cons s ss ih =>
    rw [directoryEntries]
    split
    · split <;> simp [ih]
    · simp [ih]

theorem newIndex_nums (c : Bool) (old : List Dir) (fs : List TFile) :
    (newIndex c old fs).map (fun d => (d.mf, d.mt, d.nc)) = (fs.flatMap TFile.sections').map (fun s => (s.mf, s.mt, s.nc)) := by
  induction fs with
  | nil => rfl
  | cons f fs ih =>
    simp only [newIndex, List.flatMap_cons, List.map_append] at ih ⊢
    rw [directoryEntries_nums, ih]

theorem newIndex_length (c : Bool) (old : List Dir) (fs : List TFile) : (newIndex c old fs).length = (fs.flatMap TFile.sections').length := by
  have := congrArg List.length (newIndex_nums c old fs)
  simpa using this

theorem directoryEntries_noMod (old : List Dir) (ss : List TSection) :
    directoryEntries false old ss = ss.map (fun s => ⟨s.mf, s.mt, s.nc, 0⟩) := by
  induction ss generalizing old with
  | nil => rfl
  | cons s ss ih => rw [directoryEntries]; simp [ih]

theorem dropWhile_eq_find {α : Type} (p : α → Bool) (l : List α) : (l.dropWhile (fun x => !p x)).head? = l.find? p := by
  induction l with
  | nil => rfl
  | cons x l ih => by_cases h : p x = true <;> simp [List.dropWhile_cons, h, ih]

theorem dropWhile_suffix' {α : Type} (p : α → Bool) (l : List α) : ∃ pre, l = pre ++ l.dropWhile p ∧ ∀ x ∈ pre, p x = true := by
  induction l with
  | nil => exact ⟨[], rfl, by simp⟩
  | cons x l ih =>
    by_cases h : p x = true
    · obtain ⟨pre, h1, h2⟩ := ih
      refine ⟨x :: pre, by simp [List.dropWhile_cons, h]; exact h1, by simpa [h] using h2⟩
    · exact ⟨[], by simp [List.dropWhile_cons, h], by simp⟩

theorem find?_skip {α : Type} {p : α → Bool} {pre l : List α} (h : ∀ x ∈ pre, p x = false) : (pre ++ l).find? p = l.find? p := by
  induction pre with
  | nil => rfl
  | cons x pre ih =>
    simp only [List.mem_cons, forall_eq_or_imp] at h
    simp [List.find?_cons, h.1, ih h.2]

/-- The search that continues where the last one succeeded finds the first entry in an ordered index. -/
theorem directoryEntries_mod {mf : Int} {ss : List TSection} (hs : ∀ s ∈ ss, s.mf = mf) (ho : ss.Pairwise (fun a b => a.mt < b.mt))
    (pre b : List Dir) (hord : DirOrdered (pre ++ b)) (hpre : ∀ s ∈ ss, ∀ e ∈ pre, ¬(e.mf = mf ∧ e.mt = s.mt)) :
    directoryEntries true b ss = ss.map (fun s => ⟨s.mf, s.mt, s.nc, modOf (pre ++ b) s.mf s.mt⟩) := by
  induction ss generalizing pre b with
  | nil => rfl
  | cons s ss ih =>
    have hsmf := hs s (by simp)
    rw [directoryEntries, if_pos rfl]
    have hfind : (pre ++ b).find? (fun e => e.mf == s.mf && e.mt == s.mt) = b.find? (fun e => e.mf == s.mf && e.mt == s.mt) := by
      apply find?_skip
      intro e he
      have := hpre s (by simp) e he
      simp only [hsmf, Bool.and_eq_false_iff, beq_eq_false_iff_ne]
      by_cases h1 : e.mf = mf
      · right; exact fun h2 => this ⟨h1, h2⟩
      · left; exact h1
    have hmod : modOf (pre ++ b) s.mf s.mt = (((b.dropWhile (fun e => !(e.mf == s.mf && e.mt == s.mt))).head?).map Dir.mod).getD 0 := by
      rw [modOf, hfind, dropWhile_eq_find]
    obtain ⟨q, hq1, hq2⟩ := dropWhile_suffix' (fun e : Dir => !(e.mf == s.mf && e.mt == s.mt)) b
    have hs' : ∀ x ∈ ss, x.mf = mf := fun x hx => hs x (by simp [hx])
    have ho' := List.pairwise_cons.mp ho
    rw [List.map_cons, hmod]
    split
    · rename_i he
      rw [he]
      rw [ih hs' ho'.2 pre b hord (fun x hx e he => hpre x (by simp [hx]) e he)]
      rfl
    · rename_i e r he
      rw [he]
      have hb : pre ++ b = (pre ++ q) ++ (e :: r) := by rw [List.append_assoc, ← he, ← hq1]
      have hem : e.mf = mf ∧ e.mt = s.mt := by
        have : ((b.dropWhile (fun e => !(e.mf == s.mf && e.mt == s.mt))).head?) = some e := by rw [he]; rfl
        rw [dropWhile_eq_find] at this
        have := List.find?_some this
        simp at this
        exact ⟨this.1.trans hsmf, this.2⟩
      rw [ih hs' ho'.2 (pre ++ q) (e :: r) (by rw [← hb]; exact hord), ← hb]
      · rfl
      · rintro x hx d hd ⟨d1, d2⟩
        rw [hb] at hord
        have hle : d.mt ≤ e.mt := (List.pairwise_append.mp hord).2.2 d hd e (by simp) (d1.trans hem.1.symm)
        have := ho'.1 x hx
        omega

end ENDFtk

import Verif.Props.BlameTape
import Verif.Python.Model
/-
  C49 for what is parsed from the tree.
-/
set_option linter.unusedVariables false
set_option linter.unusedSectionVars false
namespace ENDFtk.Props
variable [Disco] [CorrOps]

/-- The MF numbers of sections that can reach undefined behaviour: resonances (2, 32), energy-angle distributions (6, 26), thermal scattering (7), decay data (8),
    transition probabilities (12), atomic relaxation (28) and covariances (31, 33, 34, 35, 40). -/
def riskyFiles : List Int := [2, 6, 7, 8, 12, 26, 28, 31, 32, 33, 34, 35, 40]

theorem lineBlamed_risky {S : SecType} {head : Cont} {k : Nat} {r : Text} (h : LineBlamed S head k r) : S.nums.1 ∈ riskyFiles := by
  cases S with
  | cov => simp [SecType.nums, riskyFiles]
  | std T =>
    obtain ⟨c, -, hc⟩ := h
    cases T <;> first | exact (hc : False).elim | simp [SecType.nums, SectionType.nums, riskyFiles]

theorem fileBlamed_risky {mf : Int} {r : Text} (h : FileBlamed mf r) : mf ∈ riskyFiles := by
  obtain ⟨i, head, t, S, k, -, -, h3, -, h5⟩ := h
  rw [← h3]; exact lineBlamed_risky h5

/-! ### content() -/

omit [Disco] [CorrOps] in
theorem concat_ub : ∀ {xs : List (Except Err Text)}, (∀ x ∈ xs, x ≠ .error .ub) → TMaterial.concat xs ≠ .error .ub
  | [], _, h => by cases h
  | x :: xs, hx, h => by
    have h0 := concat_ub fun y hy => hx y (List.mem_cons_of_mem _ hy)
    have h1 := hx x List.mem_cons_self
    cases x with
    | error e => simp only [TMaterial.concat] at h; exact h1 (by rw [h])
    | ok c =>
      simp only [TMaterial.concat] at h
      cases hc : TMaterial.concat xs with
      | error e => rw [hc] at h h0; exact h0 h
      | ok d => rw [hc] at h; cases h

theorem fileContent_ub (f : TFile) : f.content ≠ .error .ub := by
  intro h
  unfold TFile.content at h
  dsimp only at h
  split at h
  · unfold FEND at h
    split at h
    · cases h
    · rename_i e he
      split at he
      · cases he; cases h
      · cases he
  · cases h

theorem materialContent_ub (m : TMaterial) : m.content ≠ .error .ub := by
  intro h
  unfold TMaterial.content at h
  split at h
  · rename_i e he
    cases h
    exact concat_ub (by intro x hx; obtain ⟨f, -, rfl⟩ := List.mem_map.mp hx; exact fileContent_ub f) he
  · split at h <;> cases h

theorem tapeContent_ub (t : TTape) : t.content ≠ .error .ub := by
  intro h
  unfold TTape.content at h
  dsimp only at h
  cases hc : TMaterial.concat (t.materials'.map TMaterial.content) with
  | error e =>
    rw [hc] at h
    dsimp only at h
    cases h
    exact concat_ub (by intro x hx; obtain ⟨f, -, rfl⟩ := List.mem_map.mp hx; exact materialContent_ub f) hc
  | ok c =>
    rw [hc] at h
    dsimp only at h
    have key : ∀ x : Text, (if x.length ≠ 0 then Except.ok (x ++ TEND.print) else Except.ok x : Except Err Text) ≠ .error .ub := by
      intro x h
      split at h <;> cases h
    exact key _ h

/-! ### parse() -/

/-- Parsing a section of the tree cannot reach undefined behaviour if its MF is not one of these. -/
theorem C49_tree_section {s : TSection} (h : s.mf ∉ riskyFiles) : s.parseAny ≠ .error .ub := by
  intro hu
  unfold TSection.parseAny at hu
  split at hu
  · rename_i T hT
    obtain ⟨n1, -⟩ := sectionType?_iff.mp hT
    have n1 : T.nums.1 = s.mf := by rw [T.nums_eq]; exact n1
    split at hu
    · cases hu
    · rename_i e he
      cases hu
      unfold TSection.parse at he
      split at he
      · cases he
      · rename_i e hp
        cases he
        refine h (n1 ▸ ?_)
        cases T with
        | std T =>
          obtain ⟨head, k, c, -, -, g3⟩ := C49_blame T hp
          cases T <;> first | exact (g3 : False).elim | simp [SecType.nums, SectionType.nums, riskyFiles]
        | cov => simp [SecType.nums, riskyFiles]
  · cases hu

/-- If parsing a file of the tree reaches undefined behaviour, its content has a line that is to blame; so the number of the file is one of these. -/
theorem C49_tree_file {mf : Int} {f : TFile} (h : f.parse mf = .error .ub) : (∃ c, f.content = .ok c ∧ FileBlamed mf c) ∧ mf ∈ riskyFiles := by
  have key : ∃ c, f.content = .ok c ∧ FileBlamed mf c := by
    unfold TFile.parse at h
    split at h
    · rename_i e he; cases h; exact (fileContent_ub f he).elim
    · rename_i c hc
      split at h
      · cases h
      · rename_i e he; cases h; exact ⟨c, hc, C49_file_blame (s := ⟨c, 1⟩) he⟩
  exact ⟨key, by obtain ⟨c, -, h2⟩ := key; exact fileBlamed_risky h2⟩

/-- The same for the function of the Python bindings. -/
theorem C49_python_file {f : TFile} (h : Py.parseFile f = .error .ub) : (∃ c, f.content = .ok c ∧ FileBlamed f.mf c) ∧ f.mf ∈ riskyFiles := by
  unfold Py.parseFile at h
  split at h
  · exact C49_tree_file h
  · cases h

theorem C49_tree_material {m : TMaterial} (h : m.parse = .error .ub) : ∃ c, m.content = .ok c ∧ MaterialBlamed c := by
  unfold TMaterial.parse at h
  split at h
  · rename_i e he; cases h; exact (materialContent_ub m he).elim
  · rename_i c hc
    split at h
    · cases h
    · rename_i e he; cases h; exact ⟨c, hc, C49_material_blame (s := ⟨c, 1⟩) he⟩

theorem C49_tree_tape {t : TTape} (h : t.parse = .error .ub) : ∃ c, t.content = .ok c ∧ MaterialBlamed c := by
  unfold TTape.parse at h
  split at h
  · rename_i e he; cases h; exact (tapeContent_ub t he).elim
  · rename_i c hc
    split at h
    · cases h
    · rename_i e he; cases h; exact ⟨c, hc, C49_tape_blame (s := ⟨c, 1⟩) he⟩

end ENDFtk.Props

import Verif.Props.Parsed
/-
  C66: the numbers MAT, MF, MT on the lines of printed files, materials and tapes.
-/
set_option linter.unusedVariables false
set_option linter.unusedSectionVars false
namespace ENDFtk.Props
variable [Disco] [CorrOps]

/-! ### specification -/

/-- The lines of a section: lines of 80 columns that all have the three numbers, as many as `NC()`, and SEND. -/
def SectionLines (mat mf : Int) (x : AnySection) (ls : List Text) : Prop :=
  ∃ body, ls = body ++ [endRecord ⟨mat, mf, 0⟩] ∧ body.length = x.NC ∧ ∀ l ∈ body, CanonicalLine ⟨mat, mf, x.mt⟩ l

/-- The lines of a file: those of its sections in the order of MT, and FEND. -/
def FileLines (mat : Int) (f : PFile) (ls : List Text) : Prop :=
  ∃ bs, ls = bs.flatten ++ [endRecord ⟨mat, 0, 0⟩] ∧ All2 (SectionLines mat f.mf) f.sections' bs ∧
    f.sections'.Pairwise (fun x y => x.mt < y.mt)

/-- The lines of a material: those of its files in the order of MF, and MEND. -/
def MaterialLines (m : PMaterial) (ls : List Text) : Prop :=
  ∃ bs, ls = bs.flatten ++ [endRecord ⟨0, 0, 0⟩] ∧ All2 (FileLines m.mat) m.files' bs ∧ m.files'.Pairwise (fun f g => f.mf < g.mf)

/-- The lines of a tape: the identification with zeros as MAT, MF, MT (the tape number is not printed), the lines of the materials, TEND. -/
def TapeLines (t : PTape) (ls : List Text) : Prop :=
  ∃ l bs, ls = l :: bs.flatten ++ [endRecord ⟨-1, 0, 0⟩] ∧ CanonicalLine ⟨0, 0, 0⟩ l ∧ cols 1 66 l = t.id.text ∧ All2 MaterialLines t.materials bs

/-! ### theorems -/

theorem section_lines {x : AnySection} (hv : x.1.defn.WellFormed x.2) {mat : Int} (h1 : 1 ≤ mat) (h2 : mat ≤ 9999) :
    ∃ ls, x.print mat x.mf = .ok (unlines ls) ∧ SectionLines mat x.mf x ls := by
  obtain ⟨ls, e1, e2, e3⟩ := SecType.sect_canon hv h1 (fits4 h1 h2)
  exact ⟨_, e1, ls, rfl, e2, e3⟩

theorem sorted_pairwise {α : Type} {m : SMap α} (h : m.Sorted) {k : α → Int} (hk : ∀ e ∈ m, e.1 = k e.2) : m.values.Pairwise (fun x y => k x < k y) := by
  unfold SMap.values
  rw [List.pairwise_map]
  refine List.Pairwise.imp_of_mem ?_ h
  intro a b ha hb hab
  rw [← hk a ha, ← hk b hb]
  exact hab

/-- Printing a valid file gives the lines of its sections, all with the numbers of the section, ordered by MT, each section closed by its SEND, and FEND; the
    reals need not survive 11 columns. -/
theorem C66_file_lines {f : PFile} (hv : f.Valid) {mat : Int} (h1 : 1 ≤ mat) (h2 : mat ≤ 9999) :
    ∃ ls, f.print mat = .ok (unlines ls) ∧ FileLines mat f ls := by
  obtain ⟨k1, k2, k3, k4⟩ := hv
  have hx : ∀ x ∈ f.sections', x.mf = f.mf ∧ x.Valid := by
    intro x hx
    obtain ⟨e, he, rfl⟩ := List.mem_map.mp hx
    exact (k4 e he).2
  obtain ⟨bs, hbs⟩ : ∃ bs, All2 (fun x b => x.print mat f.mf = .ok (unlines b) ∧ SectionLines mat f.mf x b) f.sections' bs := by
    refine exists_all2 fun x hxm => ?_
    obtain ⟨ls, a1, a2⟩ := section_lines (hx x hxm).2.1 h1 h2
    rw [(hx x hxm).1] at a1 a2
    exact ⟨ls, a1, a2⟩
  obtain ⟨b1, b2⟩ := all2_and hbs
  refine ⟨bs.flatten ++ [endRecord ⟨mat, 0, 0⟩], ?_, bs, rfl, b2, sorted_pairwise k3 fun e he => (k4 e he).1⟩
  unfold PFile.print
  rw [if_neg k2, all2_concat b1, FEND_ok h1]
  simp only
  rw [fend_print (fits4 h1 h2)]
  simp

/-- Printing a valid material gives the lines of its files with the MAT of the material, ordered by MF, and MEND. -/
theorem C66_material_lines {m : PMaterial} (hv : m.Valid) : ∃ ls, m.print = .ok (unlines ls) ∧ MaterialLines m ls := by
  obtain ⟨⟨k1, k2⟩, k3, k4, k5⟩ := hv
  obtain ⟨bs, hbs⟩ : ∃ bs, All2 (fun f b => f.print m.mat = .ok (unlines b) ∧ FileLines m.mat f b) m.files' bs := by
    refine exists_all2 fun f hf => ?_
    obtain ⟨e, he, rfl⟩ := List.mem_map.mp hf
    exact C66_file_lines (k5 e he).2.1 k1 k2
  obtain ⟨b1, b2⟩ := all2_and hbs
  refine ⟨bs.flatten ++ [endRecord ⟨0, 0, 0⟩], ?_, bs, rfl, b2, sorted_pairwise k4 fun e he => (k5 e he).1⟩
  unfold PMaterial.print
  rw [all2_concat b1]
  simp only
  rw [mend_print]
  simp

/-- Printing a valid tape gives the identification, the lines of its materials in their order, and TEND. -/
theorem C66_tape_lines {t : PTape} (hv : t.Valid) : ∃ ls, t.print = .ok (unlines ls) ∧ TapeLines t ls := by
  obtain ⟨k1, k2, k3, k4, k5⟩ := hv
  obtain ⟨bs, hbs⟩ : ∃ bs, All2 (fun m b => m.print = .ok (unlines b) ∧ MaterialLines m b) t.materials bs :=
    exists_all2 fun m hm => C66_material_lines (k5 m hm)
  obtain ⟨b1, b2⟩ := all2_and hbs
  have hz : Nums.Fit ⟨0, 0, 0⟩ := ⟨fits_zero 3, fits_zero 1, fits_zero 2⟩
  refine ⟨(t.id.text ++ tailCols ⟨0, 0, 0⟩) :: bs.flatten ++ [endRecord ⟨-1, 0, 0⟩], ?_, t.id.text ++ tailCols ⟨0, 0, 0⟩, bs, rfl, ?_, ?_, b2⟩
  · unfold PTape.print
    rw [all2_concat b1]
    simp only
    rw [tend_print, printTpid, writeChars_full k1, tailText_eq]
    simp
  · exact canonical_line hz k1 k2
  · rw [cols]
    simp [k1]

/-- A material that was read from any text is printed with its own MAT on all its lines. -/
theorem C66_read_material_lines {s s' : St} {m : PMaterial} (h : readMaterialFrom s = .ok (m, s')) (hne : m.files ≠ [])
    (hf : ∀ f ∈ m.files', f.sections ≠ [] ∧ ∀ x ∈ f.sections', x.Faithful) : ∃ ls, m.print = .ok (unlines ls) ∧ MaterialLines m ls :=
  C66_material_lines (readMaterial_valid h hne hf)

end ENDFtk.Props

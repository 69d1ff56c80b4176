import Verif.Section.MF32Sect
/-
  Specification for section 32/151: its compact correlation matrices, and when they can be printed without loss.
-/
set_option linter.unusedVariables false
set_option linter.unusedSectionVars false
set_option linter.unusedSimpArgs false
namespace ENDFtk
variable [Disco] [CorrOps]

/-- The compact correlation matrix of the parameters, if there is one (LCOMP = 2). -/
def matrixOf : CovParams → Option CorrMatrix
  | ⟨.compactSLBW, x⟩ => some x.2.2.2
  | ⟨.compactMLBW, x⟩ => some x.2.2.2
  | ⟨.compactRM, x⟩ => some x.2.2.2
  | ⟨.compactRML, x⟩ => some x.2.2.2
  | _ => none

/-- All compact correlation matrices of the section. -/
def matrices (x : Sect (List CovIsotope)) : List CorrMatrix :=
  x.data.flatMap (fun i => i.ranges.flatMap (fun r => (matrixOf r.parameters).toList))

/-- The matrix can be printed without loss: NDIGIT is 2, 4, 5 or 6, coordinates and values fit their columns, and in each row the columns increase. -/
def Faithful (m : CorrMatrix) : Prop := m.Printable ∧ CorrMatrix.Ordered m.elems

theorem params_valid {p : CovParams} (h : p.Inv) (hm : ∀ m, matrixOf p = some m → Faithful m) : p.Valid := by
  obtain ⟨k, x⟩ := p
  cases k
  case limitedSLBW => exact h
  case limitedMLBW => exact h
  case generalSLBW => exact h
  case generalMLBW => exact h
  case generalRM => exact h
  case generalRML => exact h
  case unresolved => exact h
  all_goals
    obtain ⟨hd, o, u, m⟩ := x
    obtain ⟨h1, h2, h3, h4, h5⟩ := h
    obtain ⟨f1, f2⟩ := hm m rfl
    refine ⟨⟨h1, by show fits 11 2; decide, h2, fits_ofBool _⟩, rfl, ?_, h4, h5, f1, f2⟩
    cases o with
    | none => simp [optC, ofBool]
    | some d => exact ⟨by simp [ofBool], h3 d rfl⟩

theorem ResCov.wellFormed_faithful {x : Sect (List CovIsotope)} (h' : ResCov.SectInv x) (hm : ∀ m ∈ matrices x, Faithful m) : mf32mt151.WellFormed x := by
  refine ⟨h'.1, h'.2.1, h'.2.2.1, h'.2.2.2.1, by rw [h'.2.2.2.1]; decide, h'.2.2.2.2.1, h'.2.2.2.2.2.1, fun i hi => ?_⟩
  obtain ⟨i1, i2⟩ := h'.2.2.2.2.2.2 i hi
  refine ⟨i1, fun r hr => ⟨(i2 r hr).1, params_valid (i2 r hr).2 fun m hmr => hm m ?_⟩⟩
  refine List.mem_flatMap.mpr ⟨i, hi, List.mem_flatMap.mpr ⟨r, hr, ?_⟩⟩
  rw [hmr]; simp

end ENDFtk

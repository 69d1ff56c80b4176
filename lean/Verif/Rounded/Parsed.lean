import Verif.Rounded.Cov
import Verif.Parsed.Round
import Verif.Parsed.ReadValid
/-
  Rounded files, materials and tapes.
-/
set_option linter.unusedVariables false
set_option linter.unusedSectionVars false
set_option linter.unusedSimpArgs false
namespace ENDFtk
variable [Disco] [CorrOps] [Rounding]

namespace SecType

def rounded : (T : SecType) → T.Data → T.Data
  | .std T => T.rounded
  | .cov => List.map CovIsotope.rnd

theorem rounds : (T : SecType) → T.defn.Rounds T.rounded T.WholeSmall
  | .std T => T.rounds
  | .cov => mf32mt151_rounds

end SecType

namespace AnySection

def rnd (x : AnySection) : AnySection := ⟨x.1, x.2.rnd x.1.rounded⟩

theorem valid_rnd {x : AnySection} (h : x.Valid) : x.rnd.Valid := x.1.rounds.validSect h
theorem rep_rnd {x : AnySection} (h : x.Small) : x.rnd.Rep := x.1.rounds.reps h.1 h.2
theorem print_rnd {x : AnySection} (h : x.Small) (mat mf : Int) : x.rnd.print mat mf = x.print mat mf := x.1.rounds.print h.1 mat mf
theorem roundsTo_rnd {x : AnySection} (h : x.Small) : x.RoundsTo x.rnd := ⟨rfl, rfl, rfl, x.1.rounds.realsSect h.1 h.2⟩

end AnySection

/-- Every element is mapped to its rounded version, in the same place and with the same key. -/
def mapValues {α : Type} (g : α → α) (m : SMap α) : SMap α := m.map (fun e => (e.1, g e.2))

theorem mapValues_values {α : Type} (g : α → α) (m : SMap α) : SMap.values (mapValues g m) = (SMap.values m).map g := by
  simp [SMap.values, mapValues]

theorem mapValues_sorted {α : Type} {g : α → α} {m : SMap α} (h : SMap.Sorted m) : SMap.Sorted (mapValues g m) := by
  unfold SMap.Sorted mapValues at *
  exact List.pairwise_map.mpr h

theorem all2_self_map {α β : Type} {R : α → β → Prop} {g : α → β} {l : List α} (h : ∀ x ∈ l, R x (g x)) : All2 R l (l.map g) := by
  induction l with
  | nil => exact .nil
  | cons a l ih => exact .cons (h a (by simp)) (ih (fun x hx => h x (by simp [hx])))

theorem concat_congr {α : Type} {l : List α} {f g : α → Except Err Text} {m : α → α} (h : ∀ x ∈ l, f (m x) = g x) :
    TMaterial.concat ((l.map m).map f) = TMaterial.concat (l.map g) := by
  rw [List.map_map]
  congr 1
  exact List.map_congr_left h

namespace PFile

def rnd (f : PFile) : PFile := ⟨f.mf, mapValues AnySection.rnd f.sections⟩

theorem sections_rnd (f : PFile) : f.rnd.sections' = f.sections'.map AnySection.rnd := mapValues_values _ _

theorem valid_rnd {f : PFile} (h : f.Valid) : f.rnd.Valid := by
  obtain ⟨h1, h2, h3, h4⟩ := h
  refine ⟨h1, h2, mapValues_sorted h3, ?_⟩
  intro e he
  obtain ⟨e0, h0, rfl⟩ := List.mem_map.mp he
  exact ⟨(h4 e0 h0).1, (h4 e0 h0).2.1, AnySection.valid_rnd (h4 e0 h0).2.2⟩

theorem rep_rnd {f : PFile} (h : f.Small) : f.rnd.Rep := by
  intro x hx
  rw [sections_rnd] at hx
  obtain ⟨y, hy, rfl⟩ := List.mem_map.mp hx
  exact AnySection.rep_rnd (h y hy)

theorem print_rnd {f : PFile} (h : f.Small) (mat : Int) : f.rnd.print mat = f.print mat := by
  unfold PFile.print
  rw [sections_rnd, concat_congr (g := fun x => x.print mat f.mf) (fun x hx => AnySection.print_rnd (h x hx) mat f.rnd.mf)]
  rfl

theorem roundsTo_rnd {f : PFile} (h : f.Small) : f.RoundsTo f.rnd := by
  refine ⟨rfl, ?_⟩
  rw [sections_rnd]
  exact all2_self_map fun x hx => AnySection.roundsTo_rnd (h x hx)

theorem ne_nil_rnd {f : PFile} (h : f.sections ≠ []) : f.rnd.sections ≠ [] := by
  simpa [rnd, mapValues] using h

end PFile

namespace PMaterial

def rnd (m : PMaterial) : PMaterial := ⟨m.mat, mapValues PFile.rnd m.files⟩

theorem files_rnd (m : PMaterial) : m.rnd.files' = m.files'.map PFile.rnd := mapValues_values _ _

theorem valid_rnd {m : PMaterial} (h : m.Valid) : m.rnd.Valid := by
  obtain ⟨h1, h2, h3, h4⟩ := h
  refine ⟨h1, by simpa [rnd, mapValues] using h2, mapValues_sorted h3, ?_⟩
  intro e he
  obtain ⟨e0, h0, rfl⟩ := List.mem_map.mp he
  exact ⟨(h4 e0 h0).1, PFile.valid_rnd (h4 e0 h0).2.1, PFile.ne_nil_rnd (h4 e0 h0).2.2⟩

theorem rep_rnd {m : PMaterial} (h : m.Small) : m.rnd.Rep := by
  intro x hx
  rw [files_rnd] at hx
  obtain ⟨y, hy, rfl⟩ := List.mem_map.mp hx
  exact PFile.rep_rnd (h y hy)

theorem print_rnd {m : PMaterial} (h : m.Small) : m.rnd.print = m.print := by
  unfold PMaterial.print
  rw [files_rnd, concat_congr (g := fun x => x.print m.mat) (fun x hx => PFile.print_rnd (h x hx) m.rnd.mat)]

theorem roundsTo_rnd {m : PMaterial} (h : m.Small) : m.RoundsTo m.rnd := by
  refine ⟨rfl, ?_⟩
  rw [files_rnd]
  exact all2_self_map fun x hx => PFile.roundsTo_rnd (h x hx)

end PMaterial

namespace PTape

def rnd (t : PTape) : PTape := ⟨⟨t.id.text, 0⟩, t.materials.map PMaterial.rnd⟩

theorem valid_rnd {t : PTape} (h : t.Valid) : t.rnd.Valid := by
  obtain ⟨h1, h2, h3, h4, h5⟩ := h
  exact ⟨h1, h2, by simpa [rnd] using h3, by simpa [rnd] using h4, forall_map PMaterial.valid_rnd h5⟩

theorem rep_rnd {t : PTape} (h : t.Small) : t.rnd.Rep := by
  intro x hx
  obtain ⟨y, hy, rfl⟩ := List.mem_map.mp hx
  exact PMaterial.rep_rnd (h y hy)

theorem print_rnd {t : PTape} (h : t.Small) : t.rnd.print = t.print := by
  unfold PTape.print
  rw [show t.rnd.materials = t.materials.map PMaterial.rnd from rfl, concat_congr (g := PMaterial.print) (fun x hx => PMaterial.print_rnd (h x hx))]
  rfl

theorem roundsTo_rnd {t : PTape} (h : t.Small) : t.RoundsTo t.rnd :=
  ⟨rfl, all2_self_map fun x hx => PMaterial.roundsTo_rnd (h x hx)⟩

end PTape
end ENDFtk

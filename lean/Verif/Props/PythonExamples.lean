import Verif.Props.Python
import Verif.Props.TreeParsedExamples
/-
  C64, C65: concrete files, materials and tapes.
-/
set_option linter.unusedVariables false
set_option maxRecDepth 100000
namespace ENDFtk.Props
attribute [local instance] concDisco concCorr

/-- A file with three sections, its tree and its text. -/
example : ∃ f : PFile, f.sections.keys = [1, 2, 102] ∧ (∃ t, Py.fileToTree f 125 = .ok t ∧ Py.parseFile t = .ok f) ∧
    ∃ out, Py.fileToString f 125 = .ok out ∧ Py.fileFromString 3 (out ++ out) = .ok f := by
  obtain ⟨f, hv, hr, hm, hk⟩ := ex_file
  obtain ⟨out, e1, e2⟩ := C64_file_strings hv hr (mat := 125) (by decide) (by decide)
  exact ⟨f, hk, C64_file_tree hv hr (keys_ne hk) (by decide) (by decide), out, e1, hm ▸ e2 out⟩

/-- Its sections. -/
example : ∃ x : AnySection, x.mf = 3 ∧ x.mt = 2 ∧ (∃ s, Py.sectionToTree x 125 = .ok s ∧ Py.parseSection s = .ok x) ∧
    ∃ out, Py.sectionToString x 125 x.mf = .ok out ∧ Py.sectionFromString x.1 (out ++ out) = .ok x := by
  obtain ⟨f, hv, hr, hm, hk⟩ := ex_file
  have hx : ∃ e ∈ f.sections, e.1 = 2 := by
    have : (2 : Int) ∈ f.sections.keys := by rw [hk]; decide
    obtain ⟨e, he, h⟩ := List.mem_map.mp this
    exact ⟨e, he, h⟩
  obtain ⟨e, he, h2⟩ := hx
  obtain ⟨q1, q2, q3⟩ := hv.2.2.2 e he
  have hr' : e.2.Rep := hr _ (List.mem_map.mpr ⟨e, he, rfl⟩)
  obtain ⟨out, e1, e2⟩ := C64_section_strings q3 hr' (mat := 125) (by decide) (by decide)
  exact ⟨e.2, q2.trans hm, q1.symm.trans h2, C64_section_tree q3 hr' (by decide) (by decide), out, e1, e2 out⟩

/-- A material with three files. -/
example : ∃ m : PMaterial, m.files.keys = [1, 2, 3] ∧ ∃ out, Py.materialToString m = .ok out ∧ Py.materialFromString out = .ok m := by
  obtain ⟨m, hv, hr, -, hk⟩ := ex_material
  obtain ⟨out, e1, e2⟩ := C64_material_strings hv hr
  exact ⟨m, hk, out, e1, by simpa using e2 []⟩

/-- There is no type for MF 2 MT 153, for MF 1 MT 453, for MF 30. -/
example (c : Text) : Py.parseSection ⟨125, 2, 153, c⟩ = .error .exc ∧ Py.parseSection ⟨125, 1, 453, c⟩ = .error .exc ∧ Py.parseSection ⟨125, 30, 1, c⟩ = .error .exc :=
  ⟨rfl, rfl, rfl⟩

/-- A tape that is written, written again under the same name but interrupted, and a second file. -/
example : ∃ t : TTape, GoodTape t ∧ t.size = 1 ∧ ∃ c, t.content = .ok c ∧
    (let d := writes (fun _ => none) [(t, "a", .opened c.length), (t, "b", .opened c.length), (t, "a", .opened (c.length - 2)), (t, "b", .notOpened)]
     fromFile d "a" = .error .exc ∧ fromFile d "b" = .ok (prune t) ∧ fromFile d "c" = .error .exc) := by
  obtain ⟨t, hg, -, hs, -⟩ := ex_tape
  obtain ⟨c, hc, h⟩ := C65_write_read t hg (fun _ => none) "b"
  obtain ⟨-, h1, h2⟩ := h c.length (Nat.le_refl _)
  have h80 : 2 ≤ c.length := by
    unfold TTape.content at hc
    obtain ⟨id, hid, h66, -⟩ := hg.1
    rw [hid] at hc
    simp only at hc
    split at hc
    · cases hc
    · split at hc
      · cases hc
        have : 81 ≤ (TEND.print).length := by decide +kernel
        simp only [List.length_append]; omega
      · cases hc
        rename_i hn
        exfalso
        apply hn
        unfold printTpid
        simp [writeChars_full h66, h66]
  refine ⟨t, hg, hs, c, hc, ?_, ?_, ?_⟩
  · rcases C65_history [(t, "a", .opened c.length), (t, "b", .opened c.length), (t, "a", .opened (c.length - 2)), (t, "b", .notOpened)] (by simp [hg]) (fun _ => none) "a" with
      ⟨h, -⟩ | ⟨a, o, b, h, -, hb, k, c', ho, hc', -, hf⟩
    · exact absurd ⟨rfl, _, rfl⟩ (h (t, "a", .opened c.length) (by simp))
    · obtain ⟨c'', e1, e2, -⟩ := C65_interrupted t hg (writes (fun _ => none) [(t, "a", .opened c.length), (t, "b", .opened c.length)]) "a" (c.length - 2)
      rw [hc] at e1; cases e1
      have := e2 (by omega)
      simp only [writes, toDisk, hc] at this ⊢
      exact this
  · have : (writes (fun _ => none) [(t, "a", .opened c.length), (t, "b", .opened c.length), (t, "a", .opened (c.length - 2)), (t, "b", .notOpened)]) "b" = some c := by
      simp [writes, toDisk, hc, Disk.put]
    unfold fromFile at h2 ⊢
    rw [this]
    rw [h1] at h2
    exact h2
  · unfold fromFile
    have : (writes (fun _ => none) [(t, "a", .opened c.length), (t, "b", .opened c.length), (t, "a", .opened (c.length - 2)), (t, "b", .notOpened)]) "c" = none := by
      simp [writes, toDisk, hc, Disk.put]
    rw [this]

/-- A tape with material number -1, which is read, but of which `content()` throws. -/
def matMinusOne : Text := txt
  "                                                                     0 0  0     \n"
  " 1.001000+3 9.991673-1          0          0          0          0  -1 3  1     \n"
  "                                                                    -1 3  0     \n"
  "                                                                     0 0  0     \n"
  "                                                                    -1 0  0     \n"

/-- It can be read from a file; writing it to that file fails, and empties it. -/
theorem C65_file_emptied : (match fromFile (fun _ => some matMinusOne) "a" with
    | .ok t => match toDisk t "a" (.opened 1000) (fun _ => some matMinusOne) with
      | (.error _, d) => d "a" == some []
      | (.ok _, _) => false
    | .error _ => false) = true := by decide +kernel

end ENDFtk.Props

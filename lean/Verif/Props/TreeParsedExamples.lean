import Verif.Props.TreeParsed
import Verif.Props.ParsedExamples
/-
  Concrete objects (those of ParsedExamples) meet the hypotheses of the theorems of C45.
-/
set_option linter.unusedVariables false
set_option maxRecDepth 100000
namespace ENDFtk.Props
attribute [local instance] concDisco concCorr

theorem file_of {mf mat : Int} {mts : List Int} {s : Text} (h : FileRoundTrips mf mat mts s) (hk : KnownMF mf) (h30 : mf ≠ 30) :
    ∃ f : PFile, f.Valid ∧ f.Rep ∧ f.mf = mf ∧ f.sections.keys = mts := by
  unfold FileRoundTrips at h
  split at h
  · rename_i f st hf
    obtain ⟨_, h2, h3, h4, _⟩ := h
    obtain ⟨hv, hm⟩ := readFile_valid hk h30 hf h3
    exact ⟨f, hv, h4, hm, h2⟩
  · exact h.elim

theorem material_of {mat : Int} {mfs : List Int} {r : List (Int × List Int)} {s : Text} (h : TapeRoundTrips ((mat, mfs) :: r) s) :
    ∃ m : PMaterial, m.Valid ∧ m.Rep ∧ m.mat = mat ∧ m.files.keys = mfs := by
  unfold TapeRoundTrips at h
  split at h
  · rename_i t st ht
    obtain ⟨_, h2, h3, h4, h5, _⟩ := h
    have hv := readTape_valid ht h3 h4
    cases hms : t.materials with
    | nil => rw [hms] at h2; simp at h2
    | cons m ms =>
      rw [hms] at h2
      simp only [List.map_cons, List.cons.injEq, Prod.mk.injEq] at h2
      exact ⟨m, hv.2.2.2.2 m (by rw [hms]; simp), h5 m (by rw [hms]; simp), h2.1.1, h2.1.2⟩
  · exact h.elim

/-- A file 3 with three sections. -/
theorem ex_file : ∃ f : PFile, f.Valid ∧ f.Rep ∧ f.mf = 3 ∧ f.sections.keys = [1, 2, 102] := file_of file3_chunk (by unfold KnownMF; decide) (by decide)

/-- A material with the files 1, 2 and 3. -/
theorem ex_material : ∃ m : PMaterial, m.Valid ∧ m.Rep ∧ m.mat = 131 ∧ m.files.keys = [1, 2, 3] := material_of tape_chunk

theorem keys_ne {α : Type} {m : SMap α} {k : Int} {ks : List Int} (h : m.keys = k :: ks) : m ≠ [] := by
  intro hn; rw [hn] at h; simp [SMap.keys] at h

/-- One of its sections is inserted in an empty tree file and in an empty tree material, and parsed back. -/
example : ∃ x : AnySection, x.mf = 3 ∧ x.mt = 2 ∧ ((TFile.empty 125 3).insertParsed x).1 = .ok () ∧ ((TFile.empty 125 4).insertParsed x).1 = .error .exc ∧
    ((TMaterial.empty 125).insertParsed x).1 = .ok () ∧
    ∃ s, ((TMaterial.empty 125).insertParsed x).2.section' 3 2 = .ok s ∧ s.parseAny = .ok x ∧ (x.NC < 4294967296 → s.nc = x.NC) := by
  obtain ⟨f, hv, hr, hm, hk⟩ := ex_file
  have h2 : f.sections.has 2 = true := by rw [SMap.has_iff_keys, hk]; decide
  rw [SMap.has_eq_isSome] at h2
  obtain ⟨x, hx⟩ := Option.isSome_iff_exists.mp h2
  have hmem := SMap.mem_of_get? hx
  obtain ⟨a1, a2, a3⟩ := hv.2.2.2 _ hmem
  have a4 : x.Rep := hr x (List.mem_map.mpr ⟨_, hmem, rfl⟩)
  simp only at a1 a2 a3
  have e1 := (C45_file_insert (f := TFile.empty 125 3) (by decide) a3 a4 (by decide) (by decide)).1 ⟨by rw [a2, hm]; rfl, rfl⟩
  have e2 := (C45_file_insert (f := TFile.empty 125 4) (by decide) a3 a4 (by decide) (by decide)).2 (by rw [a2, hm]; simp [TFile.empty])
  have e3 := (C45_material_insert (m := TMaterial.empty 125) (C11_empty 125) a3 a4 (by decide) (by decide)).1 rfl
  refine ⟨x, by rw [a2, hm], a1.symm, e1.1, by rw [e2], e3.1, ?_⟩
  obtain ⟨s, q1, q2, q3⟩ := e3.2.1
  obtain ⟨s', p1, _, _, _, _, p2⟩ := C45_to_section (x := x) a3.1 (mat := 125) (by decide) (by decide)
  have : toSectionAny x 125 = .ok s := q3
  rw [this] at p1; cases p1
  rw [a2, hm, ← a1] at q1
  exact ⟨s, q1, q2, p2⟩

/-- The file is made a tree file, which is parsed back. -/
example : ∃ f t, toFile f 125 = .ok t ∧ t.sectionNumbers = [1, 2, 102] ∧ t.parse 3 = .ok f := by
  obtain ⟨f, hv, hr, hm, hk⟩ := ex_file
  obtain ⟨t, a1, a2, a3, a4, a5, a6, a7, a8⟩ := C45_to_file hv hr (keys_ne hk) (mat := 125) (by decide) (by decide)
  refine ⟨f, t, a1, ?_, by rw [← hm]; exact a8⟩
  rw [a6, ← hk]
  show List.map _ (List.map _ f.sections) = List.map _ f.sections
  rw [List.map_map]
  exact List.map_congr_left (fun e he => ((hv.2.2.2 e he).1).symm)

/-- The files of `toMaterial` are not empty and have parsers. -/
theorem toMaterial_full {m : PMaterial} (hv : m.Valid) (hr : m.Rep) {t : TMaterial} (h : toMaterial m = .ok t) : FullMaterial t := by
  obtain ⟨M, b1, b2, b3, b4, b5, b6, b7, b8⟩ := material_layout hv hr
  have := toMaterial_layout b1 b2 b6
  rw [h] at this; cases this
  obtain ⟨g1, g2, g3⟩ := MatL.good b1 (by rw [b4]; exact hv.1.1) b5
  refine ⟨g2, fun e he => ⟨g3 e he, ?_⟩⟩
  obtain ⟨c1, c2⟩ := SMap.build (α := TFile) FileL.mf FileL.tree b1.2.1
  obtain ⟨F, hF, hk, ht⟩ := (c2 e.1 e.2).mp (SMap.get?_of_mem c1 he)
  rw [← ht]; exact (fileRead_iff (b1.1 F hF).1).mp (b3 F hF)

/-- A tree tape with one material, made from the parsed one: it meets the hypotheses of `C45_tape_parse`, and it is parsed. -/
theorem ex_tape : ∃ t : TTape, GoodTape t ∧ (∀ k m, (k, m) ∈ t.materials → FullMaterial m) ∧ t.size = 1 ∧ ∃ p, t.parse = .ok p ∧ p.materials.map (fun m => m.files.keys) = [[1, 2, 3]] := by
  obtain ⟨m, hv, hr, hm, hk⟩ := ex_material
  obtain ⟨x, a1, a2, a3, a4, a5, a6, a7⟩ := C45_to_material hv hr
  have hg0 : GoodTape (TTape.empty ⟨blanks 66, 0⟩) := ⟨⟨_, rfl, by decide, by decide⟩, by simp [TapeOrdered, TTape.empty], by simp [TTape.empty]⟩
  have hg := ((C09_tape_ops _ hg0).1 x a3).1
  have hmats : ((TTape.empty ⟨blanks 66, 0⟩).insert x).materials = [(x.mat, x)] := rfl
  have hf : ∀ k m', (k, m') ∈ ((TTape.empty ⟨blanks 66, 0⟩).insert x).materials → FullMaterial m' := by
    intro k m' h
    rw [hmats] at h
    simp only [List.mem_singleton, Prod.mk.injEq] at h
    rw [h.2]; exact toMaterial_full hv hr a1
  obtain ⟨t1, t2⟩ := C45_tape_parse hg hf (by rw [hmats]; simp) (by show List.length _ < _; rw [hmats]; simp)
  obtain ⟨p, hp⟩ := t2.mpr (by
    intro y hy
    have : y = x := by simpa [TTape.materials', hmats, SMap.values] using hy
    rw [this]; exact ⟨m, a7⟩)
  refine ⟨_, hg, hf, rfl, p, hp, ?_⟩
  have h2 := (t1 p hp).2
  have hmv : ((TTape.empty ⟨blanks 66, 0⟩).insert x).materials' = [x] := rfl
  rw [hmv] at h2
  generalize p.materials = ps at h2
  cases h2 with
  | cons h h' =>
    cases h'
    rw [a7] at h; cases h
    simp [hk]

/-- The text of that tape meets the hypotheses of `C45_direct_tape`. -/
example : ∃ L : TapeL, L.Valid ∧ L.mats.length = 1 ∧
    ∀ M ∈ L.mats, M.Plain ∧ M.Read ∧ 1 ≤ M.mat ∧ ∀ F ∈ M.files, ∀ S ∈ F.secs, S.nums.mat = M.mat := by
  obtain ⟨m, hv, hr, hm, hk⟩ := ex_material
  obtain ⟨M, b1, b2, b3, b4, b5, b6, b7, b8⟩ := material_layout hv hr
  have hcl := canonical_line (t := ⟨0, 0, 0⟩) (b := blanks 66) ⟨fits_zero 3, fits_zero 1, fits_zero 2⟩ (by decide) (by decide)
  have f4 : (⟨-1, 0, 0⟩ : Nums).Fit := ⟨by decide, fits_zero 1, fits_zero 2⟩
  have z : ZeroCols (zeroCont : Cont) := ⟨Disco.eqD_zero, Disco.eqD_zero, rfl, rfl, rfl, rfl⟩
  refine ⟨⟨blanks 66 ++ tailCols ⟨0, 0, 0⟩, 0, [M], ⟨endRecord ⟨-1, 0, 0⟩, ⟨zeroCont, ⟨-1, 0, 0⟩⟩⟩⟩, ⟨⟨hcl.2.1, hcl.2.2.1, 0, ?_⟩, ?_, trivial,
    endRecord_line f4 (by simp) (by simp) (by simp), z, rfl⟩, rfl, ?_⟩
  · show parseInt (cols 76 80 (blanks 66 ++ tailCols ⟨0, 0, 0⟩)) = some 0
    rw [hcl.2.2.2]; exact Disco.parseInt_blank 5
  · intro N hN; rw [List.mem_singleton.mp hN]; exact b1
  · intro N hN; rw [List.mem_singleton.mp hN]; exact ⟨b2, b3, by rw [b4]; exact hv.1.1, b5⟩

end ENDFtk.Props

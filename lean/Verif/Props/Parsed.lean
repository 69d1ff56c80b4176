import Verif.Props.Sections
import Verif.Parsed.ReadValid
/-
  C46, C47, C50 and the parts of C38 and C49 that concern parsed files, materials and tapes.
  `readFileFrom mf` is reading a HEAD record and constructing `file::Type< MF >` from it; `readMaterialFrom` the same for `Material`;
  `PTape.read` is the constructor of `Tape`.  `f.print mat`, `m.print`, `t.print` are the `print` functions.
  The specification of valid objects and of the texts is in Verif/Parsed/Spec.lean.
-/
set_option linter.unusedVariables false
set_option linter.unusedSectionVars false
set_option linter.unusedSimpArgs false
namespace ENDFtk.Props
variable [Disco] [CorrOps]

/-! ### C46: files, materials and tapes round trip -/

/-- A valid file (also one without sections) whose reals survive 11 columns is printed, with any material number, as a text that is read as the same
    file, wherever it stands; exactly the printed text is consumed. -/
theorem C46_file_round_trip {f : PFile} (hv : f.Valid) (hr : f.Rep) {mat : Int} (h1 : 1 ≤ mat) (h2 : mat ≤ 9999) :
    ∃ txt, f.print mat = .ok txt ∧ ∀ r n, ∃ k, readFileFrom f.mf ⟨txt ++ r, n⟩ = .ok (f, ⟨r, k⟩) := by
  obtain ⟨ls, a1, a2, _⟩ := file_round hv hr h1 h2
  exact ⟨_, a1, fun r n => (a2.run r n).imp' _ fun _ h => h⟩

/-- The same for a material of which no file is empty. -/
theorem C46_material_round_trip_partial {m : PMaterial} (hv : m.Valid) (hr : m.Rep) :
    ∃ txt, m.print = .ok txt ∧ ∀ r n, ∃ k, readMaterialFrom ⟨txt ++ r, n⟩ = .ok (m, ⟨r, k⟩) := by
  obtain ⟨ls, a1, a2, _⟩ := material_round hv hr
  exact ⟨_, a1, fun r n => (a2.run r n).imp' _ fun _ h => h⟩

/-- The same for a tape, except that the tape number is not printed: it is read back as 0. -/
theorem C46_tape_round_trip_partial {t : PTape} (hv : t.Valid) (hr : t.Rep) :
    ∃ txt, t.print = .ok txt ∧ ∀ r n, ∃ k, PTape.read ⟨txt ++ r, n⟩ = .ok (⟨⟨t.id.text, 0⟩, t.materials⟩, ⟨r, k⟩) := by
  obtain ⟨ls, a1, a2⟩ := tape_round hv hr
  exact ⟨_, a1, fun r n => (a2.run r n).imp' _ fun _ h => h⟩

/-- Hence any file that was read round trips (2/151 with the hypothesis of `C41_mf2mt151_partial`, 32/151 with that of
    `C53_parsed_round_trip_partial`). -/
theorem C46_read_file_round_trip {mf : Int} (hk : KnownMF mf) (h30 : mf ≠ 30) {s s' : St} {f : PFile} (h : readFileFrom mf s = .ok (f, s'))
    (hl : ∀ x ∈ f.sections', x.Faithful) (hr : f.Rep) {mat : Int} (h1 : 1 ≤ mat) (h2 : mat ≤ 9999) :
    ∃ txt, f.print mat = .ok txt ∧ ∀ r n, ∃ k, readFileFrom mf ⟨txt ++ r, n⟩ = .ok (f, ⟨r, k⟩) := by
  obtain ⟨hv, rfl⟩ := readFile_valid hk h30 h hl
  exact C46_file_round_trip hv hr h1 h2

/-- Any material that was read, and that has files none of which is empty, round trips. -/
theorem C46_read_material_round_trip_partial {s s' : St} {m : PMaterial} (h : readMaterialFrom s = .ok (m, s')) (hne : m.files ≠ [])
    (hf : ∀ f ∈ m.files', f.sections ≠ [] ∧ ∀ x ∈ f.sections', x.Faithful) (hr : m.Rep) :
    ∃ txt, m.print = .ok txt ∧ ∀ r n, ∃ k, readMaterialFrom ⟨txt ++ r, n⟩ = .ok (m, ⟨r, k⟩) :=
  C46_material_round_trip_partial (readMaterial_valid h hne hf) hr

/-- Any tape that was read round trips up to its number, if its materials do. -/
theorem C46_read_tape_round_trip_partial {s s' : St} {t : PTape} (h : PTape.read s = .ok (t, s')) (hsz : t.materials.length < 2147483648)
    (hne : ∀ m ∈ t.materials, m.files ≠ [] ∧ ∀ f ∈ m.files', f.sections ≠ [] ∧ ∀ x ∈ f.sections', x.Faithful) (hr : t.Rep) :
    ∃ txt, t.print = .ok txt ∧ ∀ r n, ∃ k, PTape.read ⟨txt ++ r, n⟩ = .ok (⟨⟨t.id.text, 0⟩, t.materials⟩, ⟨r, k⟩) :=
  C46_tape_round_trip_partial (readTape_valid h hsz hne) hr

/-- What is missing: a material with an empty file (as the code makes of file 8 unless it begins with MT 454, 457 or 459, or as the user makes it from an
    empty vector) is printed as a text that cannot be read: the empty file is printed as FEND only. -/
theorem C46_empty_file {m : PMaterial} (h1 : 1 ≤ m.mat) (h2 : m.mat ≤ 9999) {before after : List PFile} {f : PFile}
    (hm : m.files' = before ++ f :: after) (hb : ∀ g ∈ before, g.Valid ∧ g.Rep ∧ g.sections ≠ []) (hf : f.sections = []) (h30 : f.mf ≠ 30)
    {txt : Text} (hp : m.print = .ok txt) (r : Text) (n : Int) : readMaterialFrom ⟨txt ++ r, n⟩ = .error .exc := by
  -- the text of the files before
  obtain ⟨bs, hbs⟩ : ∃ bs, All2 (fun g b => g.print m.mat = .ok (unlines b) ∧ FileBlock g b) before bs := by
    refine exists_all2 fun g hg => ?_
    obtain ⟨ls, a1, a2, a3⟩ := file_round (hb g hg).1 (hb g hg).2.1 h1 h2
    obtain ⟨mt, a4⟩ := a3 (hb g hg).2.2
    exact ⟨ls, a1, ⟨⟨_, a4, rfl, (hb g hg).1.1⟩, a2⟩⟩
  obtain ⟨b1, b2⟩ := all2_and hbs
  have hfp : f.print m.mat = .ok (unlines [endRecord ⟨m.mat, 0, 0⟩]) := by
    unfold PFile.print
    rw [if_neg h30, PFile.sections', hf]
    simp only [SMap.values, List.map_nil, TMaterial.concat, FEND_ok h1]
    rw [fend_print (fits4 h1 h2)]
    rfl
  obtain ⟨q, hq⟩ : ∃ q, txt = unlines bs.flatten ++ (endRecord ⟨m.mat, 0, 0⟩ ++ '\n' :: q) := by
    unfold PMaterial.print at hp
    rw [hm, List.map_append, List.map_cons, hfp] at hp
    have hc : ∀ (a b : List (Except Err Text)) (x : Text), TMaterial.concat a = .ok x → TMaterial.concat (a ++ b) = (TMaterial.concat b).map (x ++ ·) := by
      intro a b
      induction a with
      | nil => intro x hx; simp [TMaterial.concat] at hx; subst hx; cases h : TMaterial.concat b <;> simp [Except.map, h]
      | cons y a ih =>
        intro x hx
        cases y with
        | error e => simp [TMaterial.concat] at hx
        | ok y =>
          simp only [TMaterial.concat] at hx
          cases hca : TMaterial.concat a with
          | error e => simp [hca] at hx
          | ok z =>
            simp only [hca, Except.ok.injEq] at hx
            subst hx
            simp only [List.cons_append, TMaterial.concat, ih z hca]
            cases TMaterial.concat b <;> simp [Except.map]
    rw [hc _ _ _ (all2_concat b1)] at hp
    simp only [TMaterial.concat] at hp
    cases hca : TMaterial.concat (after.map fun f => f.print m.mat) with
    | error e => simp [hca, Except.map] at hp
    | ok z =>
      simp only [hca, Except.map, Except.ok.injEq] at hp
      exact ⟨z ++ MEND.print, by rw [← hp]; simp⟩
  subst hq
  have hfend := DLine.isFend_iff.mp (fendLine h1 h2)
  -- the loop
  have loop : ∀ (bs : List (List Text)) (gs : List PFile), All2 FileBlock gs bs → ∀ (fuel : Nat) (d : Division) (l : Text) (s : Text) (n : Int), gs.length < fuel →
      DivLine d l → unlines bs.flatten ++ (endRecord ⟨m.mat, 0, 0⟩ ++ '\n' :: (q ++ r)) = l ++ '\n' :: s →
      itemLoop Division.isMend fileItem fuel d ⟨s, n⟩ = .error .exc := by
    intro bs gs h
    induction h with
    | nil =>
      intro fuel d l s n hfu hd he
      obtain ⟨fuel, rfl⟩ : ∃ k, fuel = k + 1 := ⟨fuel - 1, by simp at hfu; omega⟩
      simp only [List.flatten_nil, unlines_nil, List.nil_append] at he
      have e1 := (At.nl (l := endRecord ⟨m.mat, 0, 0⟩) (r := q ++ r) hfend.1.1.1)
      rw [he] at e1
      obtain ⟨e2, _⟩ := e1.unique (At.nl hd.1.1)
      have e3 := hd.unique (e2 ▸ hfend.1)
      subst e3
      rw [itemLoop, if_neg]
      · have : fileItem ⟨zeroCont, ⟨m.mat, 0, 0⟩⟩ ⟨s, n⟩ = .error .exc := by
          unfold fileItem
          rw [if_neg (by simp [implementedMF])]; rfl
        exact Parser.bind_err this
      · simp [Division.isMend]; omega
    | cons hx hxs ih =>
      rename_i g b gs bs
      intro fuel d l s n hfu hd he
      obtain ⟨fuel, rfl⟩ : ∃ k, fuel = k + 1 := ⟨fuel - 1, by simp at hfu; omega⟩
      obtain ⟨l0, r0, d0, rfl, k1, k2, k3, k0, _, k4⟩ := itemText_file.mpr hx
      simp only [List.flatten_cons, List.cons_append, unlines_cons, List.append_assoc] at he
      have e1 := (At.nl (l := l0) (r := unlines (r0 ++ bs.flatten) ++ (endRecord ⟨m.mat, 0, 0⟩ ++ '\n' :: (q ++ r))) k2.1.1)
      rw [he] at e1
      obtain ⟨rfl, e2⟩ := e1.unique (At.nl hd.1.1)
      have e2 := (List.append_cancel_left he)
      simp only [List.cons.injEq, true_and, unlines_append, List.append_assoc] at e2
      subst e2
      obtain rfl := hd.unique k2
      rw [itemLoop, if_neg (by simp [k3]), Parser.bind_ok (k4 _ n)]
      -- the next line
      obtain ⟨l1, s1, d1, hd1, he1⟩ : ∃ l1 s1 d1, DivLine d1 l1 ∧ unlines bs.flatten ++ (endRecord ⟨m.mat, 0, 0⟩ ++ '\n' :: (q ++ r)) = l1 ++ '\n' :: s1 := by
        cases hxs with
        | nil => exact ⟨_, _, _, hfend.1, by simp; rfl⟩
        | cons hy _ =>
          obtain ⟨l2, r2, d2, rfl, m2, m3⟩ := fileBlock_first hy
          exact ⟨l2, _, d2, m2, by simp; rfl⟩
      rw [he1, Parser.bind_ok (readDivision_run hd1 _ _)]
      exact Parser.bind_err (ih fuel d1 l1 s1 _ (by simp at hfu; omega) hd1 he1)
  obtain ⟨l1, s1, d1, hd1, he1⟩ : ∃ l1 s1 d1, DivLine d1 l1 ∧ unlines bs.flatten ++ (endRecord ⟨m.mat, 0, 0⟩ ++ '\n' :: (q ++ r)) = l1 ++ '\n' :: s1 := by
    clear b1 hbs
    cases b2 with
    | nil => exact ⟨_, _, _, hfend.1, by simp; rfl⟩
    | cons hy _ =>
      obtain ⟨l2, r2, d2, rfl, m2, m3⟩ := fileBlock_first hy
      exact ⟨l2, _, d2, m2, by simp; rfl⟩
  unfold readMaterialFrom
  have e0 : (unlines bs.flatten ++ (endRecord ⟨m.mat, 0, 0⟩ ++ '\n' :: q)) ++ r = l1 ++ '\n' :: s1 := by rw [← he1]; simp
  rw [e0, Parser.bind_ok (readDivision_run hd1 _ _)]
  unfold readPMaterial
  simp only [readFiles_eq, Parser.mapErr]
  rw [get_bind_assoc (fun s => itemLoop Division.isMend fileItem (s.rest.length + 1) d1)]
  have hlen : before.length < s1.length + 1 := by
    have c1 : before.length ≤ bs.flatten.length := (blocks_first (fun x b => fileBlock_first) b2 hfend.1).2
    have c2 := length_le_unlines bs.flatten
    have c3 := congrArg List.length he1
    have c4 : l1.length ≤ (unlines bs.flatten ++ (endRecord ⟨m.mat, 0, 0⟩ ++ '\n' :: (q ++ r))).length := by rw [he1]; simp
    cases bs with
    | nil => cases b2; simp
    | cons b bs =>
      cases b2 with
      | cons hy hys =>
      obtain ⟨l2, r2, d2, rfl, m2, m3⟩ := fileBlock_first hy
      simp only [List.flatten_cons, List.cons_append, unlines_cons, List.append_assoc] at he1
      have e1 := (At.nl (l := l2) (r := unlines (r2 ++ bs.flatten) ++ (endRecord ⟨m.mat, 0, 0⟩ ++ '\n' :: (q ++ r))) m2.1.1)
      rw [he1] at e1
      obtain ⟨rfl, e2⟩ := e1.unique (At.nl hd1.1.1)
      have e2 := List.append_cancel_left he1
      simp only [List.cons.injEq, true_and] at e2
      rw [← e2]
      have c5 := length_le_unlines (r2 ++ bs.flatten)
      simp at c1 c5 ⊢; omega
  have hl := loop bs before b2 _ d1 l1 s1 (n + 1) hlen hd1 he1
  have hl' : (do
      let s ← Parser.get
      itemLoop Division.isMend fileItem (List.length s.rest + 1) d1 : Parser (List PFile)) ⟨s1, n + 1⟩ = .error .exc := hl
  rw [Parser.bind_err hl']
  rfl

/-- Also missing: a file 30 is not printed at all (it is skipped when it is read). -/
theorem C46_file30_lost (mat : Int) (xs : SMap AnySection) : (PFile.mk 30 xs).print mat = .ok [] := rfl

/-- And the tape number: tapes that differ only in their number are printed alike. -/
theorem C46_tape_number_lost (t : PTape) (k : Int) : PTape.print { t with id := { t.id with ntape := k } } = t.print := rfl

/-! ### C47: duplicates are rejected, elements are ordered -/

/-- `file::Type< MF >( sections )` throws exactly if two sections have the same MT.  Otherwise `sections()` are the given ones in ascending order of MT,
    and `section( MT )` finds each of them. -/
theorem C47_file_make (mf : Int) (xs : List AnySection) :
    ((xs.map AnySection.mt).Nodup → ∃ f, PFile.make mf xs = .ok f ∧ f.mf = mf ∧ f.sections'.Perm xs ∧ (f.sections'.map AnySection.mt).Pairwise (· < ·) ∧
      ∀ x ∈ xs, f.hasMT x.mt = true ∧ f.section' x.mt = .ok x) ∧
    (¬ (xs.map AnySection.mt).Nodup → PFile.make mf xs = .error .exc) := by
  refine ⟨fun h => ?_, fun h => ?_⟩
  · have hf := fillMap_nil (key := AnySection.mt) xs
    rw [if_pos h] at hf
    generalize xs.foldl (fun (m : SMap _) b => m.emplace (AnySection.mt b) b) [] = mm at hf
    obtain ⟨_, h2, h3⟩ := fillMap_ok hf
    refine ⟨⟨mf, _⟩, by rw [PFile.make, hf], rfl, ?_, ?_, fun x hx => ?_⟩
    · have := h3.map (·.2)
      simpa [PFile.sections', SMap.values, Function.comp_def] using this
    · have h4 := SMap.sorted_iff_keys.mp h2
      rw [PFile.sections', SMap.values, List.map_map]
      have h5 : List.map (AnySection.mt ∘ fun x => x.2) mm = List.map (·.1) mm := List.map_congr_left fun e he => (fillMap_entry hf he).1.symm
      rw [h5]; exact h4
    · have hm := h3.symm.subset (List.mem_map.mpr ⟨x, hx, rfl⟩)
      have hg := SMap.get?_of_mem h2 hm
      refine ⟨?_, by simp [PFile.section', SMap.at', hg]⟩
      simp only [PFile.hasMT, SMap.has, List.any_eq_true]
      exact ⟨_, hm, by simp⟩
  · rw [PFile.make, fillMap_nil, if_neg h]

/-- `Material( MAT, files )` likewise, with MF. -/
theorem C47_material_make (mat : Int) (fs : List PFile) :
    ((fs.map PFile.mf).Nodup → ∃ m, PMaterial.make mat fs = .ok m ∧ m.mat = mat ∧ m.files'.Perm fs ∧ (m.files'.map PFile.mf).Pairwise (· < ·) ∧
      ∀ f ∈ fs, m.hasMF f.mf = true ∧ m.file f.mf = .ok f) ∧
    (¬ (fs.map PFile.mf).Nodup → PMaterial.make mat fs = .error .exc) := by
  refine ⟨fun h => ?_, fun h => ?_⟩
  · have hf := fillMap_nil (key := PFile.mf) fs
    rw [if_pos h] at hf
    generalize fs.foldl (fun (m : SMap _) b => m.emplace (PFile.mf b) b) [] = mm at hf
    obtain ⟨_, h2, h3⟩ := fillMap_ok hf
    refine ⟨⟨mat, _⟩, by rw [PMaterial.make, hf], rfl, ?_, ?_, fun x hx => ?_⟩
    · have := h3.map (·.2)
      simpa [PMaterial.files', SMap.values, Function.comp_def] using this
    · have h4 := SMap.sorted_iff_keys.mp h2
      rw [PMaterial.files', SMap.values, List.map_map]
      have h5 : List.map (PFile.mf ∘ fun x => x.2) mm = List.map (·.1) mm := List.map_congr_left fun e he => (fillMap_entry hf he).1.symm
      rw [h5]; exact h4
    · have hm := h3.symm.subset (List.mem_map.mpr ⟨x, hx, rfl⟩)
      have hg := SMap.get?_of_mem h2 hm
      refine ⟨?_, by simp [PMaterial.file, SMap.at', hg]⟩
      simp only [PMaterial.hasMF, SMap.has, List.any_eq_true]
      exact ⟨_, hm, by simp⟩
  · rw [PMaterial.make, fillMap_nil, if_neg h]

/-- Reading a file that is a sequence of sections and FEND: the sections are kept, in ascending order of MT, unless two have the same MT: then
    `std::exception` is thrown. -/
theorem C47_read_file {mf : Int} (h30 : mf ≠ 30) {xs : List AnySection} {ls : List Text} (h : FileText mf xs ls) (r : Text) (n : Int) :
    ((xs.map AnySection.mt).Nodup → ∃ f, (∃ k : Nat, (mf ≠ 32 → k = ls.length) ∧ readFileFrom mf ⟨unlines ls ++ r, n⟩ = .ok (f, ⟨r, n + (k : Int)⟩)) ∧ f.sections'.Perm xs ∧
      (f.sections'.map AnySection.mt).Pairwise (· < ·) ∧ ∀ x ∈ xs, f.section' x.mt = .ok x) ∧
    (¬ (xs.map AnySection.mt).Nodup → readFileFrom mf ⟨unlines ls ++ r, n⟩ = .error .exc) := by
  have h1 := C47_file_make mf xs
  obtain ⟨k, hk, h2⟩ := readFile_run h30 h
  have h2 := h2 r n
  refine ⟨fun hn => ?_, fun hn => ?_⟩
  · obtain ⟨f, a1, a2, a3, a4, a5⟩ := h1.1 hn
    rw [a1] at h2
    exact ⟨f, ⟨k, hk, h2⟩, a3, a4, fun x hx => (a5 x hx).2⟩
  · rw [h1.2 hn] at h2
    exact h2

/-- Every file that can be read (file 8 provided that it begins with MT 454, 457 or 459) is of that form, and the MTs are different. -/
theorem C47_file_is_read_from {mf : Int} (h30 : mf ≠ 30) {s s' : St} {f : PFile} (h : readFileFrom mf s = .ok (f, s'))
    (h8 : mf = 8 → f.sections ≠ []) :
    ∃ xs ls, Lines ls s.rest s'.rest ∧ FileText mf xs ls ∧ (xs.map AnySection.mt).Nodup ∧ f.sections'.Perm xs ∧
      (f.sections'.map AnySection.mt).Pairwise (· < ·) := by
  obtain ⟨d, s1, h1, h2⟩ := Parser.bind_eq_ok.mp h
  obtain ⟨l, a1, a2, _⟩ := readDivision_inv h1
  have hp8 : Plain8 mf d.tail.mt := by
    intro h8'
    by_cases hc : d.tail.mt = 454 ∨ d.tail.mt = 457 ∨ d.tail.mt = 459
    · exact hc
    exfalso
    unfold readPFile at h2
    rw [if_neg h30, if_pos ⟨h8', hc⟩] at h2
    have h := Parser.mapErr_ok.mp h2
    obtain ⟨_, _, _, h⟩ := Parser.bind_eq_ok.mp h
    obtain ⟨_, _, _, h⟩ := Parser.bind_eq_ok.mp h
    obtain ⟨_, _, _, h⟩ := Parser.bind_eq_ok.mp h
    cases h; exact h8 h8' rfl
  obtain ⟨xs, rest, b1, b3, b4⟩ := readFile_inv h30 a2 hp8 h2
  have h3 := C47_file_make mf xs
  by_cases hn : (xs.map AnySection.mt).Nodup
  · obtain ⟨f', c1, c2, c3, c4, c5⟩ := h3.1 hn
    rw [b4] at c1; cases c1
    exact ⟨xs, l :: rest, a1.lines.trans b1, b3, hn, c3, c4⟩
  · rw [h3.2 hn] at b4; cases b4

/-- Reading a material that is a sequence of files and MEND: the files are kept, in ascending order of MF, unless two have the same MF: then
    `std::exception` is thrown. -/
theorem C47_read_material {fs : List PFile} {ls : List Text} {t : Nums} (h : MaterialText fs ls) (ht : StartsWith ls t) (r : Text) (n : Int) :
    ((fs.map PFile.mf).Nodup → ∃ m, (∃ k : Nat, (m.NoCov → k = ls.length) ∧ readMaterialFrom ⟨unlines ls ++ r, n⟩ = .ok (m, ⟨r, n + (k : Int)⟩)) ∧ m.mat = t.mat ∧ m.files'.Perm fs ∧
      (m.files'.map PFile.mf).Pairwise (· < ·) ∧ ∀ f ∈ fs, m.file f.mf = .ok f) ∧
    (¬ (fs.map PFile.mf).Nodup → readMaterialFrom ⟨unlines ls ++ r, n⟩ = .error .exc) := by
  have h1 := C47_material_make t.mat fs
  obtain ⟨k, hk, h2⟩ := readMaterial_run h ht
  have h2 := h2 r n
  refine ⟨fun hn => ?_, fun hn => ?_⟩
  · obtain ⟨f, a1, a2, a3, a4, a5⟩ := h1.1 hn
    rw [a1] at h2
    exact ⟨f, ⟨k, fun hn => hk fun g hg => hn g ((PMaterial.make_mem a1).mpr hg), h2⟩, a2, a3, a4, fun x hx => (a5 x hx).2⟩
  · rw [h1.2 hn] at h2
    exact h2

/-- Every material that can be read is of that form, and the MFs are different. -/
theorem C47_material_is_read_from {s s' : St} {m : PMaterial} (h : readMaterialFrom s = .ok (m, s')) :
    ∃ fs ls, Lines ls s.rest s'.rest ∧ MaterialText fs ls ∧ (fs.map PFile.mf).Nodup ∧ m.files'.Perm fs ∧ (m.files'.map PFile.mf).Pairwise (· < ·) := by
  obtain ⟨d, s1, h1, h2⟩ := Parser.bind_eq_ok.mp h
  obtain ⟨l, a1, a2, _⟩ := readDivision_inv h1
  obtain ⟨xs, rest, b1, b3, b4⟩ := readMaterial_inv a2 h2
  have h3 := C47_material_make d.tail.mat xs
  by_cases hn : (xs.map PFile.mf).Nodup
  · obtain ⟨f', c1, c2, c3, c4, c5⟩ := h3.1 hn
    rw [b4] at c1; cases c1
    exact ⟨xs, l :: rest, a1.lines.trans b1, b3, hn, c3, c4⟩
  · rw [h3.2 hn] at b4; cases b4

/-- A tape keeps its materials in the order in which they are read (also if they have the same MAT); `material( MAT )` returns all with that MAT. -/
theorem C47_read_tape {id : Tpid} {ms : List PMaterial} {ls : List Text} (h : TapeText id ms ls) (h0 : ms ≠ []) (hsz : ms.length < 2147483648) (r : Text) (n : Int) :
    ∃ k : Nat, ((∀ m ∈ ms, m.NoCov) → k = ls.length) ∧ PTape.read ⟨unlines ls ++ r, n⟩ = .ok (⟨id, ms⟩, ⟨r, n + (k : Int)⟩) := by
  obtain ⟨k, hk, hr⟩ := readTape_run h
  refine ⟨k, hk, ?_⟩
  rw [hr, PTape.make, if_neg]
  have h3 : 0 < ms.length := List.length_pos_iff.mpr h0
  rw [asInt, toInt32_of ⟨by omega, by omega⟩]
  omega

/-- Every tape that can be read is of that form. -/
theorem C47_tape_is_read_from {s s' : St} {t : PTape} (h : PTape.read s = .ok (t, s')) : ∃ ls, Lines ls s.rest s'.rest ∧ TapeText t.id t.materials ls := by
  obtain ⟨id, ms, ls, a1, a3, a4⟩ := readTape_inv h
  unfold PTape.make at a4
  split at a4
  · cases a4
  cases a4
  exact ⟨ls, a1, a3⟩

/-- A tape that was read has at least one material, and `numberMaterials` counts the materials with each MAT. -/
theorem C47_tape_number {s s' : St} {t : PTape} (h : PTape.read s = .ok (t, s')) : 0 < t.numberMaterials ∧
    ∀ mat, t.numberMaterials = (t.material mat).length + (t.materials.filter (fun m => !(m.mat == mat))).length := by
  obtain ⟨id, ms, ls, a1, a3, a4⟩ := readTape_inv h
  unfold PTape.make at a4
  split at a4
  · cases a4
  rename_i h0
  cases a4
  refine ⟨?_, fun mat => ?_⟩
  · unfold PTape.numberMaterials
    show 0 < ms.length
    rcases Nat.eq_zero_or_pos ms.length with h | h
    · rw [h] at h0; exact absurd (show asInt 0 = 0 from (toInt32_of (show IsInt32 0 by decide))) h0
    · exact h
  · unfold PTape.numberMaterials PTape.material
    rw [← List.countP_eq_length_filter, ← List.countP_eq_length_filter, List.length_eq_countP_add_countP (fun m : PMaterial => m.mat == mat)]
    congr 2
    funext m
    cases hm : m.mat == mat <;> simp [hm]

/-- `material( MAT )` returns exactly the materials with that MAT. -/
theorem C47_tape_material (t : PTape) (mat : Int) (m : PMaterial) : (m ∈ t.material mat ↔ m ∈ t.materials ∧ m.mat = mat) ∧
    (t.hasMAT mat = true ↔ ∃ m ∈ t.materials, m.mat = mat) := by
  refine ⟨by simp [PTape.material], ?_⟩
  simp only [PTape.hasMAT, PTape.material, decide_eq_true_eq, List.length_pos_iff, ne_eq, List.filter_eq_nil_iff]
  simp

/-! ### C38, C49, C50 -/

theorem countsLines_of_local {α : Type} (p : Parser α) [hp : Local p] : CountsLines p := by
  intro s a s' h
  obtain ⟨ls, h1, h2, _⟩ := hp.run h
  exact ⟨ls, h1, h2⟩

/-- The same for the objects with `P`. -/
def CountsLinesIf {α : Type} (P : α → Prop) (p : Parser α) : Prop :=
  ∀ s a s', p s = .ok (a, s') → ∃ ls, Lines ls s.rest s'.rest ∧ (P a → s'.line = s.line + ls.length)

theorem countsLinesIf {α : Type} {P : α → Prop} {p : Parser α} (hp : LocalP P p) : CountsLinesIf P p := by
  intro s a s' h
  obtain ⟨ls, k, h1, h2, h3, _⟩ := hp.run h
  exact ⟨ls, h1, fun ha => by rw [h2, h3 ha]⟩

/-- Parsed files, materials and tapes consume whole lines; if they contain no file 32, they advance the line counter by the number of lines consumed
    (for file 32 see `C55_line_counter`). -/
theorem C38_parsed (mf : Int) (d : Division) :
    CountsLinesIf PFile.NoCov (readFileFrom mf) ∧ CountsLinesIf PFile.NoCov (readPFile mf d) ∧ CountsLinesIf PMaterial.NoCov readMaterialFrom ∧
    CountsLinesIf PMaterial.NoCov (readPMaterial d) ∧ CountsLinesIf PTape.NoCov PTape.read :=
  ⟨countsLinesIf (readFileFrom_local _), countsLinesIf (readPFile_local _ _), countsLinesIf readMaterialFrom_local, countsLinesIf (readPMaterial_local _),
    countsLinesIf PTape.read_local⟩

/-- On any text, parsing a file, material or tape ends; apart from the violated preconditions of `C49_std_or_ub` it returns an object or throws `std::exception`. -/
theorem C49_parsed {s : St} {er : Err} :
    (∀ mf, readFileFrom mf s = .error er → er.isStd = true ∨ er = .ub) ∧ (readMaterialFrom s = .error er → er.isStd = true ∨ er = .ub) ∧
    (PTape.read s = .error er → er.isStd = true ∨ er = .ub) := by
  refine ⟨fun mf h => ?_, fun h => ?_, PTape.read_err⟩
  · rcases Parser.bind_eq_error.mp h with h | ⟨d, s1, h1, h⟩
    · exact .inl (readDivision_err h)
    · obtain ⟨l, _, hd, _⟩ := readDivision_inv h1
      exact readPFile_err hd h
  · rcases Parser.bind_eq_error.mp h with h | ⟨d, s1, h1, h⟩
    · exact .inl (readDivision_err h)
    · obtain ⟨l, _, hd, _⟩ := readDivision_inv h1
      exact readPMaterial_err hd h

/-- What is read depends only on the lines that are consumed: whenever `p` succeeds, it has consumed some whole lines, and it gives the same result for these lines
    whatever follows them and whatever the line number is. -/
def ContextFree {α : Type} (p : Parser α) : Prop :=
  ∀ s a s', p s = .ok (a, s') → ∃ ls, Lines ls s.rest s'.rest ∧ ∀ r n, p ⟨unlines ls ++ r, n⟩ = .ok (a, ⟨r, n + (ls.length : Int)⟩)

theorem contextFree {α : Type} (p : Parser α) [hp : Local p] : ContextFree p := by
  intro s a s' h
  obtain ⟨ls, h1, _, h3⟩ := hp.run h
  exact ⟨ls, h1, h3⟩

/-- All records but INTG. -/
theorem C50_records (e : Nums) :
    ContextFree (readCont e) ∧ ContextFree readDivision ∧ ContextFree (readText e) ∧ ContextFree (readDir e) ∧ ContextFree readTpid ∧
    ContextFree (readLIST e) ∧ ContextFree (readTAB1 e) ∧ ContextFree (readTAB2 e) ∧ ContextFree skip :=
  ⟨contextFree _, contextFree _, contextFree _, contextFree _, contextFree _, contextFree _, contextFree _, contextFree _, contextFree _⟩

theorem C50_sections (T : SectionType) (head : Division) (mat : Int) : ContextFree T.defn.parse ∧ ContextFree (T.defn.readSect head mat) :=
  ⟨contextFree _, contextFree _⟩

/-- The same, except that the line counter is advanced by the number of lines only for the objects with `P` (for the others: always by the same amount). -/
def ContextFreeIf {α : Type} (P : α → Prop) (p : Parser α) : Prop :=
  ∀ s a s', p s = .ok (a, s') → ∃ (ls : List Text) (k : Nat), Lines ls s.rest s'.rest ∧ s'.line = s.line + k ∧ (P a → k = ls.length) ∧
    ∀ r n, p ⟨unlines ls ++ r, n⟩ = .ok (a, ⟨r, n + (k : Int)⟩)

theorem contextFreeIf {α : Type} {P : α → Prop} {p : Parser α} (hp : LocalP P p) : ContextFreeIf P p := fun _ _ _ h => hp.run h

/-- Section 32/151, whatever its parameters are and however long its lines are. -/
theorem C50_mf32mt151 (head : Division) (mat : Int) :
    ContextFreeIf (fun _ => False) mf32mt151.parse ∧ ContextFreeIf (fun _ => False) (mf32mt151.readSect head mat) :=
  ⟨contextFreeIf (LocalP.ofW inferInstance fun _ h => h), contextFreeIf (LocalP.ofW inferInstance fun _ h => h)⟩

theorem C50_parsed (mf : Int) (d : Division) :
    ContextFreeIf PFile.NoCov (readFileFrom mf) ∧ ContextFreeIf PFile.NoCov (readPFile mf d) ∧ ContextFreeIf PMaterial.NoCov readMaterialFrom ∧
    ContextFreeIf PMaterial.NoCov (readPMaterial d) ∧ ContextFreeIf PTape.NoCov PTape.read :=
  ⟨contextFreeIf (readFileFrom_local _), contextFreeIf (readPFile_local _ _), contextFreeIf readMaterialFrom_local, contextFreeIf (readPMaterial_local _),
    contextFreeIf PTape.read_local⟩

/-- `NoCov`: no file with MF = 32. -/
theorem noCov_iff (f : PFile) (m : PMaterial) (t : PTape) : (f.NoCov ↔ f.mf ≠ 32) ∧ (m.NoCov ↔ ∀ f ∈ m.files', f.mf ≠ 32) ∧
    (t.NoCov ↔ ∀ m ∈ t.materials, ∀ f ∈ m.files', f.mf ≠ 32) := ⟨.rfl, .rfl, .rfl⟩

end ENDFtk.Props

import Verif.Tree.ContentLemmas
import Verif.Props.TreeMaps
/-
  C14-C18: content(), clean() and NC() of the tree.  `endRecord`, `numCols`, `cleanLine` (the lines ENDFtk writes) are specified in
  `Verif/Tree/ContentLemmas.lean`; `FileAgrees`, `MatAgrees`, `TapeAgrees` (true after any history, C10-C12) in `Verif/Props/TreeMaps.lean`.
-/
set_option linter.unusedVariables false
set_option linter.unusedSectionVars false
set_option linter.unusedSimpArgs false
namespace ENDFtk.Props
open ENDFtk
variable [Disco]

/-! ### the end records are what they should be -/

/-- The printed end records are 80 column lines that are classified as SEND, FEND, MEND and TEND with these numbers. -/
theorem C14_end_records (mat mf : Int) (h1 : 1 ≤ mat) (h2 : 1 ≤ mf) (hf : fits 4 mat) (hf' : fits 2 mf) :
    DLine.IsSend ⟨endRecord ⟨mat, mf, 0⟩, ⟨zeroCont, ⟨mat, mf, 0⟩⟩⟩ ∧ DLine.IsFend ⟨endRecord ⟨mat, 0, 0⟩, ⟨zeroCont, ⟨mat, 0, 0⟩⟩⟩ ∧
    DLine.IsMend ⟨endRecord ⟨0, 0, 0⟩, ⟨zeroCont, ⟨0, 0, 0⟩⟩⟩ ∧ DLine.IsTend ⟨endRecord ⟨-1, 0, 0⟩, ⟨zeroCont, ⟨-1, 0, 0⟩⟩⟩ ∧
    (endRecord ⟨mat, mf, 0⟩).length = 80 ∧ (endRecord ⟨mat, 0, 0⟩).length = 80 ∧ (endRecord ⟨0, 0, 0⟩).length = 80 ∧
    (endRecord ⟨-1, 0, 0⟩).length = 80 := by
  have z : ZeroCols (zeroCont : Cont) := ⟨Disco.eqD_zero, Disco.eqD_zero, rfl, rfl, rfl, rfl⟩
  have f1 : (⟨mat, mf, 0⟩ : Nums).Fit := ⟨hf, hf', fits_zero 2⟩
  have f2 : (⟨mat, 0, 0⟩ : Nums).Fit := ⟨hf, fits_zero 1, fits_zero 2⟩
  have f3 : (⟨0, 0, 0⟩ : Nums).Fit := ⟨fits_zero 3, fits_zero 1, fits_zero 2⟩
  have f4 : (⟨-1, 0, 0⟩ : Nums).Fit := ⟨by decide, fits_zero 1, fits_zero 2⟩
  refine ⟨⟨endRecord_line f1 ?_ ?_ ?_, z, ?_, ?_, rfl⟩, ⟨endRecord_line f2 ?_ ?_ ?_, z, ?_, rfl, rfl⟩, ⟨endRecord_line f3 ?_ ?_ ?_, z, rfl⟩,
    ⟨endRecord_line f4 ?_ ?_ ?_, z, rfl⟩, (endRecord_canonical f1).1, (endRecord_canonical f2).1, (endRecord_canonical f3).1,
    (endRecord_canonical f4).1⟩ <;> simp only <;> omega

/-! ### C14 -/

/-- Text of the abstract section, nothing if there is none. -/
def textOf (m : FMap) (k : Int) : Text :=
  match m k with
  | some s => s.content
  | none => []

theorem sections_text {mat mf : Int} {m : FMap} {f : TFile} (h : FileAgrees mat mf m f) :
    f.sections'.flatMap (·.content) = f.sectionNumbers.flatMap (textOf m) := by
  have h8 := h.2.2.2.2.2.2.2
  generalize f.sections' = ss at h8
  generalize f.sectionNumbers = ks at h8
  induction ss generalizing ks with
  | nil => cases ks <;> simp_all
  | cons s ss ih =>
    cases ks with
    | nil => simp at h8
    | cons k ks =>
      simp only [List.map_cons, List.cons.injEq] at h8
      simp only [List.flatMap_cons, ih _ h8.2, textOf, ← h8.1]

/-- C14 for files: the sections in ascending MT, then one FEND of the file's MAT - or nothing at all. -/
theorem C14_file (mat mf : Int) (m : FMap) (f : TFile) (h : FileAgrees mat mf m f) (h1 : 1 ≤ mat) (hf : fits 4 mat) :
    f.sectionNumbers.Pairwise (· < ·) ∧
    f.content = .ok (if f.sectionNumbers.flatMap (textOf m) = [] then []
      else f.sectionNumbers.flatMap (textOf m) ++ unlines [endRecord ⟨mat, 0, 0⟩]) := by
  refine ⟨h.2.2.2.2.1, ?_⟩
  unfold TFile.content
  simp only [sections_text h, h.1, FEND_ok h1, fend_print hf]
  by_cases hc : f.sectionNumbers.flatMap (textOf m) = []
  · rw [if_pos hc, hc]; rfl
  · rw [if_neg hc, if_pos (by rw [Ne, List.length_eq_zero_iff]; exact hc)]

/-- C14: a file with text and an invalid MAT number has no content, FEND is refused. -/
theorem C14_file_invalid_MAT (mat mf : Int) (m : FMap) (f : TFile) (h : FileAgrees mat mf m f) (h1 : mat < 1) :
    f.content = if f.sectionNumbers.flatMap (textOf m) = [] then .ok [] else .error .exc := by
  have hF : FEND mat = .error .exc := by unfold FEND; rw [if_pos h1]
  unfold TFile.content
  simp only [sections_text h, h.1, hF]
  by_cases hc : f.sectionNumbers.flatMap (textOf m) = []
  · rw [if_pos hc, hc]; rfl
  · rw [if_neg hc, if_pos (by rw [Ne, List.length_eq_zero_iff]; exact hc)]

theorem files_values {mat : Int} {m : MMap} {t : TMaterial} (h : MatAgrees mat m t) :
    t.files'.map Except.ok = t.fileNumbers.map (fun k => t.file k) := by
  obtain ⟨h1, h2, h3⟩ := matAgrees_iff.mp h
  simp only [TMaterial.files', TMaterial.fileNumbers, SMap.values, SMap.keys, List.map_map]
  apply List.map_congr_left
  intro e he
  simp only [Function.comp, TMaterial.file]
  rw [SMap.at'_ok.mpr (SMap.get?_of_mem h2 (k := e.1) (v := e.2) he)]

/-- C14 for materials: the file contents in ascending MF, then one MEND - or nothing at all. -/
theorem C14_material (mat : Int) (m : MMap) (t : TMaterial) (h : MatAgrees mat m t) (c : Int → Text)
    (hc : ∀ k f, t.file k = .ok f → f.content = .ok (c k)) :
    t.fileNumbers.Pairwise (· < ·) ∧
    t.content = .ok (if t.fileNumbers.flatMap c = [] then [] else t.fileNumbers.flatMap c ++ unlines [endRecord ⟨0, 0, 0⟩]) := by
  refine ⟨h.2.1, ?_⟩
  have hmap : t.files'.map TFile.content = (t.fileNumbers.map c).map .ok := by
    have hv := files_values h
    generalize t.files' = fs at hv
    generalize t.fileNumbers = ks at hv
    induction fs generalizing ks with
    | nil => cases ks <;> simp_all
    | cons f fs ih =>
      cases ks with
      | nil => simp at hv
      | cons k ks =>
        simp only [List.map_cons, List.cons.injEq] at hv
        simp only [List.map_cons, ih _ hv.2, hc k f hv.1.symm]
  unfold TMaterial.content
  rw [concat_ok hmap]
  simp only [List.flatMap_def]
  by_cases hx : (t.fileNumbers.map c).flatten = []
  · rw [if_pos hx, hx]; rfl
  · rw [if_neg hx, if_pos (by rw [Ne, List.length_eq_zero_iff]; exact hx), mend_print]

theorem concat_flatMap {β : Type} {l : List β} {f : β → Except Err Text} {c : β → Text} (h : ∀ x ∈ l, f x = .ok (c x)) :
    TMaterial.concat (l.map f) = .ok (l.flatMap c) := by
  have : l.map f = (l.map c).map .ok := by
    rw [List.map_map]; exact List.map_congr_left h
  rw [concat_ok this, List.flatMap_def]

/-- C14 for tapes: the identification line, the material contents in ascending MAT and in order of insertion for the same MAT, one TEND. -/
theorem C14_tape (m : TMap) (t : TTape) (h : TapeAgrees m t) (id : Tpid) (hid : t.tpid = some id) (h66 : id.text.length = 66)
    (c : TMaterial → Text) (hc : ∀ k, ∀ x ∈ m k, x.content = .ok (c x)) :
    t.materialNumbers.Pairwise (· < ·) ∧
    t.content = .ok (unlines [id.text ++ numCols ⟨0, 0, 0⟩] ++ t.materialNumbers.flatMap (fun k => (m k).flatMap c) ++
      unlines [endRecord ⟨-1, 0, 0⟩]) := by
  refine ⟨h.2.2.2.1, ?_⟩
  have hm := h.2.2.2.2.2.1
  have f3 : (⟨0, 0, 0⟩ : Nums).Fit := ⟨fits_zero 3, fits_zero 1, fits_zero 2⟩
  have hp : printTpid id ⟨0, 0, 0⟩ = unlines [id.text ++ numCols ⟨0, 0, 0⟩] := by
    rw [printTpid, writeChars_full h66, tailText_eq, tailCols_eq f3]; simp
  unfold TTape.content
  have hcon : TMaterial.concat (t.materials'.map TMaterial.content) = .ok (t.materialNumbers.flatMap (fun k => (m k).flatMap c)) := by
    rw [concat_flatMap (c := c), hm, List.flatMap_assoc]
    intro x hx
    rw [hm] at hx
    obtain ⟨k, _, hk⟩ := List.mem_flatMap.mp hx
    exact hc k x hk
  simp only [hcon, hid, hp, tend_print]
  rw [if_pos]
  simp

/-! ### C15 -/

/-- C15: a file without sections has no content. -/
theorem C15_empty_file (mat mf : Int) : (TFile.empty mat mf).content = .ok [] := rfl

/-- C15: a material all of whose files are without content has no content. -/
theorem C15_empty_material (t : TMaterial) (h : ∀ f ∈ t.files', f.content = .ok []) : t.content = .ok [] := by
  unfold TMaterial.content
  rw [concat_flatMap (c := fun _ => []) h]
  have : t.files'.flatMap (fun _ => ([] : Text)) = [] := by simp
  simp only [this]
  rfl

/-- C15: inserting a file without content in a material does not change the content of the material (an exception of another file is the same). -/
theorem C15_insert_file (t : TMaterial) (f : TFile) (hf : f.content = .ok []) (h : (t.insertFile f).1 = .ok ()) :
    (t.insertFile f).2.content = t.content := by
  unfold TMaterial.insertFile TMaterial.hasMF at h ⊢
  by_cases hk : t.files.has f.mf = true
  · rw [if_pos hk] at h; cases h
  rw [if_neg hk] at h ⊢
  unfold TMaterial.insertOrReplaceFile at h ⊢
  by_cases hm : t.mat ≠ f.mat
  · rw [if_pos hm] at h; cases h
  rw [if_neg hm]
  have her : t.files.erase f.mf = t.files := by
    unfold SMap.erase
    rw [List.filter_eq_self]
    intro e he
    simp only [bne_iff_ne, ne_eq]
    intro heq
    apply hk
    rw [SMap.has_iff]
    exact ⟨e.2, by rw [← heq]; exact he⟩
  obtain ⟨a, b, e1, e2⟩ := SMap.emplaceMulti_split f.mf f t.files
  have hem : ((t.remove f.mf).files.emplace f.mf f) = a ++ (f.mf, f) :: b := by
    simp only [TMaterial.remove, her, SMap.emplace]
    rw [if_neg hk, e2]
  simp only [TMaterial.content, TMaterial.files', hem, SMap.values, List.map_append, List.map_cons, hf, concat_insert]
  rw [← List.map_append, ← List.map_append, ← e1]

/-- C15: inserting a material without content in a tape does not change the content of the tape. -/
theorem C15_insert_material (t : TTape) (x : TMaterial) (hx : x.content = .ok []) : (t.insert x).content = t.content := by
  obtain ⟨a, b, e1, e2⟩ := SMap.emplaceMulti_split x.mat x t.materials
  simp only [TTape.content, TTape.insert, TTape.materials', e2, SMap.values, List.map_append, List.map_cons, hx, concat_insert]
  rw [← List.map_append, ← List.map_append, ← e1]

/-! ### C16 -/

/-- The section's text is `n + 1` lines of which the first `n` carry its numbers. -/
def Consistent (s : TSection) : Prop := ∃ ls last, CleanReady s ls last

/-- What `clean` has to produce: the same first 66 columns (short lines padded with blanks), MAT, MF and MT in columns 67-75, nothing in columns
    76-80, the SEND record as last line. -/
def Cleaned (s s' : TSection) : Prop :=
  s'.mat = s.mat ∧ s'.mf = s.mf ∧ s'.mt = s.mt ∧
  ∃ (ls ls' : List Text) (last last' : Text), s.content = unlines (ls ++ [last]) ∧ (∀ l ∈ ls, '\n' ∉ l) ∧ '\n' ∉ last ∧
    s'.content = unlines (ls' ++ [last']) ∧
    All2 (fun l l' => CanonicalLine ⟨s.mat, s.mf, s.mt⟩ l' ∧ cols 1 66 l' = cols 1 66 l ++ blanks (66 - (cols 1 66 l).length)) ls ls' ∧
    last'.length = 80 ∧ DLine.IsSend ⟨last', ⟨zeroCont, ⟨s.mat, s.mf, 0⟩⟩⟩

theorem all2_map {α β : Type} {R : α → β → Prop} {f : α → β} {l : List α} (h : ∀ x ∈ l, R x (f x)) : All2 R l (l.map f) := by
  induction l with
  | nil => exact .nil
  | cons a l ih => exact .cons (h a (by simp)) (ih fun x hx => h x (by simp [hx]))

theorem _root_.ENDFtk.CleanReady.fit {s : TSection} {ls : List Text} {last : Text} (h : CleanReady s ls last) : (⟨s.mat, s.mf, s.mt⟩ : Nums).Fit := by
  obtain ⟨l0, hl0⟩ := List.exists_mem_of_ne_nil _ h.ne
  exact (h.nums l0 hl0).fit

/-- C16: `clean` succeeds on a consistent section, and gives the normalised section. -/
theorem C16_section (s : TSection) (h : Consistent s) : ∃ s', s.clean = (.ok (), s') ∧ Cleaned s s' ∧ s'.nc = s.nc := by
  obtain ⟨ls, last, h⟩ := h
  have hfit := h.fit
  have hrec := C14_end_records s.mat s.mf h.mat h.mf hfit.1 hfit.2.1
  have hfew := h.few
  refine ⟨_, clean_run h, ⟨rfl, rfl, rfl, ls, _, last, _, h.text, fun l hl => (h.nums l hl).1, h.last_nl, rfl, ?_, hrec.2.2.2.2.1, hrec.1⟩, ?_⟩
  · refine all2_map fun l hl => ⟨cleanLine_canonical hfit (h.nums l hl).1, ?_⟩
    have e1 : cols 1 66 (cleanLine ⟨s.mat, s.mf, s.mt⟩ l) = padded 66 l := by
      rw [cleanLine_eq hfit]
      simp only [cols]
      exact take_append_of_length (padded_length _ _)
    rw [e1]
    simp [padded, cols]
  · rw [nc_unlines h.text (fun l hl => (h.nums l hl).1) h.last_nl (by omega)]
    rw [nc_unlines (ls := ls.map (cleanLine ⟨s.mat, s.mf, s.mt⟩)) (last := endRecord ⟨s.mat, s.mf, 0⟩) rfl]
    · simp
    · intro l hl
      obtain ⟨x, hx, rfl⟩ := List.mem_map.mp hl
      exact (cleanLine_canonical hfit (h.nums x hx).1).2.1
    · exact hrec.1.1.1.1
    · simp; omega

/-- C16: `clean` is idempotent. -/
theorem C16_idempotent (s : TSection) (h : Consistent s) : s.clean.2.clean = (.ok (), s.clean.2) ∧ Consistent s.clean.2 := by
  obtain ⟨ls, last, h⟩ := h
  have hfit := h.fit
  have hrec := C14_end_records s.mat s.mf h.mat h.mf hfit.1 hfit.2.1
  rw [clean_run h]
  have h' : CleanReady { s with content := unlines (ls.map (cleanLine ⟨s.mat, s.mf, s.mt⟩) ++ [endRecord ⟨s.mat, s.mf, 0⟩]) }
      (ls.map (cleanLine ⟨s.mat, s.mf, s.mt⟩)) (endRecord ⟨s.mat, s.mf, 0⟩) := by
    refine ⟨rfl, by simpa using h.ne, ?_, hrec.1.1.1.1, h.mat, h.mf, by simpa using h.few⟩
    intro l hl
    obtain ⟨x, hx, rfl⟩ := List.mem_map.mp hl
    exact cleanLine_text hfit (h.nums x hx).1
  refine ⟨?_, _, _, h'⟩
  simp only
  rw [clean_run h']
  simp only [List.map_map]
  congr 3
  congr 2
  funext l
  exact cleanLine_idem hfit l

/-- A loop over all values in which no call throws. -/
theorem forEach_ok {α : Type} (f : α → Except Err Unit × α) (m : SMap α) (h : ∀ x ∈ m.values, (f x).1 = .ok ()) :
    SMap.forEach f m = (.ok (), m.map (fun e => (e.1, (f e.2).2))) := by
  induction m with
  | nil => rfl
  | cons e m ih =>
    obtain ⟨k, v⟩ := e
    have hv := h v (by simp [SMap.values])
    have hm := ih (fun x hx => h x (by simp only [SMap.values, List.map_cons, List.mem_cons]; exact .inr hx))
    simp only [SMap.forEach]
    cases hf : f v with
    | mk r v' =>
      rw [hf] at hv
      simp only at hv
      subst hv
      simp only [hm, List.map_cons, hf]

/-- C16 for files: every section is cleaned, nothing else changes. -/
theorem C16_file (f : TFile) (h : ∀ s ∈ f.sections', Consistent s) :
    f.clean.1 = .ok () ∧ f.clean.2.mat = f.mat ∧ f.clean.2.mf = f.mf ∧ f.clean.2.sectionNumbers = f.sectionNumbers ∧
    All2 Cleaned f.sections' f.clean.2.sections' ∧ f.clean.2.clean = (.ok (), f.clean.2) ∧ ∀ s ∈ f.clean.2.sections', Consistent s := by
  have hok : ∀ s ∈ f.sections.values, (s.clean).1 = .ok () := by
    intro s hs
    obtain ⟨s', h1, _⟩ := C16_section s (h s hs)
    rw [h1]
  have hc : f.clean = (.ok (), { f with sections := f.sections.map (fun e => (e.1, e.2.clean.2)) }) := by
    unfold TFile.clean; rw [forEach_ok _ _ hok]
  rw [hc]
  refine ⟨rfl, rfl, rfl, by simp [TFile.sectionNumbers, SMap.keys, Function.comp_def], ?_, ?_, ?_⟩
  · simp only [TFile.sections', SMap.values, List.map_map, Function.comp_def]
    have : f.sections.map (fun x => x.2.clean.2) = (f.sections.map (·.2)).map (fun s => s.clean.2) := by simp
    rw [this]
    refine all2_map fun s hs => ?_
    obtain ⟨s', h1, h2, _⟩ := C16_section s (h s hs)
    rw [h1]; exact h2
  · unfold TFile.clean
    rw [forEach_ok]
    · simp only [List.map_map, Function.comp_def]
      congr 2
      apply List.map_congr_left
      intro e he
      have := (C16_idempotent e.2 (h e.2 (List.mem_map.mpr ⟨e, he, rfl⟩))).1
      rw [this]
    · intro s hs
      simp only [SMap.values, List.map_map, List.mem_map, Function.comp] at hs
      obtain ⟨e, he, rfl⟩ := hs
      rw [(C16_idempotent e.2 (h e.2 (List.mem_map.mpr ⟨e, he, rfl⟩))).1]
  · intro s hs
    simp only [TFile.sections', SMap.values, List.map_map, List.mem_map, Function.comp] at hs
    obtain ⟨e, he, rfl⟩ := hs
    exact (C16_idempotent e.2 (h e.2 (List.mem_map.mpr ⟨e, he, rfl⟩))).2

/-- C16 for materials. -/
theorem C16_material (t : TMaterial) (h : ∀ f ∈ t.files', ∀ s ∈ f.sections', Consistent s) :
    t.clean.1 = .ok () ∧ t.clean.2.mat = t.mat ∧ t.clean.2.fileNumbers = t.fileNumbers ∧
    All2 (fun f f' => f'.mat = f.mat ∧ f'.mf = f.mf ∧ f'.sectionNumbers = f.sectionNumbers ∧ All2 Cleaned f.sections' f'.sections')
      t.files' t.clean.2.files' ∧ t.clean.2.clean = (.ok (), t.clean.2) ∧ ∀ f ∈ t.clean.2.files', ∀ s ∈ f.sections', Consistent s := by
  have hok : ∀ f ∈ t.files.values, (f.clean).1 = .ok () := fun f hf => (C16_file f (h f hf)).1
  have hc : t.clean = (.ok (), { t with files := t.files.map (fun e => (e.1, e.2.clean.2)) }) := by
    unfold TMaterial.clean; rw [forEach_ok _ _ hok]
  rw [hc]
  refine ⟨rfl, rfl, by simp [TMaterial.fileNumbers, SMap.keys, Function.comp_def], ?_, ?_, ?_⟩
  · simp only [TMaterial.files', SMap.values, List.map_map, Function.comp_def]
    have : t.files.map (fun x => x.2.clean.2) = (t.files.map (·.2)).map (fun s => s.clean.2) := by simp
    rw [this]
    refine all2_map fun f hf => ?_
    obtain ⟨h1, h2, h3, h4, h5, _⟩ := C16_file f (h f hf)
    exact ⟨h2, h3, h4, h5⟩
  · unfold TMaterial.clean
    rw [forEach_ok]
    · simp only [List.map_map, Function.comp_def]
      congr 2
      apply List.map_congr_left
      intro e he
      rw [(C16_file e.2 (h e.2 (List.mem_map.mpr ⟨e, he, rfl⟩))).2.2.2.2.2.1]
    · intro s hs
      simp only [SMap.values, List.map_map, List.mem_map, Function.comp] at hs
      obtain ⟨e, he, rfl⟩ := hs
      rw [(C16_file e.2 (h e.2 (List.mem_map.mpr ⟨e, he, rfl⟩))).2.2.2.2.2.1]
  · intro f hf
    simp only [TMaterial.files', SMap.values, List.map_map, List.mem_map, Function.comp] at hf
    obtain ⟨e, he, rfl⟩ := hf
    exact (C16_file e.2 (h e.2 (List.mem_map.mpr ⟨e, he, rfl⟩))).2.2.2.2.2.2

/-- C16 for tapes. -/
theorem C16_tape (t : TTape) (h : ∀ m ∈ t.materials', ∀ f ∈ m.files', ∀ s ∈ f.sections', Consistent s) :
    t.clean.1 = .ok () ∧ t.clean.2.tpid = t.tpid ∧ t.clean.2.materialNumbers = t.materialNumbers ∧
    All2 (fun m m' => m'.mat = m.mat ∧ m'.fileNumbers = m.fileNumbers ∧
      All2 (fun f f' => f'.mat = f.mat ∧ f'.mf = f.mf ∧ f'.sectionNumbers = f.sectionNumbers ∧ All2 Cleaned f.sections' f'.sections')
        m.files' m'.files') t.materials' t.clean.2.materials' ∧ t.clean.2.clean = (.ok (), t.clean.2) := by
  have hok : ∀ m ∈ t.materials.values, (m.clean).1 = .ok () := fun f hf => (C16_material f (h f hf)).1
  have hc : t.clean = (.ok (), { t with materials := t.materials.map (fun e => (e.1, e.2.clean.2)) }) := by
    unfold TTape.clean; rw [forEach_ok _ _ hok]
  rw [hc]
  refine ⟨rfl, rfl, by simp [TTape.materialNumbers, SMap.keys, Function.comp_def], ?_, ?_⟩
  · simp only [TTape.materials', SMap.values, List.map_map, Function.comp_def]
    have : t.materials.map (fun x => x.2.clean.2) = (t.materials.map (·.2)).map (fun s => s.clean.2) := by simp
    rw [this]
    refine all2_map fun f hf => ?_
    obtain ⟨h1, h2, h3, h4, h5, _⟩ := C16_material f (h f hf)
    exact ⟨h2, h3, h4⟩
  · unfold TTape.clean
    rw [forEach_ok]
    · simp only [List.map_map, Function.comp_def]
      congr 2
      apply List.map_congr_left
      intro e he
      rw [(C16_material e.2 (h e.2 (List.mem_map.mpr ⟨e, he, rfl⟩))).2.2.2.2.1]
    · intro s hs
      simp only [SMap.values, List.map_map, List.mem_map, Function.comp] at hs
      obtain ⟨e, he, rfl⟩ := hs
      rw [(C16_material e.2 (h e.2 (List.mem_map.mpr ⟨e, he, rfl⟩))).2.2.2.2.1]

/-! ### C17 -/

/-- C17 is false: if a line (not the last one) does not carry the numbers of the section, `clean` throws, and what is left of the content are the
    normalised lines before the offending one; the offending line and everything after it is lost. -/
theorem C17_clean_loses_content (s : TSection) (good more : List Text) (bad : Text) (h : s.content = unlines (good ++ bad :: more))
    (hgood : ∀ l ∈ good, TextLine ⟨s.mat, s.mf, s.mt⟩ l) (hnl : '\n' ∉ bad) (hbad : ¬ TextLine ⟨s.mat, s.mf, s.mt⟩ bad)
    (hmore : ∀ l ∈ more, '\n' ∉ l) (hne : more ≠ []) (hfew : (good ++ bad :: more).length < 2 ^ 31)
    (hfit : (⟨s.mat, s.mf, s.mt⟩ : Nums).Fit) :
    s.clean = (.error .exc, { s with content := unlines (good.map (cleanLine ⟨s.mat, s.mf, s.mt⟩)) }) := by
  obtain ⟨ms, z, rfl⟩ : ∃ ms z, more = ms ++ [z] := ⟨more.dropLast, more.getLast hne, (List.dropLast_concat_getLast hne).symm⟩
  have hall : ∀ l ∈ good ++ bad :: ms, '\n' ∉ l := by
    intro l hl
    rcases List.mem_append.mp hl with hl | hl
    · exact (hgood l hl).1
    · rcases List.mem_cons.mp hl with rfl | hl
      · exact hnl
      · exact hmore l (by simp [hl])
  simp only [List.length_append, List.length_cons, List.length_nil] at hfew
  have hnc : s.nc = (good ++ bad :: ms).length := nc_unlines (last := z) (by rw [h]; simp) hall (hmore z (by simp)) (by simp; omega)
  unfold TSection.clean
  rw [hnc, toInt32_small (by simp; omega), Int.toNat_natCast, h, unlines_append]
  have e : (good ++ bad :: ms).length = good.length + (ms.length + 1) := by simp
  rw [e, cleanLoop_run hfit good _ 0 [] hgood, TSection.cleanLoop, unlines_cons, readText_bad _ hnl hbad]
  simp

/-- C17, what is left of it: whatever happens, MAT, MF and MT of the section are kept.  Missing (false, `C17_clean_loses_content`): the content. -/
theorem C17_numbers_kept_partial (s : TSection) : s.clean.2.mat = s.mat ∧ s.clean.2.mf = s.mf ∧ s.clean.2.mt = s.mt := by
  unfold TSection.clean
  split
  · exact ⟨rfl, rfl, rfl⟩
  · split <;> exact ⟨rfl, rfl, rfl⟩

/-! ### C18 -/

/-- C18: a section found in a tree constructed from a buffer is lines of the buffer, the last of which is the one with MT = 0, and `NC()` is the
    number of lines before it. -/
theorem C18_nc (b : Text) (line : Int) (t : TTape) (h : TTape.ofBuffer b line = .ok t) (mat : Int) (ms : List TMaterial)
    (hms : t.material mat = .ok ms) (m : TMaterial) (hm : m ∈ ms) (mf mt : Int) (s : TSection) (hs : m.section' mf mt = .ok s) :
    ∃ ls send, s.content = unlines (ls ++ [send]) ∧ (∀ l ∈ ls, '\n' ∉ l ∧ ∃ t, HasTail t l ∧ t.mt ≠ 0) ∧
      ('\n' ∉ send ∧ ∃ t, HasTail t send ∧ t.mt = 0) ∧ (ls.length < 2 ^ 32 → s.nc = ls.length) := by
  obtain ⟨st, hst⟩ := run_of_ofBuffer h
  have := readTTape_inv ⟨b, line⟩
  rw [hst] at this
  obtain ⟨L, g, v1, v2, v3, v4⟩ := this
  simp only at v4
  obtain ⟨b1, b2⟩ := SMap.buildMulti MatL.mat MatL.tree L.mats
  have b2' : ∀ k, SMap.getAll L.tree.materials k = (L.mats.filter (fun M => M.mat == k)).map MatL.tree := b2
  rw [v4, TTape.material_eq, b2'] at hms
  split at hms
  · cases hms
  cases hms
  obtain ⟨M, hM, rfl⟩ := List.mem_map.mp hm
  obtain ⟨hM1, hM2⟩ := List.mem_filter.mp hM
  have hMv := v1.2.1 M hM1
  unfold TMaterial.section' at hs
  split at hs
  · rename_i f hf
    obtain ⟨F, hF, rfl, rfl⟩ := ((SMap.build FileL.mf FileL.tree hMv.2.1).2 _ _).mp (SMap.at'_ok.mp hf)
    obtain ⟨hF1, hF2⟩ := hMv.1 F hF
    obtain ⟨S, hS, rfl, rfl⟩ := ((SMap.build (fun S : SecL => S.nums.mt) SecL.tree hF1.2.1).2 _ _).mp (SMap.at'_ok.mp hs)
    obtain ⟨⟨w1, w2, w3, w4⟩, x2, ⟨t3, x3, x4⟩, x5⟩ := (hF1.1 S hS).1
    have hls : ∀ l ∈ S.head.text :: S.body, '\n' ∉ l ∧ ∃ t, HasTail t l ∧ t.mt ≠ 0 := by
      intro l hl
      rcases List.mem_cons.mp hl with rfl | hl
      · exact ⟨w1.1.1, _, w1.1.2.1, w4⟩
      · obtain ⟨t, y1, y2⟩ := x2 l hl
        exact ⟨y1.1, t, y1.2.1, y2⟩
    refine ⟨S.head.text :: S.body, S.send, rfl, hls, ⟨x3.1, t3, x3.2.1, x4⟩, fun hfew => ?_⟩
    exact nc_unlines rfl (fun l hl => (hls l hl).1) x3.1 hfew
  · cases hs

/-- The first line that does not satisfy a predicate. -/
theorem first_bad {α : Type} (P : α → Prop) (l : List α) (h : ¬ ∀ x ∈ l, P x) : ∃ a x b, l = a ++ x :: b ∧ (∀ y ∈ a, P y) ∧ ¬ P x := by
  induction l with
  | nil => exact absurd (by simp) h
  | cons x l ih =>
    by_cases hx : P x
    · obtain ⟨a, y, b, h1, h2, h3⟩ := ih (fun h' => h (by
        intro z hz
        rcases List.mem_cons.mp hz with rfl | hz
        · exact hx
        · exact h' z hz))
      refine ⟨x :: a, y, b, by rw [h1]; rfl, ?_, h3⟩
      intro z hz
      rcases List.mem_cons.mp hz with rfl | hz
      · exact hx
      · exact h2 z hz
    · exact ⟨[], x, l, rfl, by simp, hx⟩

/-- C18: `clean` does not change `NC()`: a section of at least two lines whose first line carries its numbers (true for every section from a
    buffer), if `clean` succeeds. -/
theorem C18_clean (s : TSection) (head : Text) (body : List Text) (last : Text) (h : s.content = unlines (head :: body ++ [last]))
    (hhead : TextLine ⟨s.mat, s.mf, s.mt⟩ head) (hbody : ∀ l ∈ body, '\n' ∉ l) (hlast : '\n' ∉ last)
    (hfew : body.length + 2 < 2 ^ 31) (hok : s.clean.1 = .ok ()) : s.clean.2.nc = s.nc := by
  have hall : ∀ l ∈ head :: body, TextLine ⟨s.mat, s.mf, s.mt⟩ l := by
    apply Classical.byContradiction
    intro hne
    obtain ⟨a, x, b, e, ha, hx⟩ := first_bad _ _ hne
    have hnl : ∀ l ∈ head :: body, '\n' ∉ l := by
      intro l hl
      rcases List.mem_cons.mp hl with rfl | hl
      · exact hhead.1
      · exact hbody l hl
    have := C17_clean_loses_content s a (b ++ [last]) x (by rw [h, e]; simp) ha (hnl x (by rw [e]; simp)) hx (by
      intro l hl
      rcases List.mem_append.mp hl with hl | hl
      · exact hnl l (by rw [e]; simp [hl])
      · simp at hl; rw [hl]; exact hlast) (by simp) (by
        have := congrArg List.length e
        simp only [List.length_append, List.length_cons, List.length_nil] at this ⊢
        omega) hhead.fit
    rw [this] at hok
    cases hok
  by_cases hm : 1 ≤ s.mat ∧ 1 ≤ s.mf
  · obtain ⟨s', h1, _, h2⟩ := C16_section s ⟨head :: body, last, h, by simp, hall, hlast, hm.1, hm.2, by simp; omega⟩
    rw [h1]; exact h2
  · exfalso
    have hS : SEND s.mat s.mf = .error .exc := by
      unfold SEND
      split
      · rfl
      · rw [if_pos (by omega)]
    unfold TSection.clean at hok
    rw [hS] at hok
    split at hok
    · cases hok
    · cases hok

end ENDFtk.Props

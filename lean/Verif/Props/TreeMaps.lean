import Verif.Tree.IndexLemmas
import Verif.Props.TreeRead
/-
  C10-C13: the modifying member functions of tree::File, tree::Material and tree::Tape against abstract maps, over all histories of calls.
-/
set_option linter.unusedVariables false
set_option linter.unusedSectionVars false
set_option linter.unusedSimpArgs false
namespace ENDFtk.Props
open ENDFtk
variable [Disco]

/-! ### specification: abstract maps -/

/-- A finite map from MT to section. -/
abbrev FMap := Int → Option TSection
/-- A map with one entry changed. -/
def upd {α : Type} (m : Int → α) (k : Int) (v : α) : Int → α := fun k' => if k' = k then v else m k'

/-- Calls on a file. -/
inductive FileOp
  | insert (s : TSection)
  | insertOrReplace (s : TSection)
  | remove (mt : Int)

/-- What a call does to the abstract map of a file with these MAT and MF: outcome and new map. -/
def FileOp.spec (mat mf : Int) (m : FMap) : FileOp → Except Err Unit × FMap
  | .insert s =>
      if (m s.mt).isSome ∨ s.mat ≠ mat ∨ s.mf ≠ mf then (.error .exc, m) else (.ok (), upd m s.mt (some s))
  | .insertOrReplace s =>
      if s.mat ≠ mat ∨ s.mf ≠ mf then (.error .exc, m) else (.ok (), upd m s.mt (some s))
  | .remove mt => (.ok (), upd m mt none)

/-- The call itself. -/
def FileOp.run (f : TFile) : FileOp → Except Err Unit × TFile
  | .insert s => f.insert s
  | .insertOrReplace s => f.insertOrReplace s
  | .remove mt => (.ok (), f.remove mt)

/-- A history of calls: the outcomes and the final state. -/
def history {Op S : Type} (step : S → Op → Except Err Unit × S) : S → List Op → List (Except Err Unit) × S
  | s, [] => ([], s)
  | s, op :: ops =>
      let (r, s') := step s op
      let (rs, s'') := history step s' ops
      (r :: rs, s'')

/-- All observations of a file agree with the abstract map. -/
def FileAgrees (mat mf : Int) (m : FMap) (f : TFile) : Prop :=
  f.mat = mat ∧ f.mf = mf ∧
  (∀ k, f.hasMT k = (m k).isSome) ∧
  (∀ k, f.section' k = match m k with | some s => .ok s | none => .error .outOfRange) ∧
  f.sectionNumbers.Pairwise (· < ·) ∧ (∀ k, k ∈ f.sectionNumbers ↔ (m k).isSome = true) ∧
  f.size = f.sectionNumbers.length ∧ f.sections'.map some = f.sectionNumbers.map m

/-! ### tree::File -/

theorem fileAgrees_iff {mat mf : Int} {m : FMap} {f : TFile} :
    FileAgrees mat mf m f ↔ f.mat = mat ∧ f.mf = mf ∧ f.sections.Sorted ∧ ∀ k, f.sections.get? k = m k := by
  constructor
  · rintro ⟨h1, h2, h3, h4, h5, h6, h7, h8⟩
    refine ⟨h1, h2, SMap.sorted_iff_keys.mpr h5, fun k => ?_⟩
    have := h4 k
    unfold TFile.section' SMap.at' at this
    cases hm : m k with
    | none =>
      rw [hm] at this
      cases hg : f.sections.get? k with
      | none => rfl
      | some v => rw [hg] at this; simp at this
    | some s =>
      rw [hm] at this
      cases hg : f.sections.get? k with
      | none => rw [hg] at this; simp at this
      | some v => rw [hg] at this; simpa using this
  · rintro ⟨h1, h2, h3, h4⟩
    refine ⟨h1, h2, ?_, ?_, SMap.sorted_iff_keys.mp h3, ?_, ?_, ?_⟩
    · intro k; rw [TFile.hasMT, SMap.has_eq_isSome, h4]
    · intro k
      unfold TFile.section' SMap.at'
      rw [h4]; cases m k <;> rfl
    · intro k
      show k ∈ SMap.keys _ ↔ _
      rw [← SMap.has_iff_keys, SMap.has_eq_isSome, h4]
    · simp [TFile.size, TFile.sectionNumbers, SMap.keys]
    · simp only [TFile.sections', TFile.sectionNumbers, SMap.values, SMap.keys, List.map_map]
      apply List.map_congr_left
      intro e he
      simp only [Function.comp]
      rw [← h4, SMap.get?_of_mem h3 (k := e.1) (v := e.2) he]

theorem insertOrReplace_ok {f : TFile} {s : TSection} (hs : f.sections.Sorted) (h : f.mat = s.mat ∧ f.mf = s.mf) :
    f.insertOrReplace s = (.ok (), { f with sections := (f.sections.erase s.mt).emplace s.mt s }) ∧
    ((f.sections.erase s.mt).emplace s.mt s).Sorted ∧
    ∀ k, ((f.sections.erase s.mt).emplace s.mt s).get? k = upd (f.sections.get? ·) s.mt (some s) k := by
  refine ⟨?_, SMap.emplace_sorted (SMap.erase_sorted hs _) _ _, ?_⟩
  · unfold TFile.insertOrReplace TFile.remove
    rw [if_neg (by simp [h])]
  · intro k
    rw [SMap.get?_emplace (SMap.erase_sorted hs _), SMap.has_erase, SMap.get?_erase]
    simp only [bne_self_eq_false, Bool.and_false, and_true, upd]
    by_cases hk : s.mt = k
    · simp [hk]
    · rw [if_neg hk, if_neg hk, if_neg (by omega)]

theorem file_step {mat mf : Int} {m : FMap} {f : TFile} (h : FileAgrees mat mf m f) (op : FileOp) :
    (op.run f).1 = (op.spec mat mf m).1 ∧ FileAgrees mat mf (op.spec mat mf m).2 (op.run f).2 := by
  obtain ⟨h1, h2, h3, h4⟩ := fileAgrees_iff.mp h
  have hir : ∀ s : TSection, (f.insertOrReplace s).1 = (FileOp.spec mat mf m (.insertOrReplace s)).1 ∧
      FileAgrees mat mf (FileOp.spec mat mf m (.insertOrReplace s)).2 (f.insertOrReplace s).2 := by
    intro s
    by_cases hc : s.mat ≠ mat ∨ s.mf ≠ mf
    · have : f.insertOrReplace s = (.error .exc, f) := by
        unfold TFile.insertOrReplace
        rw [if_pos]
        rcases hc with hc | hc
        · left; rw [h1]; exact Ne.symm hc
        · right; rw [h2]; exact Ne.symm hc
      rw [this]
      simp only [FileOp.spec, if_pos hc]
      exact ⟨trivial, h⟩
    · have hc' : f.mat = s.mat ∧ f.mf = s.mf := by
        simp only [not_or, ne_eq, Decidable.not_not] at hc
        exact ⟨by rw [h1, hc.1], by rw [h2, hc.2]⟩
      obtain ⟨e1, e2, e3⟩ := insertOrReplace_ok h3 hc'
      rw [e1]
      simp only [FileOp.spec, if_neg hc]
      refine ⟨trivial, fileAgrees_iff.mpr ⟨h1, h2, e2, fun k => ?_⟩⟩
      rw [e3]
      simp only [upd, h4]
  cases op with
  | insert s =>
    simp only [FileOp.run]
    by_cases hm : (m s.mt).isSome = true
    · have : f.insert s = (.error .exc, f) := by
        unfold TFile.insert TFile.hasMT
        rw [if_pos (by rw [SMap.has_eq_isSome, h4]; exact hm)]
      rw [this]
      simp only [FileOp.spec, if_pos (Or.inl hm)]
      exact ⟨trivial, h⟩
    · have : f.insert s = f.insertOrReplace s := by
        unfold TFile.insert TFile.hasMT
        rw [if_neg (by rw [SMap.has_eq_isSome, h4]; exact hm)]
      rw [this]
      have hspec : FileOp.spec mat mf m (.insert s) = FileOp.spec mat mf m (.insertOrReplace s) := by
        simp only [FileOp.spec, hm, false_or, Bool.false_eq_true]
      rw [hspec]
      exact hir s
  | insertOrReplace s => exact hir s
  | remove mt =>
    refine ⟨rfl, fileAgrees_iff.mpr ⟨h1, h2, SMap.erase_sorted h3 _, fun k => ?_⟩⟩
    show SMap.get? (f.sections.erase mt) k = _
    rw [SMap.get?_erase, h4]
    simp only [FileOp.spec, upd]
    by_cases hk : mt = k
    · simp [hk]
    · rw [if_neg hk, if_neg (by omega)]

/-- C10: after any history of calls (throwing ones included) the file agrees with the abstract map after the same history, and every call had the
    outcome the abstract map predicts. -/
theorem C10_file_map (mat mf : Int) (m : FMap) (f : TFile) (h : FileAgrees mat mf m f) (ops : List FileOp) :
    (history FileOp.run f ops).1 = (history (FileOp.spec mat mf) m ops).1 ∧
    FileAgrees mat mf (history (FileOp.spec mat mf) m ops).2 (history FileOp.run f ops).2 := by
  induction ops generalizing m f with
  | nil => exact ⟨rfl, h⟩
  | cons op ops ih =>
    obtain ⟨h1, h2⟩ := file_step h op
    obtain ⟨i1, i2⟩ := ih _ _ h2
    simp only [history]
    exact ⟨by rw [h1, i1], i2⟩

/-- C10: the history may start from an empty file. -/
theorem C10_empty (mat mf : Int) : FileAgrees mat mf (fun _ => none) (TFile.empty mat mf) :=
  fileAgrees_iff.mpr ⟨rfl, rfl, SMap.Sorted.nil, fun _ => rfl⟩

/-- The abstract map of a material: MF -> (MT -> section). -/
abbrev MMap := Int → Option FMap

/-- Calls on a material. -/
inductive MatOp
  | insertSection (s : TSection)
  | insertOrReplaceSection (s : TSection)
  | insertFile (f : TFile)
  | insertOrReplaceFile (f : TFile)
  | remove (mf : Int)
  | removeSection (mf mt : Int)

/-- The sections of a file as abstract map. -/
def absFile (f : TFile) : FMap := fun k =>
  match f.section' k with
  | .ok s => some s
  | .error _ => none

/-- What a call does to the abstract map of a material.  NB a section with another MAT is refused, but an empty file for its MF is made first
    (C13 fails here). -/
def MatOp.spec (mat : Int) (m : MMap) : MatOp → Except Err Unit × MMap
  | .insertSection s =>
      let sub := (m s.mf).getD (fun _ => none)
      if (sub s.mt).isSome ∨ s.mat ≠ mat then (.error .exc, upd m s.mf (some sub))
      else (.ok (), upd m s.mf (some (upd sub s.mt (some s))))
  | .insertOrReplaceSection s =>
      let sub := (m s.mf).getD (fun _ => none)
      if s.mat ≠ mat then (.error .exc, upd m s.mf (some sub))
      else (.ok (), upd m s.mf (some (upd sub s.mt (some s))))
  | .insertFile f =>
      if (m f.mf).isSome ∨ f.mat ≠ mat then (.error .exc, m) else (.ok (), upd m f.mf (some (absFile f)))
  | .insertOrReplaceFile f =>
      if f.mat ≠ mat then (.error .exc, m) else (.ok (), upd m f.mf (some (absFile f)))
  | .remove mf => (.ok (), upd m mf none)
  | .removeSection mf mt => (.ok (), upd m mf ((m mf).map (fun sub => upd sub mt none)))

/-- The call itself. -/
def MatOp.run (m : TMaterial) : MatOp → Except Err Unit × TMaterial
  | .insertSection s => m.insertSection s
  | .insertOrReplaceSection s => m.insertOrReplaceSection s
  | .insertFile f => m.insertFile f
  | .insertOrReplaceFile f => m.insertOrReplaceFile f
  | .remove mf => (.ok (), m.remove mf)
  | .removeSection mf mt => (.ok (), m.removeSection mf mt)

/-- The file handed to a call is one that a `std::map` can hold. -/
def MatOp.Ok : MatOp → Prop
  | .insertFile f => f.sectionNumbers.Pairwise (· < ·)
  | .insertOrReplaceFile f => f.sectionNumbers.Pairwise (· < ·)
  | _ => True

/-- All observations of a material agree with the abstract map. -/
def MatAgrees (mat : Int) (m : MMap) (t : TMaterial) : Prop :=
  t.mat = mat ∧ t.fileNumbers.Pairwise (· < ·) ∧ t.size = t.fileNumbers.length ∧
  (∀ k, k ∈ t.fileNumbers ↔ (m k).isSome = true) ∧ (∀ k, t.hasMF k = (m k).isSome) ∧
  (∀ k, match m k with
    | some sub => ∃ f, t.file k = .ok f ∧ FileAgrees mat k sub f
    | none => t.file k = .error .outOfRange) ∧
  (∀ k l, t.section' k l = match (m k).bind (· l) with | some s => .ok s | none => .error .outOfRange) ∧
  (∀ k l, t.hasMFMT k l = ((m k).bind (· l)).isSome)

theorem absFile_eq (f : TFile) : absFile f = fun k => f.sections.get? k := by
  funext k
  unfold absFile TFile.section' SMap.at'
  cases f.sections.get? k <;> rfl

theorem matAgrees_iff {mat : Int} {m : MMap} {t : TMaterial} :
    MatAgrees mat m t ↔ t.mat = mat ∧ t.files.Sorted ∧
      ∀ k, match m k with
        | some sub => ∃ f, t.files.get? k = some f ∧ FileAgrees mat k sub f
        | none => t.files.get? k = none := by
  constructor
  · rintro ⟨h1, h2, h3, h4, h5, h6, h7, h8⟩
    refine ⟨h1, SMap.sorted_iff_keys.mpr h2, fun k => ?_⟩
    have := h6 k
    cases hm : m k with
    | none => rw [hm] at this; exact SMap.at'_error.mp this
    | some sub =>
      rw [hm] at this
      obtain ⟨f, hf, ha⟩ := this
      exact ⟨f, SMap.at'_ok.mp hf, ha⟩
  · rintro ⟨h1, h2, h3⟩
    have hsome : ∀ k, (t.files.get? k).isSome = (m k).isSome := by
      intro k
      have := h3 k
      cases hm : m k with
      | none => rw [hm] at this; have this : t.files.get? k = none := this; rw [this]; rfl
      | some sub => rw [hm] at this; obtain ⟨f, hf, _⟩ := this; rw [hf]; rfl
    have hsec : ∀ k l, t.section' k l = match (m k).bind (· l) with | some s => .ok s | none => .error .outOfRange := by
      intro k l
      have := h3 k
      cases hm : m k with
      | none =>
        rw [hm] at this
        simp [TMaterial.section', TMaterial.file, SMap.at', this]
      | some sub =>
        rw [hm] at this
        obtain ⟨f, hf, ha⟩ := this
        have := ha.2.2.2.1 l
        simp only [TMaterial.section', TMaterial.file, SMap.at', hf, Option.bind_some]
        exact this
    refine ⟨h1, SMap.sorted_iff_keys.mp h2, by simp [TMaterial.size, TMaterial.fileNumbers, SMap.keys], ?_, ?_, ?_, hsec, ?_⟩
    · intro k
      show k ∈ SMap.keys _ ↔ _
      rw [← SMap.has_iff_keys, SMap.has_eq_isSome, hsome]
    · intro k; rw [TMaterial.hasMF, SMap.has_eq_isSome, hsome]
    · intro k
      have := h3 k
      cases hm : m k with
      | none => rw [hm] at this; exact SMap.at'_error.mpr this
      | some sub =>
        rw [hm] at this
        obtain ⟨f, hf, ha⟩ := this
        exact ⟨f, SMap.at'_ok.mpr hf, ha⟩
    · intro k l
      have := h3 k
      unfold TMaterial.hasMFMT TMaterial.hasMF
      rw [SMap.has_eq_isSome, hsome]
      cases hm : m k with
      | none => simp
      | some sub =>
        rw [hm] at this
        obtain ⟨f, hf, ha⟩ := this
        simp only [Option.isSome_some, if_true, Option.bind_some, TMaterial.file, SMap.at'_ok.mpr hf]
        exact ha.2.2.1 l

/-- A call on the file of a section. -/
theorem onFile_step {mat : Int} {m : MMap} {t : TMaterial} (h : MatAgrees mat m t) (mf : Int) (op : FileOp) :
    let sub := (m mf).getD (fun _ => none)
    let r := (t.ensureMF mf).onFile mf (fun f => op.run f)
    r.1 = (op.spec mat mf sub).1 ∧ MatAgrees mat (upd m mf (some (op.spec mat mf sub).2)) r.2 := by
  intro sub r
  obtain ⟨h1, h2, h3⟩ := matAgrees_iff.mp h
  -- the material with the file present
  have hens : ∃ f, (t.ensureMF mf).files.get? mf = some f ∧ FileAgrees mat mf sub f ∧ (t.ensureMF mf).files.Sorted ∧
      (t.ensureMF mf).mat = mat ∧ ∀ k, k ≠ mf → (t.ensureMF mf).files.get? k = t.files.get? k := by
    have h3' := h3 mf
    unfold TMaterial.ensureMF TMaterial.hasMF
    rw [SMap.has_eq_isSome]
    cases hm : m mf with
    | some s =>
      rw [hm] at h3'
      obtain ⟨f, hf, ha⟩ := h3'
      rw [if_pos (by rw [hf]; rfl)]
      exact ⟨f, hf, by simpa [sub, hm] using ha, h2, h1, fun k _ => rfl⟩
    | none =>
      rw [hm] at h3'
      have h3' : t.files.get? mf = none := h3'
      rw [if_neg (by rw [h3']; simp)]
      refine ⟨TFile.empty t.mat mf, ?_, ?_, SMap.emplace_sorted h2 _ _, h1, ?_⟩
      · rw [SMap.get?_emplace h2, if_pos ⟨rfl, by rw [SMap.has_eq_isSome, h3']; rfl⟩]
      · simp only [sub, hm, Option.getD_none, h1]
        exact C10_empty mat mf
      · intro k hk
        rw [SMap.get?_emplace h2, if_neg (by rintro ⟨rfl, _⟩; exact hk rfl)]
  obtain ⟨f, e1, e2, e3, e4, e5⟩ := hens
  obtain ⟨s1, s2⟩ := file_step e2 op
  have hr : r = ((op.run f).1, { t.ensureMF mf with files := (t.ensureMF mf).files.modify mf (fun _ => (op.run f).2) }) := by
    simp only [r, TMaterial.onFile, TMaterial.file, SMap.at'_ok.mpr e1]
  rw [hr]
  refine ⟨s1, matAgrees_iff.mpr ⟨e4, SMap.modify_sorted e3 mf (fun _ => (op.run f).2), fun k => ?_⟩⟩
  simp only [SMap.get?_modify, upd]
  by_cases hk : k = mf
  · subst hk
    simp only [if_true, e1, Option.map_some]
    exact ⟨_, rfl, s2⟩
  · rw [if_neg hk, if_neg (fun h => hk h.symm), e5 k hk]
    exact h3 k

theorem mat_step {mat : Int} {m : MMap} {t : TMaterial} (h : MatAgrees mat m t) (op : MatOp) (hop : op.Ok) :
    (op.run t).1 = (op.spec mat m).1 ∧ MatAgrees mat (op.spec mat m).2 (op.run t).2 := by
  obtain ⟨h1, h2, h3⟩ := matAgrees_iff.mp h
  have hsome : ∀ k, (t.files.get? k).isSome = (m k).isSome := by
    intro k
    have := h3 k
    cases hm : m k with
    | none => rw [hm] at this; have this : t.files.get? k = none := this; rw [this]; rfl
    | some sub => rw [hm] at this; obtain ⟨f, hf, _⟩ := this; rw [hf]; rfl
  have hfile : ∀ f : TFile, f.sectionNumbers.Pairwise (· < ·) → (t.insertOrReplaceFile f).1 = (MatOp.spec mat m (.insertOrReplaceFile f)).1 ∧
      MatAgrees mat (MatOp.spec mat m (.insertOrReplaceFile f)).2 (t.insertOrReplaceFile f).2 := by
    intro f hf
    unfold TMaterial.insertOrReplaceFile
    simp only [MatOp.spec]
    rw [h1]
    by_cases hc : f.mat = mat
    · rw [if_neg (by simp [hc]), if_neg (by simp [hc])]
      refine ⟨rfl, matAgrees_iff.mpr ⟨rfl, SMap.emplace_sorted (SMap.erase_sorted h2 _) _ _, fun k => ?_⟩⟩
      show match upd m f.mf (some (absFile f)) k with
        | some sub => ∃ g, SMap.get? ((SMap.erase t.files f.mf).emplace f.mf f) k = some g ∧ FileAgrees mat k sub g
        | none => SMap.get? ((SMap.erase t.files f.mf).emplace f.mf f) k = none
      rw [SMap.get?_emplace (SMap.erase_sorted h2 _), SMap.has_erase, SMap.get?_erase]
      simp only [bne_self_eq_false, Bool.and_false, and_true, upd]
      by_cases hk : k = f.mf
      · subst hk
        simp only [if_true]
        refine ⟨f, rfl, fileAgrees_iff.mpr ⟨hc, rfl, SMap.sorted_iff_keys.mpr hf, ?_⟩⟩
        intro j; rw [absFile_eq]
      · rw [if_neg hk, if_neg (fun h => hk h.symm), if_neg (fun h => hk h.symm)]
        exact h3 k
    · rw [if_pos (by simpa using Ne.symm hc), if_pos hc]
      exact ⟨rfl, h⟩
  cases op with
  | insertSection s =>
    obtain ⟨s1, s2⟩ := onFile_step h s.mf (.insert s)
    have : MatOp.run t (.insertSection s) = (t.ensureMF s.mf).onFile s.mf (fun f => FileOp.run f (.insert s)) := rfl
    rw [this]
    simp only [MatOp.spec]
    simp only [FileOp.spec, ne_eq, not_true_eq_false, or_false] at s1 s2
    split
    · rename_i hc
      rw [if_pos hc] at s1 s2
      exact ⟨s1, s2⟩
    · rename_i hc
      rw [if_neg hc] at s1 s2
      exact ⟨s1, s2⟩
  | insertOrReplaceSection s =>
    obtain ⟨s1, s2⟩ := onFile_step h s.mf (.insertOrReplace s)
    have : MatOp.run t (.insertOrReplaceSection s) = (t.ensureMF s.mf).onFile s.mf (fun f => FileOp.run f (.insertOrReplace s)) := rfl
    rw [this]
    simp only [MatOp.spec]
    simp only [FileOp.spec, ne_eq, not_true_eq_false, or_false] at s1 s2
    split
    · rename_i hc
      rw [if_pos hc] at s1 s2
      exact ⟨s1, s2⟩
    · rename_i hc
      rw [if_neg hc] at s1 s2
      exact ⟨s1, s2⟩
  | insertFile f =>
    simp only [MatOp.run, TMaterial.insertFile]
    have hcond : t.hasMF f.mf = (m f.mf).isSome := by unfold TMaterial.hasMF; rw [SMap.has_eq_isSome, hsome]
    by_cases hm : (m f.mf).isSome = true
    · rw [if_pos (hcond.trans hm)]
      simp only [MatOp.spec, if_pos (Or.inl hm)]
      exact ⟨trivial, h⟩
    · rw [if_neg (by rw [hcond]; exact hm)]
      have hspec : MatOp.spec mat m (.insertFile f) = MatOp.spec mat m (.insertOrReplaceFile f) := by
        simp only [MatOp.spec, hm, false_or, Bool.false_eq_true]
      rw [hspec]
      exact hfile f hop
  | insertOrReplaceFile f => exact hfile f hop
  | remove mf =>
    refine ⟨rfl, matAgrees_iff.mpr ⟨h1, SMap.erase_sorted h2 _, fun k => ?_⟩⟩
    show match upd m mf none k with
      | some sub => ∃ f, SMap.get? (SMap.erase t.files mf) k = some f ∧ FileAgrees mat k sub f
      | none => SMap.get? (SMap.erase t.files mf) k = none
    rw [SMap.get?_erase]
    simp only [upd]
    by_cases hk : k = mf
    · subst hk; simp
    · rw [if_neg hk, if_neg (fun h => hk h.symm)]
      exact h3 k
  | removeSection mf mt =>
    refine ⟨rfl, matAgrees_iff.mpr ⟨h1, SMap.modify_sorted h2 mf (fun f => f.remove mt), fun k => ?_⟩⟩
    show match upd m mf ((m mf).map (fun sub => upd sub mt none)) k with
      | some sub => ∃ f, SMap.get? (SMap.modify t.files mf (fun f => f.remove mt)) k = some f ∧ FileAgrees mat k sub f
      | none => SMap.get? (SMap.modify t.files mf (fun f => f.remove mt)) k = none
    rw [SMap.get?_modify]
    simp only [upd]
    by_cases hk : k = mf
    · subst hk
      simp only [if_true]
      have := h3 k
      cases hm : m k with
      | none => rw [hm] at this; simp [this]
      | some sub =>
        rw [hm] at this
        obtain ⟨f, hf, ha⟩ := this
        simp only [Option.map_some, hf]
        exact ⟨_, rfl, (file_step ha (.remove mt)).2⟩
    · rw [if_neg hk, if_neg (fun h => hk h.symm)]
      exact h3 k

/-- C11: after any history of calls the material agrees with the abstract two level map after the same history, and every call had the predicted
    outcome. -/
theorem C11_material_map (mat : Int) (m : MMap) (t : TMaterial) (h : MatAgrees mat m t) (ops : List MatOp) (hops : ∀ op ∈ ops, op.Ok) :
    (history MatOp.run t ops).1 = (history (MatOp.spec mat) m ops).1 ∧
    MatAgrees mat (history (MatOp.spec mat) m ops).2 (history MatOp.run t ops).2 := by
  induction ops generalizing m t with
  | nil => exact ⟨rfl, h⟩
  | cons op ops ih =>
    obtain ⟨h1, h2⟩ := mat_step h op (hops op (by simp))
    obtain ⟨i1, i2⟩ := ih _ _ h2 (fun o ho => hops o (by simp [ho]))
    simp only [history]
    exact ⟨by rw [h1, i1], i2⟩

/-- C11: the history may start from an empty material. -/
theorem C11_empty (mat : Int) : MatAgrees mat (fun _ => none) (TMaterial.empty mat) :=
  matAgrees_iff.mpr ⟨rfl, SMap.Sorted.nil, fun k => rfl⟩

/-- C10, C11: histories may also start from what is found in a tree built from a buffer. -/
theorem C11_constructed (b : Text) (line : Int) (t : TTape) (h : TTape.ofBuffer b line = .ok t) (mat : Int) (ms : List TMaterial)
    (hms : t.material mat = .ok ms) : ∀ x ∈ ms, ∃ m : MMap, MatAgrees mat m x := by
  intro x hx
  obtain ⟨s, hs⟩ := run_of_ofBuffer h
  have := readTTape_inv ⟨b, line⟩
  rw [hs] at this
  obtain ⟨L, g, v1, v2, v3, v4⟩ := this
  simp only at v4
  obtain ⟨b1, b2⟩ := SMap.buildMulti MatL.mat MatL.tree L.mats
  have b2' : ∀ k, SMap.getAll L.tree.materials k = (L.mats.filter (fun M => M.mat == k)).map MatL.tree := b2
  rw [v4, TTape.material_eq, b2'] at hms
  split at hms
  · cases hms
  cases hms
  obtain ⟨M, hM, rfl⟩ := List.mem_map.mp hx
  obtain ⟨hM1, hM2⟩ := List.mem_filter.mp hM
  have hmat : M.mat = mat := by simpa using hM2
  have hMv := v1.2.1 M hM1
  obtain ⟨c1, c2⟩ := SMap.build FileL.mf FileL.tree hMv.2.1
  have c1' : M.tree.files.Sorted := c1
  have c2' : ∀ k v, M.tree.files.get? k = some v ↔ ∃ F ∈ M.files, F.mf = k ∧ F.tree = v := c2
  refine ⟨fun k => (M.tree.files.get? k).map absFile, matAgrees_iff.mpr ⟨hmat, c1', fun k => ?_⟩⟩
  cases hk : M.tree.files.get? k with
  | none => simp
  | some f =>
    simp only [Option.map_some]
    refine ⟨f, rfl, ?_⟩
    obtain ⟨F, hF, rfl, rfl⟩ := (c2' _ _).mp hk
    obtain ⟨hF1, hF2⟩ := hMv.1 F hF
    refine fileAgrees_iff.mpr ⟨by rw [← hmat, ← hF2]; rfl, rfl, (SMap.build (fun S : SecL => S.nums.mt) SecL.tree hF1.2.1).1, fun k => ?_⟩
    rw [absFile_eq]

/-! ### tree::Tape -/

/-- The abstract map of a tape: MAT -> materials in order of insertion. -/
abbrev TMap := Int → List TMaterial

/-- Calls on a tape. -/
inductive TapeOp
  | insert (m : TMaterial)
  | replace (m : TMaterial)
  | remove (mat : Int)

def TapeOp.spec (m : TMap) : TapeOp → Except Err Unit × TMap
  | .insert x => (.ok (), upd m x.mat (m x.mat ++ [x]))
  | .replace x => (.ok (), upd m x.mat [x])
  | .remove mat => (.ok (), upd m mat [])

def TapeOp.run (t : TTape) : TapeOp → Except Err Unit × TTape
  | .insert x => (.ok (), t.insert x)
  | .replace x => (.ok (), t.replace x)
  | .remove mat => (.ok (), t.remove mat)

/-- All observations of a tape agree with the abstract map. -/
def TapeAgrees (m : TMap) (t : TTape) : Prop :=
  (∀ k, t.numberMAT k = (m k).length) ∧ (∀ k, t.hasMAT k = !(m k).isEmpty) ∧
  (∀ k, t.material k = if m k = [] then .error .outOfRange else .ok (m k)) ∧
  t.materialNumbers.Pairwise (· < ·) ∧ (∀ k, k ∈ t.materialNumbers ↔ m k ≠ []) ∧
  t.materials' = t.materialNumbers.flatMap m ∧ t.size = (t.materialNumbers.map (fun k => (m k).length)).sum

theorem unique_mem (l : List Int) (k : Int) : k ∈ TTape.unique l ↔ k ∈ l := by
  induction l with
  | nil => simp [TTape.unique]
  | cons a l ih =>
    cases l with
    | nil => simp [TTape.unique]
    | cons b l =>
      simp only [TTape.unique]
      split
      · rename_i h; subst h; rw [ih]; simp
      · simp only [List.mem_cons] at ih ⊢; rw [ih]

theorem unique_sorted {l : List Int} (h : l.Pairwise (· ≤ ·)) : (TTape.unique l).Pairwise (· < ·) := by
  induction l with
  | nil => simp [TTape.unique]
  | cons a l ih =>
    cases l with
    | nil => simp [TTape.unique]
    | cons b l =>
      obtain ⟨h1, h2⟩ := List.pairwise_cons.mp h
      simp only [TTape.unique]
      split
      · exact ih h2
      · rename_i hne
        refine List.pairwise_cons.mpr ⟨?_, ih h2⟩
        intro x hx
        rw [unique_mem] at hx
        have hab := h1 b (by simp)
        rcases List.mem_cons.mp hx with rfl | hx
        · omega
        · have := (List.pairwise_cons.mp h2).1 x hx
          omega

theorem materialNumbers_eq (t : TTape) (h : t.materials.WSorted) : t.materialNumbers = TTape.unique t.materials.keys := by
  unfold TTape.materialNumbers
  rw [List.mergeSort_of_pairwise]
  rw [SMap.wsorted_iff_keys] at h
  exact h.imp (fun h => by simpa using h)

theorem values_unique {m : SMap TMaterial} (h : m.WSorted) :
    m.values = (TTape.unique m.keys).flatMap (fun k => SMap.getAll m k) ∧
    m.length = ((TTape.unique m.keys).map (fun k => (SMap.getAll m k).length)).sum := by
  induction m with
  | nil => simp [SMap.values, SMap.keys, TTape.unique]
  | cons a m ih =>
    obtain ⟨h1, h2⟩ := List.pairwise_cons.mp h
    obtain ⟨i1, i2⟩ := ih h2
    -- lookups of keys above the first are not affected by it
    have hother : ∀ k, k ≠ a.1 → SMap.getAll (a :: m) k = SMap.getAll m k := by
      intro k hk
      have : ¬ a.1 = k := fun h => hk h.symm
      simp [SMap.getAll, this]
    have hself : SMap.getAll (a :: m) a.1 = a.2 :: SMap.getAll m a.1 := by simp [SMap.getAll, SMap.values]
    have hflat : ∀ (ks : List Int), (∀ k ∈ ks, k ≠ a.1) →
        ks.flatMap (fun k => SMap.getAll (a :: m) k) = ks.flatMap (fun k => SMap.getAll m k) ∧
        (ks.map (fun k => (SMap.getAll (a :: m) k).length)).sum = (ks.map (fun k => (SMap.getAll m k).length)).sum := by
      intro ks
      induction ks with
      | nil => simp
      | cons k ks ih' =>
        intro hks
        obtain ⟨j1, j2⟩ := ih' (fun x hx => hks x (by simp [hx]))
        simp only [List.flatMap_cons, List.map_cons, List.sum_cons, hother k (hks k (by simp)), j1, j2]
        simp
    cases hm : m with
    | nil => simp [SMap.values, SMap.keys, TTape.unique, SMap.getAll]
    | cons b l =>
      rw [← hm]
      have hk : SMap.keys (a :: m) = a.1 :: SMap.keys m := rfl
      have hk2 : SMap.keys m = b.1 :: SMap.keys l := by rw [hm]; rfl
      have hun := unique_sorted (SMap.wsorted_iff_keys.mp h2)
      by_cases hab : a.1 = b.1
      · have hu : TTape.unique (SMap.keys (a :: m)) = TTape.unique (SMap.keys m) := by
          rw [hk, hk2, TTape.unique, if_pos hab]
        -- the first unique key is that of the first entry
        have hfirst : ∃ ks, TTape.unique (SMap.keys m) = a.1 :: ks ∧ ∀ k ∈ ks, k ≠ a.1 := by
          cases hu2 : TTape.unique (SMap.keys m) with
          | nil =>
            have : b.1 ∈ TTape.unique (SMap.keys m) := by rw [unique_mem, hk2]; simp
            rw [hu2] at this; simp at this
          | cons c ks =>
            have hun' : (c :: ks).Pairwise (· < ·) := hu2 ▸ hun
            have hc : c ∈ SMap.keys m := by rw [← unique_mem, hu2]; simp
            have hb : b.1 ∈ c :: ks := by rw [← hu2, unique_mem, hk2]; simp
            have hcb : c = a.1 := by
              have h3 : a.1 ≤ c := by
                obtain ⟨e, he, rfl⟩ := List.mem_map.mp hc
                exact h1 e he
              rcases List.mem_cons.mp hb with hb | hb
              · omega
              · have := (List.pairwise_cons.mp hun').1 _ hb; omega
            refine ⟨ks, by rw [hcb], fun k hk => ?_⟩
            have := (List.pairwise_cons.mp hun').1 k hk
            omega
        obtain ⟨ks, hks, hne⟩ := hfirst
        obtain ⟨f1, f2⟩ := hflat ks hne
        rw [hu, hks]
        simp only [List.flatMap_cons, List.map_cons, List.sum_cons, hself, f1, f2]
        rw [hks] at i1 i2
        simp only [List.flatMap_cons, List.map_cons, List.sum_cons] at i1 i2
        constructor
        · show a.2 :: SMap.values m = _
          rw [i1]; rfl
        · rw [List.length_cons, i2]; simp; omega
      · have hu : TTape.unique (SMap.keys (a :: m)) = a.1 :: TTape.unique (SMap.keys m) := by
          rw [hk, hk2, TTape.unique, if_neg hab]
        have hne : ∀ k ∈ TTape.unique (SMap.keys m), k ≠ a.1 := by
          intro k hk'
          rw [unique_mem] at hk'
          obtain ⟨e, he, rfl⟩ := List.mem_map.mp hk'
          have hab' := h1 b (by simp [hm])
          have hbe : b.1 ≤ e.1 := by
            rw [hm] at he h2
            rcases List.mem_cons.mp he with rfl | he
            · omega
            · exact (List.pairwise_cons.mp h2).1 e he
          omega
        have hnone : SMap.getAll m a.1 = [] := by
          apply SMap.getAll_of_has_false
          rw [← Bool.not_eq_true, SMap.has_iff_keys, ← unique_mem]
          intro hmem
          exact hne _ hmem rfl
        obtain ⟨f1, f2⟩ := hflat _ hne
        rw [hu]
        simp only [List.flatMap_cons, List.map_cons, List.sum_cons, hself, hnone, f1, f2]
        constructor
        · show a.2 :: SMap.values m = _
          rw [i1]; rfl
        · rw [List.length_cons, i2]; simp; omega

theorem tapeAgrees_iff {m : TMap} {t : TTape} (hs : t.materials.WSorted) : TapeAgrees m t ↔ ∀ k, SMap.getAll t.materials k = m k := by
  constructor
  · rintro ⟨h1, h2, h3, _⟩ k
    have h := h3 k
    rw [TTape.material_eq] at h
    by_cases hm : m k = []
    · rw [if_pos hm] at h
      split at h
      · rename_i h'; rw [h', hm]
      · cases h
    · rw [if_neg hm] at h
      split at h
      · cases h
      · exact Except.ok.inj h
  · intro h
    have hfun : (fun k => SMap.getAll t.materials k) = m := funext h
    obtain ⟨v1, v2⟩ := values_unique hs
    rw [hfun] at v1
    have v2' : t.materials.length = ((TTape.unique t.materials.keys).map (fun k => (m k).length)).sum := by
      rw [v2]; simp only [h]
    refine ⟨?_, ?_, ?_, ?_, ?_, ?_, ?_⟩
    · intro k; rw [TTape.numberMAT_eq, h]
    · intro k
      rw [TTape.hasMAT, TTape.numberMAT_eq, h]
      cases m k <;> simp
    · intro k; rw [TTape.material_eq, h]
    · rw [materialNumbers_eq t hs]; exact unique_sorted (SMap.wsorted_iff_keys.mp hs)
    · intro k
      rw [materialNumbers_eq t hs, unique_mem, ← SMap.has_iff_keys, SMap.has_eq_getAll, h]
      cases m k <;> simp
    · rw [materialNumbers_eq t hs]; exact v1
    · rw [materialNumbers_eq t hs]; exact v2'

/-- Tapes as `std::multimap` keeps them. -/
def TapeOrdered (t : TTape) : Prop := (t.materials.map (·.1)).Pairwise (· ≤ ·)

theorem tape_step {m : TMap} {t : TTape} (ho : TapeOrdered t) (h : TapeAgrees m t) (op : TapeOp) :
    TapeOrdered (op.run t).2 ∧ TapeAgrees (op.spec m).2 (op.run t).2 := by
  have hs : t.materials.WSorted := SMap.wsorted_iff_keys.mpr ho
  have hg := (tapeAgrees_iff hs).mp h
  cases op with
  | insert x =>
    have hs' : (t.insert x).materials.WSorted := SMap.emplaceMulti_wsorted hs _ _
    refine ⟨SMap.wsorted_iff_keys.mp hs', (tapeAgrees_iff hs').mpr fun k => ?_⟩
    show SMap.getAll (SMap.emplaceMulti x.mat x t.materials) k = _
    rw [SMap.getAll_emplaceMulti hs]
    simp only [TapeOp.spec, upd, hg]
    by_cases hk : k = x.mat
    · subst hk; simp
    · rw [if_neg (fun h => hk h.symm), if_neg hk]
  | replace x =>
    have hs' : (t.replace x).materials.WSorted := SMap.emplaceMulti_wsorted (SMap.erase_wsorted hs _) _ _
    refine ⟨SMap.wsorted_iff_keys.mp hs', (tapeAgrees_iff hs').mpr fun k => ?_⟩
    show SMap.getAll (SMap.emplaceMulti x.mat x (SMap.erase t.materials x.mat)) k = _
    rw [SMap.getAll_emplaceMulti (SMap.erase_wsorted hs _), SMap.getAll_erase]
    simp only [TapeOp.spec, upd, hg]
    by_cases hk : k = x.mat
    · subst hk; simp
    · simp only [if_neg (fun h : x.mat = k => hk h.symm), if_neg hk]
  | remove mat =>
    have hs' : (t.remove mat).materials.WSorted := SMap.erase_wsorted hs _
    refine ⟨SMap.wsorted_iff_keys.mp hs', (tapeAgrees_iff hs').mpr fun k => ?_⟩
    show SMap.getAll (SMap.erase t.materials mat) k = _
    rw [SMap.getAll_erase]
    simp only [TapeOp.spec, upd, hg]
    by_cases hk : k = mat
    · subst hk; simp
    · simp only [if_neg (fun h : mat = k => hk h.symm), if_neg hk]

/-- C12: after any history of calls the tape agrees with the abstract multimap after the same history. -/
theorem C12_tape_multimap (m : TMap) (t : TTape) (ho : TapeOrdered t) (h : TapeAgrees m t) (ops : List TapeOp) :
    TapeAgrees (history TapeOp.spec m ops).2 (history TapeOp.run t ops).2 ∧ TapeOrdered (history TapeOp.run t ops).2 := by
  induction ops generalizing m t with
  | nil => exact ⟨h, ho⟩
  | cons op ops ih =>
    obtain ⟨h1, h2⟩ := tape_step ho h op
    simp only [history]
    exact ih _ _ h1 h2

/-- C12: a history may start from an empty tape, -/
theorem C12_empty (id : Tpid) : TapeOrdered (TTape.empty id) ∧ TapeAgrees (fun _ => []) (TTape.empty id) :=
  ⟨by simp [TapeOrdered, TTape.empty], (tapeAgrees_iff SMap.WSorted.nil).mpr fun k => rfl⟩

/-- or from one constructed from a buffer. -/
theorem C12_constructed (b : Text) (line : Int) (t : TTape) (h : TTape.ofBuffer b line = .ok t) :
    TapeOrdered t ∧ ∃ m, TapeAgrees m t := by
  obtain ⟨s, hs⟩ := run_of_ofBuffer h
  have := readTTape_inv ⟨b, line⟩
  rw [hs] at this
  obtain ⟨L, g, v1, v2, v3, v4⟩ := this
  simp only at v4
  obtain ⟨b1, b2⟩ := SMap.buildMulti MatL.mat MatL.tree L.mats
  have b1' : L.tree.materials.WSorted := b1
  rw [v4]
  exact ⟨SMap.wsorted_iff_keys.mp b1', _, (tapeAgrees_iff b1').mpr fun k => rfl⟩

/-! ### failed calls -/

/-- C13 for files: a call that throws leaves the file as it was. -/
theorem C13_file (f : TFile) (s : TSection) (e : Err) :
    ((f.insert s).1 = .error e → (f.insert s).2 = f) ∧ ((f.insertOrReplace s).1 = .error e → (f.insertOrReplace s).2 = f) := by
  have h : (f.insertOrReplace s).1 = .error e → (f.insertOrReplace s).2 = f := by
    unfold TFile.insertOrReplace
    split <;> simp
  refine ⟨?_, h⟩
  unfold TFile.insert
  split
  · simp
  · exact h

/-- C13 for materials: a call with a file that throws leaves the material as it was. -/
theorem C13_material_file (m : TMaterial) (f : TFile) (e : Err) :
    ((m.insertFile f).1 = .error e → (m.insertFile f).2 = m) ∧
    ((m.insertOrReplaceFile f).1 = .error e → (m.insertOrReplaceFile f).2 = m) := by
  have h : (m.insertOrReplaceFile f).1 = .error e → (m.insertOrReplaceFile f).2 = m := by
    unfold TMaterial.insertOrReplaceFile
    split <;> simp
  refine ⟨?_, h⟩
  unfold TMaterial.insertFile
  split
  · simp
  · exact h

theorem modify_same {α : Type} {m : SMap α} (hs : m.Sorted) {k : Int} {v : α} (h : m.get? k = some v) : m.modify k (fun _ => v) = m := by
  apply SMap.Sorted.ext (SMap.modify_sorted hs _ _) hs
  intro k'
  rw [SMap.get?_modify]
  by_cases hk : k = k'
  · subst hk; simp [h]
  · simp [hk]

/-- C13 for a call with a section, if the material has the file or the section has the material's MAT: the material is as it was.
    Missing (`C13_material_section_wrong_mat`): a section with another MAT and a new MF leaves an empty file behind. -/
theorem C13_material_section_partial (mat : Int) (mm : MMap) (m : TMaterial) (hm : MatAgrees mat mm m) (s : TSection) (e : Err)
    (h : m.hasMF s.mf = true ∨ s.mat = m.mat) :
    ((m.insertSection s).1 = .error e → (m.insertSection s).2 = m) ∧
    ((m.insertOrReplaceSection s).1 = .error e → (m.insertOrReplaceSection s).2 = m) := by
  obtain ⟨h1, h2, h3⟩ := matAgrees_iff.mp hm
  have key : ∀ (op : TFile → Except Err Unit × TFile), (∀ f, (op f).1 = .error e → (op f).2 = f) →
      (m.hasMF s.mf = false → (op (TFile.empty m.mat s.mf)).1 = .ok ()) →
      ((m.ensureMF s.mf).onFile s.mf op).1 = .error e → ((m.ensureMF s.mf).onFile s.mf op).2 = m := by
    intro op hop hempty herr
    by_cases hmf : m.hasMF s.mf = true
    · have hens : m.ensureMF s.mf = m := by unfold TMaterial.ensureMF; rw [if_pos hmf]
      rw [hens] at herr ⊢
      have hg : ∃ f, m.files.get? s.mf = some f := by
        unfold TMaterial.hasMF at hmf
        rw [SMap.has_eq_isSome] at hmf
        exact Option.isSome_iff_exists.mp hmf
      obtain ⟨f, hf⟩ := hg
      simp only [TMaterial.onFile, TMaterial.file, SMap.at'_ok.mpr hf] at herr ⊢
      rw [hop f herr, modify_same h2 hf]
    · exfalso
      simp only [Bool.not_eq_true] at hmf
      have hnone : m.files.get? s.mf = none := by
        unfold TMaterial.hasMF at hmf
        rw [SMap.has_eq_isSome] at hmf
        simpa using hmf
      have hg : (m.ensureMF s.mf).files.get? s.mf = some (TFile.empty m.mat s.mf) := by
        unfold TMaterial.ensureMF
        rw [if_neg (by simp [hmf])]
        show SMap.get? (SMap.emplace m.files s.mf (TFile.empty m.mat s.mf)) s.mf = _
        rw [SMap.get?_emplace h2, if_pos ⟨rfl, hmf⟩]
      simp only [TMaterial.onFile, TMaterial.file, SMap.at'_ok.mpr hg] at herr
      rw [hempty hmf] at herr
      cases herr
  have hins : m.hasMF s.mf = false → ((TFile.empty m.mat s.mf).insertOrReplace s).1 = .ok () := by
    intro hmf
    have : s.mat = m.mat := by
      rcases h with h | h
      · rw [h] at hmf; cases hmf
      · exact h
    unfold TFile.insertOrReplace
    rw [if_neg (by simp [TFile.empty, this])]
  refine ⟨key _ (fun f => (C13_file f s e).1) ?_, key _ (fun f => (C13_file f s e).2) hins⟩
  intro hmf
  have : (TFile.empty m.mat s.mf).insert s = (TFile.empty m.mat s.mf).insertOrReplace s := by
    unfold TFile.insert
    rw [if_neg (by simp [TFile.hasMT, TFile.empty, SMap.has])]
  rw [this]; exact hins hmf

/-- C13 fails: a section with another MAT and a new MF is refused, and the material has an additional empty file afterwards. -/
theorem C13_material_section_wrong_mat (mat : Int) (mm : MMap) (m : TMaterial) (hm : MatAgrees mat mm m) (s : TSection)
    (hmf : m.hasMF s.mf = false) (hmat : s.mat ≠ m.mat) :
    (m.insertSection s).1 = .error .exc ∧ (m.insertSection s).2.hasMF s.mf = true ∧
    (m.insertSection s).2.file s.mf = .ok (TFile.empty m.mat s.mf) := by
  obtain ⟨h1, h2, h3⟩ := matAgrees_iff.mp hm
  have hnone : mm s.mf = none := by
    have := hm.2.2.2.2.1 s.mf
    rw [hmf] at this
    cases h : mm s.mf with
    | none => rfl
    | some x => rw [h] at this; simp at this
  obtain ⟨s1, s2⟩ := mat_step hm (.insertSection s) trivial
  have hspec : MatOp.spec mat mm (.insertSection s) = (.error .exc, upd mm s.mf (some (fun _ => none))) := by
    simp only [MatOp.spec, hnone, Option.getD_none]
    rw [if_pos (Or.inr (by rw [← h1]; exact hmat))]
  rw [hspec] at s1 s2
  have hhas := s2.2.2.2.2.1 s.mf
  obtain ⟨f, hf, ha⟩ : ∃ f, (MatOp.run m (.insertSection s)).2.file s.mf = .ok f ∧ FileAgrees mat s.mf (fun _ => none) f := by
    have := s2.2.2.2.2.2.1 s.mf
    simpa [upd] using this
  refine ⟨s1, ?_, ?_⟩
  · have : (MatOp.run m (.insertSection s)).2.hasMF s.mf = true := by rw [hhas]; simp [upd]
    exact this
  · have hf' : f = TFile.empty m.mat s.mf := by
      obtain ⟨a1, a2, a3, a4⟩ := fileAgrees_iff.mp ha
      have : f.sections = [] := SMap.Sorted.ext a3 SMap.Sorted.nil (fun k => by rw [a4]; rfl)
      cases f
      simp only at a1 a2 this
      subst a1 a2 this
      simp [TFile.empty, h1]
    rw [← hf']; exact hf

end ENDFtk.Props

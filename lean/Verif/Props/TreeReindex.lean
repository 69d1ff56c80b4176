import Verif.Props.TreeContent
/-
  C09: indexing the content of a tree gives the tree again.
-/
set_option linter.unusedVariables false
set_option linter.unusedSectionVars false
set_option linter.unusedSimpArgs false
namespace ENDFtk.Props
open ENDFtk
variable [Disco]

/-! ### specification -/

/-- The content of the section is a HEAD line with its numbers, lines with MT ≠ 0 and a line with MT = 0. -/
def GoodSection (s : TSection) : Prop :=
  ∃ (head : DLine) (body : List Text) (send : Text), s.content = unlines (head.text :: body ++ [send]) ∧
    head.IsHead ∧ head.div.tail = ⟨s.mat, s.mf, s.mt⟩ ∧ (∀ l ∈ body, ∃ t, TextLine t l ∧ t.mt ≠ 0) ∧ ∃ t, TextLine t send ∧ t.mt = 0

/-- The keys are in order and are the numbers of the sections, the sections belong to the file. -/
def GoodFile (f : TFile) : Prop :=
  f.sectionNumbers.Pairwise (· < ·) ∧ ∀ k s, (k, s) ∈ f.sections → k = s.mt ∧ s.mat = f.mat ∧ s.mf = f.mf ∧ GoodSection s

def GoodMaterial (m : TMaterial) : Prop :=
  1 ≤ m.mat ∧ m.fileNumbers.Pairwise (· < ·) ∧ ∀ k f, (k, f) ∈ m.files → k = f.mf ∧ f.mat = m.mat ∧ GoodFile f

/-- Consistent keys and text everywhere.  (Files and materials may be empty.) -/
def GoodTape (t : TTape) : Prop :=
  (∃ id, t.tpid = some id ∧ id.text.length = 66 ∧ '\n' ∉ id.text) ∧ TapeOrdered t ∧
  ∀ k m, (k, m) ∈ t.materials → k = m.mat ∧ GoodMaterial m

/-- A material without its empty files. -/
def pruneMat (m : TMaterial) : TMaterial := { m with files := m.files.filter (fun e => !e.2.sections.isEmpty) }

/-- A tape without its empty files and materials; the tape number is 0 (it is never printed). -/
def prune (t : TTape) : TTape :=
  { tpid := t.tpid.map (fun id => { id with ntape := 0 }),
    materials := (t.materials.map (fun e => (e.1, pruneMat e.2))).filter (fun e => !e.2.files.isEmpty) }

/-- Nothing is empty. -/
def NoEmpty (t : TTape) : Prop :=
  ∀ k m, (k, m) ∈ t.materials → m.files ≠ [] ∧ ∀ j f, (j, f) ∈ m.files → f.sections ≠ []

/-! ### proofs -/

theorem emplaceMulti_append {α : Type} (k : Int) (v : α) (m : SMap α) (h : ∀ e ∈ m, e.1 ≤ k) :
    SMap.emplaceMulti k v m = m ++ [(k, v)] := by
  induction m with
  | nil => rfl
  | cons e m ih =>
    have := h e (by simp)
    unfold SMap.emplaceMulti
    rw [if_neg (by omega), ih (fun x hx => h x (by simp [hx]))]
    rfl

theorem foldl_emplace_sorted {α β : Type} (key : β → Int) (val : β → α) (l : List β) : ∀ m : SMap α,
    (m ++ l.map (fun b => (key b, val b))).Pairwise (fun a b => a.1 < b.1) →
    l.foldl (fun m b => SMap.emplace m (key b) (val b)) m = m ++ l.map (fun b => (key b, val b)) := by
  induction l with
  | nil => intro m _; simp
  | cons b l ih =>
    intro m h
    have hm : ∀ e ∈ m, e.1 < key b := fun e he => (List.pairwise_append.mp h).2.2 e he (key b, val b) (by simp)
    have hhas : SMap.has m (key b) = false := by
      rw [SMap.has_false_iff]
      intro v hv
      have := hm _ hv
      simp at this
    rw [List.foldl_cons, SMap.emplace, if_neg (by simp [hhas]), emplaceMulti_append _ _ _ (fun e he => Int.le_of_lt (hm e he)),
      ih _ (by simpa using h)]
    simp

theorem foldl_emplaceMulti_sorted {α β : Type} (key : β → Int) (val : β → α) (l : List β) : ∀ m : SMap α,
    (m ++ l.map (fun b => (key b, val b))).Pairwise (fun a b => a.1 ≤ b.1) →
    l.foldl (fun m b => SMap.emplaceMulti (key b) (val b) m) m = m ++ l.map (fun b => (key b, val b)) := by
  induction l with
  | nil => intro m _; simp
  | cons b l ih =>
    intro m h
    have hm : ∀ e ∈ m, e.1 ≤ key b := fun e he => (List.pairwise_append.mp h).2.2 e he (key b, val b) (by simp)
    rw [List.foldl_cons, emplaceMulti_append _ _ _ hm, ih _ (by simpa using h)]
    simp

theorem GoodSection.layout {s : TSection} (h : GoodSection s) : ∃ S : SecL, S.Valid ∧ S.tree = s ∧ S.lines = S.core ∧ S.nums = ⟨s.mat, s.mf, s.mt⟩ ∧ S.extra = [] := by
  obtain ⟨head, body, send, h1, h2, h3, h4, h5⟩ := h
  refine ⟨⟨head, body, send, []⟩, ⟨h2, h4, h5, by simp⟩, ?_, by simp [SecL.lines], h3, rfl⟩
  cases s
  simp only at h1 h3
  simp [SecL.tree, SecL.nums, SecL.core, h1, h3]

theorem exists_layouts {α L : Type} {P : Int × α → L → Prop} (m : SMap α) (h : ∀ e ∈ m, ∃ l, P e l) : ∃ ls, All2 P m ls := by
  induction m with
  | nil => exact ⟨[], .nil⟩
  | cons e m ih =>
    obtain ⟨l, hl⟩ := h e (by simp)
    obtain ⟨ls, hls⟩ := ih (fun x hx => h x (by simp [hx]))
    exact ⟨l :: ls, .cons hl hls⟩

theorem all2_map_eq {α β γ : Type} {P : α → β → Prop} {f : α → γ} {g : β → γ} {as : List α} {bs : List β} (h : All2 P as bs)
    (hf : ∀ a b, P a b → g b = f a) : bs.map g = as.map f := by
  induction h with
  | nil => rfl
  | cons h _ ih => simp [hf _ _ h, ih]

theorem good_file_layout {f : TFile} (h : GoodFile f) (hne : f.sections ≠ []) (hmat : 1 ≤ f.mat) :
    ∃ F : FileL, F.Valid ∧ F.tree = f ∧ F.mat = f.mat ∧ F.mf = f.mf ∧ f.content = .ok (unlines F.lines) ∧ F.Plain := by
  obtain ⟨h1, h2⟩ := h
  obtain ⟨Ss, hSs⟩ := exists_layouts (P := fun e (S : SecL) => S.Valid ∧ S.tree = e.2 ∧ S.lines = S.core ∧
      S.nums = ⟨f.mat, f.mf, e.1⟩ ∧ unlines S.lines = e.2.content ∧ S.extra = []) f.sections (by
    intro e he
    obtain ⟨k, s⟩ := e
    obtain ⟨e1, e2, e3, e4⟩ := h2 k s he
    obtain ⟨S, s1, s2, s3, s4, s5⟩ := e4.layout
    refine ⟨S, s1, s2, s3, by rw [s4, e1, ← e2, ← e3], ?_, s5⟩
    simp only [s3, ← s2, SecL.tree])
  have hmap : Ss.map (fun S => (S.nums.mt, S.tree)) = f.sections := by
    have := all2_map_eq (f := fun e => e) (g := fun S : SecL => (S.nums.mt, S.tree)) hSs (fun e S hS => by
      rw [hS.2.1, hS.2.2.2.1])
    simpa using this
  have hcont : Ss.flatMap (fun S => unlines S.lines) = f.sections'.flatMap (·.content) := by
    simp only [List.flatMap_def, TFile.sections', SMap.values, List.map_map, Function.comp_def]
    congr 1
    exact all2_map_eq hSs (fun e S hS => hS.2.2.2.2.1)
  have hnums : ∀ S ∈ Ss, S.Valid ∧ S.nums.mat = f.mat ∧ S.nums.mf = f.mf ∧ S.extra = [] := by
    intro S hS
    obtain ⟨e, _, he⟩ := hSs.forall.2 S hS
    exact ⟨he.1, by rw [he.2.2.2.1], by rw [he.2.2.2.1], he.2.2.2.2.2⟩
  cases hS' : Ss with
  | nil => rw [hS'] at hmap; exact absurd hmap.symm hne
  | cons S0 St =>
    have hS0 := hnums S0 (by rw [hS']; simp)
    have hfit : fits 4 f.mat := by
      have := hS0.1.1.1.1.fit.1
      rwa [show S0.head.div.tail.mat = f.mat from hS0.2.1] at this
    let F : FileL := ⟨S0, St, [⟨endRecord ⟨f.mat, 0, 0⟩, ⟨zeroCont, ⟨f.mat, 0, 0⟩⟩⟩]⟩
    have hsecs : F.secs = Ss := by rw [hS']; rfl
    have hFmat : F.mat = f.mat := hS0.2.1
    have hFmf : F.mf = f.mf := hS0.2.2.1
    have hsorted : (Ss.map (fun S => (S.nums.mt, S.tree))).Pairwise (fun a b => a.1 < b.1) := by
      rw [hmap]; exact SMap.sorted_iff_keys.mpr h1
    have z : ZeroCols (zeroCont : Cont) := ⟨Disco.eqD_zero, Disco.eqD_zero, rfl, rfl, rfl, rfl⟩
    have f2 : (⟨f.mat, 0, 0⟩ : Nums).Fit := ⟨hfit, fits_zero 1, fits_zero 2⟩
    refine ⟨F, ⟨?_, ?_, ?_⟩, ?_, hFmat, hFmf, ?_, fun S hS => (hnums S (hsecs ▸ hS)).2.2.2, rfl⟩
    · intro S hS
      rw [hsecs] at hS
      exact ⟨(hnums S hS).1, by rw [(hnums S hS).2.2.1, hFmf]⟩
    · rw [hsecs]
      have : (Ss.map (fun S => S.nums.mt)).Pairwise (· < ·) := by
        have := List.pairwise_map.mp hsorted
        exact List.pairwise_map.mpr this
      exact this.imp (fun h => by omega)
    · intro l hl
      simp only [F, List.mem_singleton] at hl
      subst hl
      exact ⟨endRecord_line f2 (by simp only; omega) (by simp) (by simp), z, by simp only; omega, rfl, rfl⟩
    · have hfold := foldl_emplace_sorted (fun S : SecL => S.nums.mt) SecL.tree Ss [] (by simpa using hsorted)
      have : F.tree = ⟨f.mat, f.mf, f.sections⟩ := by
        simp only [FileL.tree, hFmat, hFmf, hsecs]
        congr 1
        rw [hfold, List.nil_append, hmap]
      rw [this]
    · have hl : unlines F.lines = Ss.flatMap (fun S => unlines S.lines) ++ unlines [endRecord ⟨f.mat, 0, 0⟩] := by
        simp only [FileL.lines, hsecs, unlines_append]
        congr 1
        simp [unlines, List.flatMap_assoc]
      unfold TFile.content
      rw [hl, hcont, FEND_ok hmat]
      simp only [fend_print hfit]
      rw [if_pos]
      rw [← hcont, hS']
      simp [SecL.lines, SecL.core]

/-- Elements with empty content can be left out. -/
theorem concat_filter {β : Type} (l : List β) (p : β → Bool) (f : β → Except Err Text) (h : ∀ x ∈ l, p x = false → f x = .ok []) :
    TMaterial.concat (l.map f) = TMaterial.concat ((l.filter p).map f) := by
  induction l with
  | nil => rfl
  | cons x l ih =>
    have ih := ih (fun y hy => h y (by simp [hy]))
    cases hp : p x with
    | true =>
      simp only [List.filter_cons_of_pos hp, List.map_cons]
      cases f x with
      | error e => rfl
      | ok t => simp only [TMaterial.concat, ih]
    | false =>
      have hx := h x (by simp) hp
      rw [List.filter_cons_of_neg (by simp [hp]), List.map_cons, hx]
      simp only [TMaterial.concat, ih]
      cases TMaterial.concat ((l.filter p).map f) <;> rfl

theorem pruneMat_content (m : TMaterial) : (pruneMat m).content = m.content := by
  have : TMaterial.concat ((pruneMat m).files'.map TFile.content) = TMaterial.concat (m.files'.map TFile.content) := by
    simp only [TMaterial.files', pruneMat, SMap.values, List.map_map]
    symm
    apply concat_filter
    intro e he hp
    have hempty : e.2.sections = [] := by simpa using hp
    simp [TFile.content, TFile.sections', SMap.values, hempty]
  unfold TMaterial.content
  rw [this]

theorem good_mat_layout {m : TMaterial} (h : GoodMaterial m) (hne : (pruneMat m).files ≠ []) :
    ∃ M : MatL, M.Valid ∧ M.tree = pruneMat m ∧ M.mat = m.mat ∧ m.content = .ok (unlines M.lines) ∧ M.mends ≠ [] ∧ M.Plain := by
  obtain ⟨h0, h1, h2⟩ := h
  obtain ⟨Fs, hFs⟩ := exists_layouts (P := fun e (F : FileL) => F.Valid ∧ F.tree = e.2 ∧ F.mat = m.mat ∧ F.mf = e.1 ∧
      e.2.content = .ok (unlines F.lines) ∧ F.Plain) (pruneMat m).files (by
    intro e he
    obtain ⟨k, f⟩ := e
    simp only [pruneMat, List.mem_filter] at he
    obtain ⟨he1, he2⟩ := he
    obtain ⟨e1, e2, e3⟩ := h2 k f he1
    obtain ⟨F, f1, f2, f3, f4, f5, f6⟩ := good_file_layout e3 (by simpa using he2) (by omega)
    exact ⟨F, f1, f2, by rw [f3, e2], by rw [f4, e1], f5, f6⟩)
  have hmap : Fs.map (fun F => (F.mf, F.tree)) = (pruneMat m).files := by
    have := all2_map_eq (f := fun e => e) (g := fun F : FileL => (F.mf, F.tree)) hFs (fun e F hF => by rw [hF.2.1, hF.2.2.2.1])
    simpa using this
  have hcon : TMaterial.concat ((pruneMat m).files'.map TFile.content) = .ok (Fs.flatMap (fun F => unlines F.lines)) := by
    have : (pruneMat m).files'.map TFile.content = (Fs.map (fun F => unlines F.lines)).map .ok := by
      simp only [TMaterial.files', SMap.values, List.map_map, Function.comp_def]
      exact (all2_map_eq hFs (fun e F hF => hF.2.2.2.2.1.symm)).symm
    rw [concat_ok this, List.flatMap_def]
  have hval : ∀ F ∈ Fs, F.Valid ∧ F.mat = m.mat ∧ F.Plain := by
    intro F hF
    obtain ⟨e, _, he⟩ := hFs.forall.2 F hF
    exact ⟨he.1, he.2.2.1, he.2.2.2.2.2⟩
  cases hF' : Fs with
  | nil => rw [hF'] at hmap; exact absurd hmap.symm hne
  | cons F0 Ft =>
    let M : MatL := ⟨F0, Ft, [⟨endRecord ⟨0, 0, 0⟩, ⟨zeroCont, ⟨0, 0, 0⟩⟩⟩]⟩
    have hfiles : M.files = Fs := by rw [hF']; rfl
    have hMmat : M.mat = m.mat := (hval F0 (by rw [hF']; simp)).2.1
    have hsorted : (Fs.map (fun F => (F.mf, F.tree))).Pairwise (fun a b => a.1 < b.1) := by
      rw [hmap]
      exact List.Pairwise.filter _ (SMap.sorted_iff_keys.mpr h1)
    have z : ZeroCols (zeroCont : Cont) := ⟨Disco.eqD_zero, Disco.eqD_zero, rfl, rfl, rfl, rfl⟩
    have f2 : (⟨0, 0, 0⟩ : Nums).Fit := ⟨fits_zero 3, fits_zero 1, fits_zero 2⟩
    refine ⟨M, ⟨?_, ?_, ?_⟩, ?_, hMmat, ?_, by simp [M], fun F hF => (hval F (hfiles ▸ hF)).2.2, rfl⟩
    · intro F hF
      rw [hfiles] at hF
      exact ⟨(hval F hF).1, by rw [(hval F hF).2.1, hMmat]⟩
    · rw [hfiles]
      have : (Fs.map FileL.mf).Pairwise (· < ·) := by
        have := List.pairwise_map.mp hsorted
        exact List.pairwise_map.mpr this
      exact this.imp (fun h => by omega)
    · intro l hl
      simp only [M, List.mem_singleton] at hl
      subst hl
      exact ⟨endRecord_line f2 (by simp) (by simp) (by simp), z, rfl⟩
    · have hfold := foldl_emplace_sorted FileL.mf FileL.tree Fs [] (by simpa using hsorted)
      have : M.tree = ⟨m.mat, (pruneMat m).files⟩ := by
        simp only [MatL.tree, hMmat, hfiles]
        congr 1
        rw [hfold, List.nil_append, hmap]
      rw [this]; rfl
    · have hl : unlines M.lines = Fs.flatMap (fun F => unlines F.lines) ++ unlines [endRecord ⟨0, 0, 0⟩] := by
        simp only [MatL.lines, hfiles, unlines_append]
        congr 1
        simp [unlines, List.flatMap_assoc]
      rw [← pruneMat_content, TMaterial.content, hcon, hl]
      simp only [mend_print]
      rw [if_pos]
      rw [hF']
      simp [FileL.lines, FileL.secs, SecL.lines, SecL.core]

theorem chained_mends {Ms : List MatL} (h : ∀ M ∈ Ms, M.mends ≠ []) : Chained Ms := by
  induction Ms with
  | nil => trivial
  | cons M Ms ih =>
    cases Ms with
    | nil => trivial
    | cons N Ns => exact ⟨fun h' => absurd h' (h M (by simp)), ih (fun x hx => h x (by simp [hx]))⟩

theorem pruneMat_idem (m : TMaterial) : pruneMat (pruneMat m) = pruneMat m := by
  simp [pruneMat, List.filter_filter]

theorem good_tape_layout (t : TTape) (h : GoodTape t) :
    ∃ L : TapeL, L.Valid ∧ L.tree = prune t ∧ t.content = .ok (unlines L.lines) ∧ (prune t).content = .ok (unlines L.lines) ∧ (∀ M ∈ L.mats, M.Plain) ∧
      (∀ id, t.tpid = some id → L.label = id.text ∧ L.ntape = 0) ∧ L.mats.map (fun M => (M.mat, M.tree)) = (prune t).materials ∧ L.tend.text.length = 80 := by
  obtain ⟨⟨id, hid, h66, hnl⟩, h1, h2⟩ := h
  obtain ⟨Ms, hMs⟩ := exists_layouts (P := fun e (M : MatL) => M.Valid ∧ M.tree = e.2 ∧ M.mat = e.1 ∧
      e.2.content = .ok (unlines M.lines) ∧ M.mends ≠ [] ∧ M.Plain) (prune t).materials (by
    intro e he
    obtain ⟨k, m⟩ := e
    simp only [prune, List.mem_filter, List.mem_map] at he
    obtain ⟨⟨⟨k', m'⟩, he1, he2⟩, he3⟩ := he
    simp only [Prod.mk.injEq] at he2
    obtain ⟨rfl, rfl⟩ := he2
    obtain ⟨e1, e2⟩ := h2 k' m' he1
    obtain ⟨M, m1, m2, m3, m4, m5, m6⟩ := good_mat_layout e2 (by simpa using he3)
    exact ⟨M, m1, m2, by rw [m3, e1], by rw [pruneMat_content]; exact m4, m5, m6⟩)
  have hmap : Ms.map (fun M => (M.mat, M.tree)) = (prune t).materials := by
    have := all2_map_eq (f := fun e => e) (g := fun M : MatL => (M.mat, M.tree)) hMs (fun e M hM => by rw [hM.2.1, hM.2.2.1])
    simpa using this
  have hcon : TMaterial.concat ((prune t).materials'.map TMaterial.content) = .ok (Ms.flatMap (fun M => unlines M.lines)) := by
    have : (prune t).materials'.map TMaterial.content = (Ms.map (fun M => unlines M.lines)).map .ok := by
      simp only [TTape.materials', SMap.values, List.map_map, Function.comp_def]
      exact (all2_map_eq hMs (fun e M hM => hM.2.2.2.1.symm)).symm
    rw [concat_ok this, List.flatMap_def]
  have hcon' : TMaterial.concat (t.materials'.map TMaterial.content) = TMaterial.concat ((prune t).materials'.map TMaterial.content) := by
    simp only [TTape.materials', prune, SMap.values, List.map_map]
    have e1 : t.materials.map (TMaterial.content ∘ (fun x => x.2)) =
        (t.materials.map (fun e => (e.1, pruneMat e.2))).map (TMaterial.content ∘ (fun x => x.2)) := by
      simp only [List.map_map]
      apply List.map_congr_left
      intro e _
      simp only [Function.comp, pruneMat_content]
    rw [e1]
    apply concat_filter
    intro e he hp
    have hempty : e.2.files = [] := by simpa using hp
    simp [TMaterial.content, TMaterial.files', SMap.values, hempty, TMaterial.concat]
  have f3 : (⟨0, 0, 0⟩ : Nums).Fit := ⟨fits_zero 3, fits_zero 1, fits_zero 2⟩
  have f4 : (⟨-1, 0, 0⟩ : Nums).Fit := ⟨by decide, fits_zero 1, fits_zero 2⟩
  have z : ZeroCols (zeroCont : Cont) := ⟨Disco.eqD_zero, Disco.eqD_zero, rfl, rfl, rfl, rfl⟩
  let L : TapeL := ⟨id.text ++ tailCols ⟨0, 0, 0⟩, 0, Ms, ⟨endRecord ⟨-1, 0, 0⟩, ⟨zeroCont, ⟨-1, 0, 0⟩⟩⟩⟩
  have hcl := canonical_line f3 h66 hnl
  have hval : ∀ M ∈ Ms, M.Valid ∧ M.mends ≠ [] := by
    intro M hM
    obtain ⟨e, _, he⟩ := hMs.forall.2 M hM
    exact ⟨he.1, he.2.2.2.2.1⟩
  have hplain : ∀ M ∈ Ms, M.Plain := by
    intro M hM
    obtain ⟨e, _, he⟩ := hMs.forall.2 M hM
    exact he.2.2.2.2.2
  have hL : L.Valid := by
    refine ⟨⟨hcl.2.1, hcl.2.2.1, 0, ?_⟩, fun M hM => (hval M hM).1, chained_mends (fun M hM => (hval M hM).2),
      endRecord_line f4 (by simp) (by simp) (by simp), z, rfl⟩
    show parseInt (cols 76 80 (id.text ++ tailCols ⟨0, 0, 0⟩)) = some 0
    rw [hcl.2.2.2]; exact Disco.parseInt_blank 5
  have hsorted : (Ms.map (fun M => (M.mat, M.tree))).Pairwise (fun a b => a.1 ≤ b.1) := by
    rw [hmap]
    refine List.Pairwise.filter _ ?_
    rw [List.pairwise_map]
    exact List.pairwise_map.mp h1
  have hlab : L.label = id.text := by
    have : (id.text ++ tailCols ⟨0, 0, 0⟩).take 66 = id.text := take_append_of_length h66
    simp only [TapeL.label, L, this, h66]
    simp [blanks]
  have htree : L.tree = prune t := by
    have hfold := foldl_emplaceMulti_sorted MatL.mat MatL.tree Ms [] (by simpa using hsorted)
    have : L.tree = ⟨some ⟨id.text, 0⟩, (prune t).materials⟩ := by
      simp only [TapeL.tree, hlab]
      congr 1
      show Ms.foldl _ [] = _
      rw [hfold, List.nil_append, hmap]
    rw [this]
    simp [prune, hid]
  have hp : printTpid id ⟨0, 0, 0⟩ = unlines [id.text ++ tailCols ⟨0, 0, 0⟩] := by
    rw [printTpid, writeChars_full h66, tailText_eq]; simp
  have hp' : printTpid { id with ntape := 0 } ⟨0, 0, 0⟩ = unlines [id.text ++ tailCols ⟨0, 0, 0⟩] := hp
  have hlines : unlines L.lines = unlines [id.text ++ tailCols ⟨0, 0, 0⟩] ++ Ms.flatMap (fun M => unlines M.lines) ++
      unlines [endRecord ⟨-1, 0, 0⟩] := by
    simp [TapeL.lines, L, unlines, List.flatMap_assoc]
  have hptp : (prune t).tpid = some { id with ntape := 0 } := by simp [prune, hid]
  have key : ∀ (x : TTape) (i : Tpid), x.tpid = some i → printTpid i ⟨0, 0, 0⟩ = unlines [id.text ++ tailCols ⟨0, 0, 0⟩] →
      TMaterial.concat (x.materials'.map TMaterial.content) = .ok (Ms.flatMap (fun M => unlines M.lines)) →
      x.content = .ok (unlines L.lines) := by
    intro x i hx hpx hc
    unfold TTape.content
    simp only [hc, hx, hpx, tend_print, hlines]
    rw [if_pos]
    simp
  refine ⟨L, hL, htree, key t id hid hp (hcon'.trans hcon), key _ _ hptp hp' hcon, hplain, fun id' h' => ?_, hmap, (endRecord_canonical f4).1⟩
  rw [hid] at h'; cases h'
  exact ⟨hlab, rfl⟩

/-- C09: a tape with consistent keys and text has a content, indexing it gives the same tape (without its empty files and materials, and with tape
    number 0), and the content of that tape is the same again. -/
theorem C09_reindex (t : TTape) (h : GoodTape t) (line : Int) :
    ∃ c, t.content = .ok c ∧ TTape.ofBuffer c line = .ok (prune t) ∧ (prune t).content = .ok c := by
  obtain ⟨L, hL, htree, hc1, hc2, _⟩ := good_tape_layout t h
  refine ⟨unlines L.lines, hc1, ?_, hc2⟩
  obtain ⟨m, hm⟩ := readTTape_run hL (At.nl hL.2.2.2.1.1.1 (r := [])) line
  rw [TapeL.textWith_eq] at hm
  rw [← htree, ← ofBuffer_of_run hm]
  simp [TapeL.lines, TapeL.front]

theorem prune_noEmpty {t : TTape} (h : NoEmpty t) : (prune t).materials = t.materials := by
  have hp : ∀ e ∈ t.materials, pruneMat e.2 = e.2 := by
    intro e he
    have := (h e.1 e.2 he).2
    have hfil : (e.2.files.filter (fun e => !e.2.sections.isEmpty)) = e.2.files := by
      rw [List.filter_eq_self]
      intro x hx
      have := this x.1 x.2 hx
      simpa using this
    unfold pruneMat
    rw [hfil]
  have hmap : t.materials.map (fun e => (e.1, pruneMat e.2)) = t.materials := by
    conv => rhs; rw [← List.map_id t.materials]
    apply List.map_congr_left
    intro e he
    rw [hp e he]; rfl
  simp only [prune, hmap]
  rw [List.filter_eq_self]
  intro e he
  have := (h e.1 e.2 he).1
  simpa using this

/-- C09 for trees from a buffer: if the sections found under a MAT have that MAT (see C08) and there is no MAT -1 (for which FEND cannot be
    written), then the tree is consistent and has no empty nodes, so its content is indexed to the same materials. -/
theorem C09_from_buffer (b : Text) (line : Int) (t : TTape) (h : TTape.ofBuffer b line = .ok t) (hneg : t.hasMAT (-1) = false)
    (hmat : ∀ mat ms, t.material mat = .ok ms → ∀ m ∈ ms, ∀ mf mt s, m.section' mf mt = .ok s → s.mat = mat) (line' : Int) :
    GoodTape t ∧ NoEmpty t ∧
    ∃ c t', t.content = .ok c ∧ TTape.ofBuffer c line' = .ok t' ∧ t'.materials = t.materials ∧ t'.content = .ok c := by
  have hgood : GoodTape t ∧ NoEmpty t := by
    obtain ⟨st, hst⟩ := run_of_ofBuffer h
    have := readTTape_inv ⟨b, line⟩
    rw [hst] at this
    obtain ⟨L, g, v1, v2, v3, v4⟩ := this
    simp only at v4
    obtain ⟨b1, b2⟩ := SMap.buildMulti MatL.mat MatL.tree L.mats
    have b1' : L.tree.materials.WSorted := b1
    have b2' : ∀ k, SMap.getAll L.tree.materials k = (L.mats.filter (fun M => M.mat == k)).map MatL.tree := b2
    -- every entry of the tape is a material of the layout
    have hmem : ∀ k m, (k, m) ∈ t.materials → ∃ M ∈ L.mats, M.mat = k ∧ M.tree = m := by
      intro k m hkm
      have : m ∈ SMap.getAll t.materials k := by
        simp only [SMap.getAll, SMap.values, List.mem_map, List.mem_filter, beq_iff_eq]
        exact ⟨(k, m), ⟨hkm, rfl⟩, rfl⟩
      rw [v4, b2'] at this
      obtain ⟨M, hM, e⟩ := List.mem_map.mp this
      obtain ⟨hM1, hM2⟩ := List.mem_filter.mp hM
      exact ⟨M, hM1, by simpa using hM2, e⟩
    have hfind : ∀ k m, (k, m) ∈ t.materials → ∃ ms, t.material k = .ok ms ∧ m ∈ ms := by
      intro k m hkm
      have : m ∈ SMap.getAll t.materials k := by
        simp only [SMap.getAll, SMap.values, List.mem_map, List.mem_filter, beq_iff_eq]
        exact ⟨(k, m), ⟨hkm, rfl⟩, rfl⟩
      refine ⟨SMap.getAll t.materials k, ?_, this⟩
      rw [TTape.material_eq, if_neg]
      intro h0; rw [h0] at this; simp at this
    have hentry : ∀ (M : MatL), M.Valid → ∀ j f, (j, f) ∈ M.tree.files → ∃ F ∈ M.files, F.mf = j ∧ F.tree = f := by
      intro M hM j f hjf
      obtain ⟨c1, c2⟩ := SMap.build FileL.mf FileL.tree hM.2.1
      exact (c2 j f).mp (SMap.get?_of_mem c1 hjf)
    have hsec : ∀ (F : FileL), F.Valid → ∀ j s, (j, s) ∈ F.tree.sections → ∃ S ∈ F.secs, S.nums.mt = j ∧ S.tree = s := by
      intro F hF j s hjs
      obtain ⟨c1, c2⟩ := SMap.build (fun S : SecL => S.nums.mt) SecL.tree hF.2.1
      exact (c2 j s).mp (SMap.get?_of_mem c1 hjs)
    constructor
    · refine ⟨⟨⟨L.label, L.ntape⟩, by rw [v4]; rfl, ?_, ?_⟩, by rw [v4]; exact SMap.wsorted_iff_keys.mp b1', ?_⟩
      · simp only [TapeL.label, List.length_append, List.length_take, blanks_length]; omega
      · have := v1.1.1
        simp only [TapeL.label, List.mem_append, not_or]
        exact ⟨fun h => this (List.mem_of_mem_take h), nl_not_mem_blanks _⟩
      · intro k m hkm
        obtain ⟨M, hM, rfl, rfl⟩ := hmem k m hkm
        have hMv := v1.2.1 M hM
        have hhead := (hMv.1 M.first (by simp [MatL.files])).1.1 M.first.first (by simp [FileL.secs])
        have hge : -1 ≤ M.mat := hhead.1.1.1.2.2.1
        have hne0 : M.mat ≠ 0 := hhead.1.1.2.1
        have hne1 : M.mat ≠ -1 := by
          intro e
          obtain ⟨ms, h1, h2⟩ := hfind _ _ hkm
          rw [e] at h1
          unfold TTape.hasMAT at hneg
          unfold TTape.material at h1
          simp only [ne_eq, decide_not, Bool.not_eq_false', decide_eq_true_eq] at hneg
          rw [if_pos hneg] at h1
          cases h1
        obtain ⟨c1, c2⟩ := SMap.build FileL.mf FileL.tree hMv.2.1
        have c1' : M.tree.files.Sorted := c1
        refine ⟨rfl, ?_, SMap.sorted_iff_keys.mp c1', ?_⟩
        · show 1 ≤ M.mat; omega
        · intro j f hjf
          obtain ⟨F, hF, rfl, rfl⟩ := hentry M hMv j f hjf
          obtain ⟨hF1, hF2⟩ := hMv.1 F hF
          obtain ⟨d1, d2⟩ := SMap.build (fun S : SecL => S.nums.mt) SecL.tree hF1.2.1
          have d1' : F.tree.sections.Sorted := d1
          refine ⟨rfl, hF2, SMap.sorted_iff_keys.mp d1', ?_⟩
          intro i s his
          obtain ⟨S, hS, rfl, rfl⟩ := hsec F hF1 i s his
          obtain ⟨hS1, hS2⟩ := hF1.1 S hS
          have hSmat : S.tree.mat = F.tree.mat := by
            obtain ⟨ms, h1, h2⟩ := hfind _ _ hkm
            have := hmat _ ms h1 _ h2 F.mf S.nums.mt S.tree (by
              unfold TMaterial.section' TMaterial.file TFile.section'
              rw [SMap.at'_ok.mpr (SMap.get?_of_mem c1' hjf)]
              exact SMap.at'_ok.mpr (SMap.get?_of_mem d1' his))
            rw [this]; exact hF2.symm
          exact ⟨rfl, hSmat, hS2, S.head, S.body, S.send, rfl, hS1.1, rfl, hS1.2.1, hS1.2.2.1⟩
    · intro k m hkm
      obtain ⟨M, hM, rfl, rfl⟩ := hmem k m hkm
      have hMv := v1.2.1 M hM
      constructor
      · have := ((SMap.build FileL.mf FileL.tree hMv.2.1).2 M.first.mf M.first.tree).mpr ⟨M.first, by simp [MatL.files], rfl, rfl⟩
        intro h0
        have this : SMap.get? M.tree.files M.first.mf = some M.first.tree := this
        rw [h0] at this
        simp [SMap.get?] at this
      · intro j f hjf
        obtain ⟨F, hF, rfl, rfl⟩ := hentry M hMv j f hjf
        have := ((SMap.build (fun S : SecL => S.nums.mt) SecL.tree (hMv.1 F hF).1.2.1).2 F.first.nums.mt F.first.tree).mpr
          ⟨F.first, by simp [FileL.secs], rfl, rfl⟩
        intro h0
        have this : SMap.get? F.tree.sections F.first.nums.mt = some F.first.tree := this
        rw [h0] at this
        simp [SMap.get?] at this
  refine ⟨hgood.1, hgood.2, ?_⟩
  obtain ⟨c, h1, h2, h3⟩ := C09_reindex t hgood.1 line'
  exact ⟨c, prune t, h1, h2, prune_noEmpty hgood.2, h3⟩

/-! ### consistent trees stay consistent -/

theorem mem_emplace {α : Type} {m : SMap α} {k : Int} {v : α} {e : Int × α} (h : e ∈ m.emplace k v) : e = (k, v) ∨ e ∈ m := by
  unfold SMap.emplace at h
  split at h
  · exact .inr h
  · exact SMap.mem_emplaceMulti.mp h

theorem mem_erase {α : Type} {m : SMap α} {k : Int} {e : Int × α} (h : e ∈ m.erase k) : e ∈ m := (List.mem_filter.mp h).1

/-- C09: an empty file is consistent, -/
theorem C09_empty_file (mat mf : Int) : GoodFile (TFile.empty mat mf) := ⟨by simp [TFile.empty, TFile.sectionNumbers, SMap.keys], by simp [TFile.empty]⟩

/-- and every call with a consistent section keeps a file consistent, -/
theorem C09_file_ops (f : TFile) (h : GoodFile f) :
    (∀ s, GoodSection s → GoodFile (f.insert s).2 ∧ GoodFile (f.insertOrReplace s).2) ∧ ∀ mt, GoodFile (f.remove mt) := by
  obtain ⟨h1, h2⟩ := h
  have hs : f.sections.Sorted := SMap.sorted_iff_keys.mpr h1
  have hr : ∀ s, GoodSection s → GoodFile (f.insertOrReplace s).2 := by
    intro s hgs
    unfold TFile.insertOrReplace
    split
    · exact ⟨h1, h2⟩
    · rename_i hc
      refine ⟨SMap.sorted_iff_keys.mp (SMap.emplace_sorted (SMap.erase_sorted hs _) _ _), ?_⟩
      intro k x hx
      rcases mem_emplace hx with e | hx
      · cases e
        refine ⟨rfl, ?_, ?_, hgs⟩
        · show s.mat = f.mat; omega
        · show s.mf = f.mf; omega
      · exact h2 k x (mem_erase hx)
  refine ⟨fun s hgs => ⟨?_, hr s hgs⟩, ?_⟩
  · unfold TFile.insert
    split
    · exact ⟨h1, h2⟩
    · exact hr s hgs
  · intro mt
    exact ⟨SMap.sorted_iff_keys.mp (SMap.erase_sorted hs _), fun k s hks => h2 k s (mem_erase hks)⟩

theorem onFile_good {m : TMaterial} (h : GoodMaterial m) (mf : Int) (op : TFile → Except Err Unit × TFile)
    (hop : ∀ f, GoodFile f → GoodFile (op f).2 ∧ (op f).2.mat = f.mat ∧ (op f).2.mf = f.mf) :
    GoodMaterial ((m.ensureMF mf).onFile mf op).2 := by
  have hens : GoodMaterial (m.ensureMF mf) := by
    unfold TMaterial.ensureMF
    split
    · exact h
    · obtain ⟨h0, h1, h2⟩ := h
      refine ⟨h0, SMap.sorted_iff_keys.mp (SMap.emplace_sorted (SMap.sorted_iff_keys.mpr h1) _ _), ?_⟩
      intro k f hkf
      rcases mem_emplace hkf with e | hkf
      · cases e; exact ⟨rfl, rfl, C09_empty_file _ _⟩
      · exact h2 k f hkf
  generalize m.ensureMF mf = m' at hens
  obtain ⟨h0, h1, h2⟩ := hens
  unfold TMaterial.onFile
  split
  · exact ⟨h0, h1, h2⟩
  · rename_i f hf
    have hg := SMap.at'_ok.mp hf
    have hmem := SMap.mem_of_get? hg
    obtain ⟨g1, g2, g3⟩ := h2 mf f hmem
    obtain ⟨o1, o2, o3⟩ := hop f g3
    refine ⟨h0, SMap.sorted_iff_keys.mp (SMap.modify_sorted (SMap.sorted_iff_keys.mpr h1) mf (fun _ => (op f).2)), ?_⟩
    intro k x hkx
    simp only [SMap.modify, List.mem_map] at hkx
    obtain ⟨e, he, hx⟩ := hkx
    by_cases hk : e.1 = mf
    · simp only [hk, beq_self_eq_true, if_true, Prod.mk.injEq] at hx
      obtain ⟨rfl, rfl⟩ := hx
      exact ⟨by rw [o3]; exact g1, by rw [o2]; exact g2, o1⟩
    · rw [if_neg (by simpa using hk)] at hx
      subst hx
      exact h2 _ _ he

/-- every call with consistent sections or files keeps a material consistent, -/
theorem C09_material_ops (m : TMaterial) (h : GoodMaterial m) :
    (∀ s, GoodSection s → GoodMaterial (m.insertSection s).2 ∧ GoodMaterial (m.insertOrReplaceSection s).2) ∧
    (∀ f, GoodFile f → GoodMaterial (m.insertFile f).2 ∧ GoodMaterial (m.insertOrReplaceFile f).2) ∧
    (∀ mf, GoodMaterial (m.remove mf)) ∧ ∀ mf mt, GoodMaterial (m.removeSection mf mt) := by
  have hnum : ∀ (f : TFile) s, (f.insertOrReplace s).2.mat = f.mat ∧ (f.insertOrReplace s).2.mf = f.mf := by
    intro f s; unfold TFile.insertOrReplace; split <;> exact ⟨rfl, rfl⟩
  have hnum' : ∀ (f : TFile) s, (f.insert s).2.mat = f.mat ∧ (f.insert s).2.mf = f.mf := by
    intro f s; unfold TFile.insert; split
    · exact ⟨rfl, rfl⟩
    · exact hnum f s
  have hr : ∀ f, GoodFile f → GoodMaterial (m.insertOrReplaceFile f).2 := by
    intro f hf
    unfold TMaterial.insertOrReplaceFile
    split
    · exact h
    · rename_i hc
      obtain ⟨h0, h1, h2⟩ := h
      refine ⟨h0, SMap.sorted_iff_keys.mp (SMap.emplace_sorted (SMap.erase_sorted (SMap.sorted_iff_keys.mpr h1) _) _ _), ?_⟩
      intro k x hx
      rcases mem_emplace hx with e | hx
      · cases e
        refine ⟨rfl, ?_, hf⟩
        show f.mat = m.mat; omega
      · exact h2 k x (mem_erase hx)
  refine ⟨fun s hs => ⟨onFile_good h _ _ fun f hf => ⟨((C09_file_ops f hf).1 s hs).1, hnum' f s⟩,
    onFile_good h _ _ fun f hf => ⟨((C09_file_ops f hf).1 s hs).2, hnum f s⟩⟩, fun f hf => ⟨?_, hr f hf⟩, ?_, ?_⟩
  · unfold TMaterial.insertFile
    split
    · exact h
    · exact hr f hf
  · intro mf
    obtain ⟨h0, h1, h2⟩ := h
    exact ⟨h0, SMap.sorted_iff_keys.mp (SMap.erase_sorted (SMap.sorted_iff_keys.mpr h1) _), fun k f hkf => h2 k f (mem_erase hkf)⟩
  · intro mf mt
    obtain ⟨h0, h1, h2⟩ := h
    refine ⟨h0, SMap.sorted_iff_keys.mp (SMap.modify_sorted (SMap.sorted_iff_keys.mpr h1) mf (fun f => f.remove mt)), ?_⟩
    intro k x hkx
    simp only [TMaterial.removeSection, SMap.modify, List.mem_map] at hkx
    obtain ⟨e, he, hx⟩ := hkx
    obtain ⟨g1, g2, g3⟩ := h2 _ _ he
    by_cases hk : e.1 = mf
    · rw [if_pos (by simpa using hk)] at hx
      cases hx
      exact ⟨g1, g2, (C09_file_ops _ g3).2 mt⟩
    · rw [if_neg (by simpa using hk)] at hx
      subst hx
      exact ⟨g1, g2, g3⟩

/-- and every call with a consistent material keeps a tape consistent. -/
theorem C09_tape_ops (t : TTape) (h : GoodTape t) :
    (∀ m, GoodMaterial m → GoodTape (t.insert m) ∧ GoodTape (t.replace m)) ∧ ∀ mat, GoodTape (t.remove mat) := by
  obtain ⟨h0, h1, h2⟩ := h
  have hs : t.materials.WSorted := SMap.wsorted_iff_keys.mpr h1
  refine ⟨fun m hm => ⟨⟨h0, SMap.wsorted_iff_keys.mp (SMap.emplaceMulti_wsorted hs _ _), ?_⟩,
    ⟨h0, SMap.wsorted_iff_keys.mp (SMap.emplaceMulti_wsorted (SMap.erase_wsorted hs _) _ _), ?_⟩⟩, fun mat =>
    ⟨h0, SMap.wsorted_iff_keys.mp (SMap.erase_wsorted hs _), fun k m hkm => h2 k m (mem_erase hkm)⟩⟩
  · intro k x hkx
    rcases SMap.mem_emplaceMulti.mp hkx with e | hkx
    · cases e; exact ⟨rfl, hm⟩
    · exact h2 k x hkx
  · intro k x hkx
    rcases SMap.mem_emplaceMulti.mp hkx with e | hkx
    · cases e; exact ⟨rfl, hm⟩
    · exact h2 k x (mem_erase hkx)

/-- Empty tapes and materials are consistent. -/
theorem C09_empty (text : Text) (hnl : '\n' ∉ text) (tape mat : Int) (hmat : 1 ≤ mat) :
    GoodTape (TTape.empty (Tpid.make text tape)) ∧ GoodMaterial (TMaterial.empty mat) := by
  refine ⟨⟨⟨_, rfl, ?_, ?_⟩, by simp [TapeOrdered, TTape.empty], by simp [TTape.empty]⟩,
    ⟨hmat, by simp [TMaterial.empty, TMaterial.fileNumbers, SMap.keys], by simp [TMaterial.empty]⟩⟩
  · simp only [Tpid.make, executeOrder66]
    split <;> simp <;> omega
  · simp only [Tpid.make, executeOrder66]
    split
    · exact fun h => hnl (List.mem_of_mem_take h)
    · simp only [List.mem_append, not_or]
      exact ⟨hnl, nl_not_mem_blanks _⟩

end ENDFtk.Props

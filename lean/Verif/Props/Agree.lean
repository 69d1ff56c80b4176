import Verif.Parsed.Agree2
import Verif.Props.TreeReindex
import Verif.Props.Parsed
/-
  C45: the tree and the parsed layers agree.
-/
set_option linter.unusedVariables false
set_option linter.unusedSectionVars false
set_option linter.unusedSimpArgs false
namespace ENDFtk.Props
open ENDFtk
variable [Disco] [CorrOps]

/-! ### layouts -/

theorem SecL.good {S : SecL} (h : S.Valid) : GoodSection S.tree :=
  ⟨S.head, S.body, S.send, rfl, h.1, rfl, h.2.1, h.2.2.1⟩

theorem FileL.good {F : FileL} (h : F.Valid) (hm : ∀ S ∈ F.secs, S.nums.mat = F.mat) : GoodFile F.tree ∧ F.tree.sections ≠ [] := by
  obtain ⟨b1, b2⟩ := SMap.build (α := TSection) (fun S : SecL => S.nums.mt) SecL.tree h.2.1
  refine ⟨⟨SMap.sorted_iff_keys.mp b1, fun k s hs => ?_⟩, fun hn => ?_⟩
  · obtain ⟨S, hS, rfl, rfl⟩ := (b2 k s).mp (SMap.get?_of_mem b1 hs)
    exact ⟨rfl, hm S hS, (h.1 S hS).2, SecL.good (h.1 S hS).1⟩
  · have := (b2 F.first.nums.mt F.first.tree).mpr ⟨F.first, by simp [FileL.secs], rfl, rfl⟩
    have hn' : F.secs.foldl (fun (m : SMap TSection) b => m.emplace b.nums.mt b.tree) [] = [] := hn
    rw [hn'] at this
    simp [SMap.get?] at this

theorem MatL.good {M : MatL} (h : M.Valid) (h1 : 1 ≤ M.mat) (hm : ∀ F ∈ M.files, ∀ S ∈ F.secs, S.nums.mat = M.mat) :
    GoodMaterial M.tree ∧ M.tree.files ≠ [] ∧ ∀ e ∈ M.tree.files, e.2.sections ≠ [] := by
  obtain ⟨b1, b2⟩ := SMap.build (α := TFile) FileL.mf FileL.tree h.2.1
  have key : ∀ k f, (k, f) ∈ M.tree.files → ∃ F ∈ M.files, F.mf = k ∧ F.tree = f := fun k f hf => (b2 k f).mp (SMap.get?_of_mem b1 hf)
  have hg : ∀ F ∈ M.files, GoodFile F.tree ∧ F.tree.sections ≠ [] := fun F hF =>
    FileL.good (h.1 F hF).1 (fun S hS => by rw [hm F hF S hS, (h.1 F hF).2])
  refine ⟨⟨h1, SMap.sorted_iff_keys.mp b1, fun k f hf => ?_⟩, fun hn => ?_, fun e he => ?_⟩
  · obtain ⟨F, hF, rfl, rfl⟩ := key k f hf
    exact ⟨rfl, (h.1 F hF).2, (hg F hF).1⟩
  · have := (b2 M.first.mf M.first.tree).mpr ⟨M.first, by simp [MatL.files], rfl, rfl⟩
    have hn' : M.files.foldl (fun (m : SMap TFile) b => m.emplace b.mf b.tree) [] = [] := hn
    rw [hn'] at this
    simp [SMap.get?] at this
  · obtain ⟨F, hF, _, h2⟩ := key e.1 e.2 he
    rw [← h2]; exact (hg F hF).2

/-- The layout of a file that is printed. -/
theorem file_layout {f : PFile} (hv : f.Valid) (hr : f.Rep) (hne : f.sections ≠ []) {mat : Int} (h1 : 1 ≤ mat) (h2 : mat ≤ 9999) :
    ∃ F : FileL, F.Valid ∧ F.Plain ∧ F.Read ∧ F.mat = mat ∧ F.mf = f.mf ∧ (∀ S ∈ F.secs, S.nums.mat = F.mat) ∧ f.print mat = .ok (unlines F.lines) ∧
      FAgrees F.tree f ∧ MapRel (fun s x => toSectionAny x mat = .ok s) F.tree.sections f.sections := by
  obtain ⟨k1, k2, k3, k4⟩ := hv
  obtain ⟨Ss, hSs⟩ : ∃ Ss, All2 (fun (e : Int × AnySection) (S : SecL) => (S.Valid ∧ S.Full) ∧ S.extra = [] ∧ S.nums = ⟨mat, f.mf, e.1⟩ ∧
      e.2.print mat f.mf = .ok (unlines S.core) ∧ toSectionAny e.2 mat = .ok S.tree ∧ SectionText f.mf e.2 S.core) f.sections Ss := by
    refine exists_all2 fun e he => ?_
    obtain ⟨a1, a2, a3⟩ := k4 e he
    obtain ⟨S, b1, b0, b2, b3, b4, b5, b6⟩ := section_layout a3 (hr e.2 (List.mem_map.mpr ⟨e, he, rfl⟩)) h1 h2
    rw [a2] at b3 b4 b6
    exact ⟨S, ⟨b1, b0⟩, b2, by rw [b3, a1], b4, b5, b6⟩
  have hprop : ∀ S ∈ Ss, (S.Valid ∧ S.Full) ∧ S.extra = [] ∧ S.nums.mat = mat ∧ S.nums.mf = f.mf ∧ (f.mf = 8 → S.nums.mt = 454 ∨ S.nums.mt = 457 ∨ S.nums.mt = 459) := by
    intro S hS
    obtain ⟨e, he, a1, a2, a3, a4, a5, a6⟩ := hSs.forall.2 S hS
    refine ⟨a1, a2, by rw [a3], by rw [a3], fun h8 => ?_⟩
    have := (sec_parse_mt a1.1 ((sec_parse a1.1 a1.2).mpr (by rw [a3]; exact a6))).2.2.2.2
    rw [show S.nums.mf = 8 by rw [a3]; exact h8] at this
    exact sectionType?_8 this
  have hmap : Ss.map (fun S => (S.nums.mt, S.tree)) = Ss.map (fun S => (S.nums.mt, S.tree)) := rfl
  have hkeys : Ss.map (fun S => S.nums.mt) = f.sections.map (·.1) := all2_map_eq hSs (fun e S h => by rw [h.2.2.1])
  have hsorted : (Ss.map (fun S => (S.nums.mt, S.tree))).Pairwise (fun a b => a.1 < b.1) := by
    have := SMap.sorted_iff_keys.mp k3
    rw [← hkeys] at this
    exact List.pairwise_map.mpr (List.pairwise_map.mp this)
  have hfold := foldl_emplace_sorted (fun S : SecL => S.nums.mt) SecL.tree Ss [] (by simpa using hsorted)
  have hrel : ∀ (R : TSection → AnySection → Prop), (∀ (e : Int × AnySection) (S : SecL), S.Valid ∧ S.Full → S.nums = ⟨mat, f.mf, e.1⟩ →
      toSectionAny e.2 mat = .ok S.tree → SectionText f.mf e.2 S.core → R S.tree e.2) →
      MapRel R (Ss.foldl (fun (m : SMap TSection) b => m.emplace b.nums.mt b.tree) []) f.sections := by
    intro R hR
    rw [hfold, List.nil_append]
    refine all2_map_left.mpr (all2_swap (All2.mono (fun e S h => ?_) hSs))
    obtain ⟨a1, a2, a3, a4, a5, a6⟩ := h
    exact ⟨by rw [a3], hR e S a1 a3 a5 a6⟩
  have hprint : f.print mat = .ok (unlines ((Ss.map SecL.core).flatten ++ [endRecord ⟨mat, 0, 0⟩])) := by
    have hc : TMaterial.concat (f.sections'.map (fun x => x.print mat f.mf)) = .ok (unlines (Ss.map SecL.core).flatten) := by
      refine all2_concat (xs := f.sections') (bs := Ss.map SecL.core) ?_
      have : All2 (fun (x : AnySection) (S : SecL) => x.print mat f.mf = .ok (unlines S.core)) f.sections' Ss :=
        all2_map_left.mpr (All2.mono (fun e S h => h.2.2.2.1) hSs)
      exact all2_swap (all2_map_left.mpr (all2_swap this))
    unfold PFile.print
    rw [if_neg k2, hc, FEND_ok h1]
    simp only
    rw [fend_print (fits4 h1 h2)]
    simp
  cases hS' : Ss with
  | nil =>
    rw [hS'] at hSs
    generalize f.sections = m at hSs hne
    cases hSs; exact absurd rfl hne
  | cons S0 St =>
    have hS0 := hprop S0 (by rw [hS']; simp)
    have hp' : ∀ S ∈ S0 :: St, (S.Valid ∧ S.Full) ∧ S.extra = [] ∧ S.nums.mat = mat ∧ S.nums.mf = f.mf ∧ (f.mf = 8 → S.nums.mt = 454 ∨ S.nums.mt = 457 ∨ S.nums.mt = 459) := by
      rw [← hS']; exact hprop
    have hmf : (FileL.mk S0 St [⟨endRecord ⟨mat, 0, 0⟩, ⟨zeroCont, ⟨mat, 0, 0⟩⟩⟩]).mf = f.mf := hS0.2.2.2.1
    have hmat : (FileL.mk S0 St [⟨endRecord ⟨mat, 0, 0⟩, ⟨zeroCont, ⟨mat, 0, 0⟩⟩⟩]).mat = mat := hS0.2.2.1
    refine ⟨⟨S0, St, [⟨endRecord ⟨mat, 0, 0⟩, ⟨zeroCont, ⟨mat, 0, 0⟩⟩⟩]⟩, ⟨?_, ?_, ?_⟩, ⟨?_, rfl⟩, ⟨?_, ?_, ?_⟩, hmat, hmf, ?_, ?_, ⟨?_, ?_⟩, ?_⟩
    · intro S hS; exact ⟨(hp' S hS).1.1, by rw [hmf]; exact (hp' S hS).2.2.2.1⟩
    · have hq := List.pairwise_map.mp hsorted
      have : (Ss.map (fun S => S.nums.mt)).Pairwise (· < ·) := List.pairwise_map.mpr hq
      rw [hS'] at this
      exact this.imp (fun h => by omega)
    · intro l hl
      rw [List.mem_singleton.mp hl]
      exact fendLine h1 h2
    · intro S hS; exact (hp' S hS).2.1
    · rw [hmf]; exact k2
    · intro h8 S hS; rw [hmf] at h8; exact (hp' S hS).2.2.2.2 h8
    · intro S hS; exact (hp' S hS).1.2
    · intro S hS; rw [hmat]; exact (hp' S hS).2.2.1
    · rw [hprint, hS', FileL.lines, FileL.secs, List.flatMap_def]
      congr 4
      refine List.map_congr_left fun S hS => ?_
      simp [SecL.lines, (hp' S hS).2.1]
    · exact hmf.symm
    · have := hrel (fun s x => s.parseAny = .ok x) (fun e S a1 a2 a3 a4 => (sec_parse a1.1 a1.2).mpr (by rw [a2]; exact a4))
      rw [hS'] at this; exact this
    · have := hrel (fun s x => toSectionAny x mat = .ok s) (fun e S a1 a2 a3 a4 => a3)
      rw [hS'] at this; exact this

theorem _root_.ENDFtk.FileL.Plain.core {F : FileL} (h : F.Plain) : F.core = F.lines := by
  rw [F.lines_eq, List.drop_of_length_le (by have := h.2; omega), List.map_nil, List.append_nil]

theorem _root_.ENDFtk.MatL.Plain.core {M : MatL} (h : M.Plain) : M.core = M.lines := by
  rw [M.lines_eq, List.drop_of_length_le (by have := h.2; omega), List.map_nil, List.append_nil]

theorem toFile_layout {F : FileL} {f : PFile} {mat : Int} (hF : F.Valid) (hp : F.Plain) (h : f.print mat = .ok (unlines F.lines)) : toFile f mat = .ok F.tree := by
  unfold toFile
  rw [h]
  simp only
  have hd : readDivision ⟨unlines F.lines, 0⟩ = .ok (F.head.div, ⟨unlines (F.lines.drop 1), 1⟩) := by
    rw [F.lines_cons]
    simp only [unlines_cons, List.drop_succ_cons, List.drop_zero]
    exact readDivision_run hF.isHead.1 _ _
  obtain ⟨k, hk⟩ := readTFile_run hF (b := []) (fun h => by have := hp.2; rw [h] at this; simp at this) ⟨unlines (F.lines.drop 1), 1⟩
  rw [hp.core, List.append_nil] at hk
  rw [Parser.bind_ok hd, hk]

theorem toMaterial_layout {M : MatL} {m : PMaterial} (hM : M.Valid) (hp : M.Plain) (h : m.print = .ok (unlines M.lines)) : toMaterial m = .ok M.tree := by
  unfold toMaterial
  rw [h]
  simp only
  have hd : readDivision ⟨unlines M.lines, 0⟩ = .ok (M.head.div, ⟨unlines (M.lines.drop 1), 1⟩) := by
    rw [M.lines_cons]
    simp only [unlines_cons, List.drop_succ_cons, List.drop_zero]
    exact readDivision_run hM.isHead.1 _ _
  obtain ⟨k, hk⟩ := readTMaterial_run hM (b := []) (fun h => by have := hp.2; rw [h] at this; simp at this) ⟨unlines (M.lines.drop 1), 1⟩
  rw [hp.core, List.append_nil] at hk
  rw [Parser.bind_ok hd, hk]

/-- The layout of a material that is printed. -/
theorem material_layout {m : PMaterial} (hv : m.Valid) (hr : m.Rep) :
    ∃ M : MatL, M.Valid ∧ M.Plain ∧ M.Read ∧ M.mat = m.mat ∧ (∀ F ∈ M.files, ∀ S ∈ F.secs, S.nums.mat = M.mat) ∧ m.print = .ok (unlines M.lines) ∧
      MAgrees M.tree m ∧ MapRel (fun t f => toFile f m.mat = .ok t) M.tree.files m.files := by
  obtain ⟨⟨k1, k2⟩, k3, k4, k5⟩ := hv
  obtain ⟨Fs, hFs⟩ : ∃ Fs, All2 (fun (e : Int × PFile) (F : FileL) => F.Valid ∧ F.Plain ∧ F.Read ∧ F.mat = m.mat ∧ F.mf = e.1 ∧ (∀ S ∈ F.secs, S.nums.mat = m.mat) ∧
      e.2.print m.mat = .ok (unlines F.lines) ∧ FAgrees F.tree e.2 ∧ toFile e.2 m.mat = .ok F.tree) m.files Fs := by
    refine exists_all2 fun e he => ?_
    obtain ⟨a1, a2, a3⟩ := k5 e he
    obtain ⟨F, b1, b2, b3, b4, b5, b6, b7, b8, b9⟩ := file_layout a2 (hr e.2 (List.mem_map.mpr ⟨e, he, rfl⟩)) a3 k1 k2
    exact ⟨F, b1, b2, b3, b4, by rw [b5, a1], fun S hS => by rw [b6 S hS, b4], b7, b8, toFile_layout b1 b2 b7⟩
  have hkeys : Fs.map FileL.mf = m.files.map (·.1) := all2_map_eq hFs (fun e F h => h.2.2.2.2.1)
  have hsorted : (Fs.map (fun F => (F.mf, F.tree))).Pairwise (fun a b => a.1 < b.1) := by
    have := SMap.sorted_iff_keys.mp k4
    rw [← hkeys] at this
    exact List.pairwise_map.mpr (List.pairwise_map.mp this)
  have hfold := foldl_emplace_sorted FileL.mf FileL.tree Fs [] (by simpa using hsorted)
  have hrel : ∀ (R : TFile → PFile → Prop), (∀ (e : Int × PFile) (F : FileL), FAgrees F.tree e.2 → toFile e.2 m.mat = .ok F.tree → R F.tree e.2) →
      MapRel R (Fs.foldl (fun (m : SMap TFile) b => m.emplace b.mf b.tree) []) m.files := by
    intro R hR
    rw [hfold, List.nil_append]
    refine all2_map_left.mpr (all2_swap (All2.mono (fun e F h => ?_) hFs))
    exact ⟨h.2.2.2.2.1, hR e F h.2.2.2.2.2.2.2.1 h.2.2.2.2.2.2.2.2⟩
  have hprint : m.print = .ok (unlines ((Fs.map FileL.lines).flatten ++ [endRecord ⟨0, 0, 0⟩])) := by
    have hc : TMaterial.concat (m.files'.map (fun f => f.print m.mat)) = .ok (unlines (Fs.map FileL.lines).flatten) := by
      refine all2_concat (xs := m.files') (bs := Fs.map FileL.lines) ?_
      have : All2 (fun (x : PFile) (F : FileL) => x.print m.mat = .ok (unlines F.lines)) m.files' Fs :=
        all2_map_left.mpr (All2.mono (fun e S h => h.2.2.2.2.2.2.1) hFs)
      exact all2_swap (all2_map_left.mpr (all2_swap this))
    unfold PMaterial.print
    rw [hc]
    simp only
    rw [mend_print]
    simp
  have hprop : ∀ F ∈ Fs, F.Valid ∧ F.Plain ∧ F.Read ∧ F.mat = m.mat ∧ ∀ S ∈ F.secs, S.nums.mat = m.mat := by
    intro F hF
    obtain ⟨e, he, a1, a2, a3, a4, a5, a6, _⟩ := hFs.forall.2 F hF
    exact ⟨a1, a2, a3, a4, a6⟩
  cases hF' : Fs with
  | nil =>
    rw [hF'] at hFs
    generalize m.files = x at hFs k3
    cases hFs; exact absurd rfl k3
  | cons F0 Ft =>
    rw [hF'] at hprop hprint hrel hsorted
    have hF0 := hprop F0 (by simp)
    have hmat : (MatL.mk F0 Ft [⟨endRecord ⟨0, 0, 0⟩, ⟨zeroCont, ⟨0, 0, 0⟩⟩⟩]).mat = m.mat := hF0.2.2.2.1
    refine ⟨⟨F0, Ft, [⟨endRecord ⟨0, 0, 0⟩, ⟨zeroCont, ⟨0, 0, 0⟩⟩⟩]⟩, ⟨?_, ?_, ?_⟩, ⟨?_, rfl⟩, ?_, hmat, ?_, ?_, ⟨?_, ?_⟩, ?_⟩
    · intro F hF; exact ⟨(hprop F hF).1, by rw [hmat]; exact (hprop F hF).2.2.2.1⟩
    · have hq := List.pairwise_map.mp hsorted
      have : ((F0 :: Ft).map FileL.mf).Pairwise (· < ·) := List.pairwise_map.mpr hq
      exact this.imp (fun h => by omega)
    · intro l hl
      rw [List.mem_singleton.mp hl]
      exact mendLine
    · intro F hF; exact (hprop F hF).2.1
    · intro F hF; exact (hprop F hF).2.2.1
    · intro F hF S hS; rw [hmat]; exact (hprop F hF).2.2.2.2 S hS
    · rw [hprint, MatL.lines, MatL.files, List.flatMap_def]; rfl
    · exact hmat.symm
    · exact hrel FAgrees (fun e F a1 a2 => a1)
    · exact hrel _ (fun e F a1 a2 => a2)

end ENDFtk.Props

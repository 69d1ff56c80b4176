import Verif.Parsed.Text
import Verif.Parsed.Fill
/-
  Printing parsed files, materials and tapes, and reading the text.
-/
set_option linter.unusedVariables false
set_option linter.unusedSectionVars false
set_option linter.unusedSimpArgs false
namespace ENDFtk
variable [Disco] [CorrOps]

theorem fits4 {mat : Int} (h1 : 1 ≤ mat) (h2 : mat ≤ 9999) : fits 4 mat := by simp [fits]; omega

omit [Disco] in
theorem unlines_flatten (bs : List (List Text)) : unlines bs.flatten = (bs.map unlines).flatten := by
  induction bs with
  | nil => rfl
  | cons b bs ih => simp [ih]

/-! ### sections -/

theorem section_text {x : AnySection} (hv : x.Valid) (hr : x.Rep) {mat : Int} (h1 : 1 ≤ mat) (h2 : mat ≤ 9999) :
    ∃ ls, x.print mat x.mf = .ok (unlines ls) ∧ SectionText x.mf x ls ∧ StartsWith ls ⟨mat, x.mf, x.mt⟩ := by
  obtain ⟨T, x⟩ := x
  have hf := fits4 h1 h2
  obtain ⟨txt, e1, k, hk, e2⟩ := SecType.sect_round hv hr h1 hf
  obtain ⟨ls, k1, k2, k3⟩ := SecType.sect_canon hv.1 h1 hf
  have htxt : txt = unlines (ls ++ [endRecord ⟨mat, T.defn.mf, 0⟩]) := by
    rw [e1] at k1; exact Except.ok.inj k1
  subst htxt
  have hend : Nums.Fit ⟨mat, T.defn.mf, 0⟩ := ⟨hf, T.mf_fits, fits_zero 2⟩
  have hn : ∀ l ∈ ls ++ [endRecord ⟨mat, T.defn.mf, 0⟩], '\n' ∉ l := by
    intro l hl
    rcases List.mem_append.mp hl with hl | hl
    · exact (k3 l hl).2.1
    · rw [List.mem_singleton.mp hl]; exact (endRecord_canonical hend).2.1
  -- the first line
  obtain ⟨l0, ls', hls⟩ : ∃ l0 ls', ls = l0 :: ls' := by
    cases ls with
    | nil => simp [SecDef.NC] at k2
    | cons a b => exact ⟨a, b, rfl⟩
  have hdl : DivLine (T.defn.headDiv x mat) l0 := by
    have h3 := SecType.readDivision_head hv.1 hr h1 hf (T.defn.body x.awr x.data ⟨mat, T.defn.mf, x.mt⟩ ++ unlines [endRecord ⟨mat, T.defn.mf, 0⟩]) 0
    have h4 : printCont (T.defn.headCont x) ⟨mat, T.defn.mf, x.mt⟩ ++ (T.defn.body x.awr x.data ⟨mat, T.defn.mf, x.mt⟩ ++ unlines [endRecord ⟨mat, T.defn.mf, 0⟩])
        = unlines (ls ++ [endRecord ⟨mat, T.defn.mf, 0⟩]) := by
      have := SecType.print_eq x h1 hf
      rw [e1] at this
      rw [Except.ok.inj this, SecDef.lines, List.append_assoc]
    rw [h4] at h3
    obtain ⟨l, a1, a2, _⟩ := readDivision_inv h3
    have a3 : At l0 (unlines (ls ++ [endRecord ⟨mat, T.defn.mf, 0⟩])) (unlines (ls' ++ [endRecord ⟨mat, T.defn.mf, 0⟩])) := by
      rw [hls]
      simp only [List.cons_append, unlines_cons]
      exact At.nl (hn l0 (by simp [hls]))
    obtain ⟨rfl, _⟩ := a1.unique a3
    exact a2
  have hst : StartsWith (ls ++ [endRecord ⟨mat, T.defn.mf, 0⟩]) ⟨mat, T.defn.mf, x.mt⟩ := ⟨l0, ls' ++ [endRecord ⟨mat, T.defn.mf, 0⟩], T.defn.headDiv x mat, by simp [hls], hdl, rfl⟩
  refine ⟨ls ++ [endRecord ⟨mat, T.defn.mf, 0⟩], e1, ⟨⟨_, hst, ?_⟩, hn, k, fun h => ?_, fun r n => e2 r n⟩, hst⟩
  · refine sectionType?_iff.mpr ⟨rfl, fun m hm => ?_⟩
    have := hv.1.2.2.2.1
    simp only [hm] at this
    exact this
  · rw [hk h]
    simp [k2]

/-! ### files -/

theorem all2_map {α β γ : Type} {R : β → γ → Prop} {f : α → β} {as : List α} {cs : List γ} (h : All2 (fun a c => R (f a) c) as cs) : All2 R (as.map f) cs := by
  induction h with
  | nil => exact .nil
  | cons h _ ih => exact .cons h ih

theorem exists_all2 {α β : Type} {R : α → β → Prop} {as : List α} (h : ∀ a ∈ as, ∃ b, R a b) : ∃ bs, All2 R as bs := by
  induction as with
  | nil => exact ⟨[], .nil⟩
  | cons a as ih =>
    obtain ⟨b, hb⟩ := h a (by simp)
    obtain ⟨bs, hbs⟩ := ih (fun x hx => h x (by simp [hx]))
    exact ⟨b :: bs, .cons hb hbs⟩

theorem all2_concat {α : Type} {g : α → Except Err Text} {xs : List α} {bs : List (List Text)} (h : All2 (fun x b => g x = .ok (unlines b)) xs bs) :
    TMaterial.concat (xs.map g) = .ok (unlines bs.flatten) := by
  induction h with
  | nil => rfl
  | cons h _ ih => simp only [List.map_cons, h, TMaterial.concat, ih, List.flatten_cons, unlines_append]

theorem fendLine {mat : Int} (h1 : 1 ≤ mat) (h2 : mat ≤ 9999) : (DLine.mk (endRecord ⟨mat, 0, 0⟩) ⟨zeroCont, ⟨mat, 0, 0⟩⟩).IsFend := by
  refine ⟨endRecord_line ⟨fits4 h1 h2, fits_zero 1, fits_zero 2⟩ (by simp; omega) (by simp) (by simp), ?_, by simp; omega, rfl, rfl⟩
  simp [ZeroCols, zeroCont, Disco.eqD_zero]

theorem mendLine : (DLine.mk (endRecord ⟨0, 0, 0⟩) ⟨zeroCont, ⟨0, 0, 0⟩⟩).IsMend := by
  refine ⟨endRecord_line ⟨fits_zero 3, fits_zero 1, fits_zero 2⟩ (by simp) (by simp) (by simp), ?_, rfl⟩
  simp [ZeroCols, zeroCont, Disco.eqD_zero]

theorem tendLine : (DLine.mk (endRecord ⟨-1, 0, 0⟩) ⟨zeroCont, ⟨-1, 0, 0⟩⟩).IsTend := by
  refine ⟨endRecord_line ⟨by show fits 4 (-1); decide, fits_zero 1, fits_zero 2⟩ (by simp) (by simp) (by simp), ?_, rfl⟩
  simp [ZeroCols, zeroCont, Disco.eqD_zero]

theorem all2_and {α β : Type} {R S : α → β → Prop} {as : List α} {bs : List β} (h : All2 (fun a b => R a b ∧ S a b) as bs) : All2 R as bs ∧ All2 S as bs := by
  induction h with
  | nil => exact ⟨.nil, .nil⟩
  | cons h _ ih => exact ⟨.cons h.1 ih.1, .cons h.2 ih.2⟩

theorem all2_with {α β : Type} {R : α → β → Prop} {P : α → Prop} {as : List α} {bs : List β} (hP : ∀ a ∈ as, P a) (h : All2 R as bs) : All2 (fun a b => R a b ∧ P a) as bs := by
  induction h with
  | nil => exact .nil
  | cons h _ ih => exact .cons ⟨h, hP _ (by simp)⟩ (ih fun a ha => hP a (by simp [ha]))

theorem file_text {f : PFile} (hv : f.Valid) (hr : f.Rep) {mat : Int} (h1 : 1 ≤ mat) (h2 : mat ≤ 9999) :
    ∃ ls, f.print mat = .ok (unlines ls) ∧ FileText f.mf f.sections' ls ∧ PFile.make f.mf f.sections' = .ok f ∧
      (f.sections ≠ [] → ∃ mt, StartsWith ls ⟨mat, f.mf, mt⟩) := by
  obtain ⟨k1, k2, k3, k4⟩ := hv
  have hx : ∀ x ∈ f.sections', x.mf = f.mf ∧ x.Valid := by
    intro x hx
    obtain ⟨e, he, rfl⟩ := List.mem_map.mp hx
    exact (k4 e he).2
  obtain ⟨bs, hbs⟩ : ∃ bs, All2 (fun x b => x.print mat f.mf = .ok (unlines b) ∧ SectionText f.mf x b ∧ StartsWith b ⟨mat, f.mf, x.mt⟩) f.sections' bs := by
    refine exists_all2 fun x hxm => ?_
    obtain ⟨ls, a1, a2, a3⟩ := section_text (hx x hxm).2 (hr x hxm) h1 h2
    rw [(hx x hxm).1] at a1 a2 a3
    exact ⟨ls, a1, a2, a3⟩
  obtain ⟨b1, b2⟩ := all2_and hbs
  obtain ⟨b2, b3⟩ := all2_and b2
  refine ⟨bs.flatten ++ [endRecord ⟨mat, 0, 0⟩], ?_, ⟨bs, ⟨_, _⟩, rfl, b2, fendLine h1 h2⟩, ?_, ?_⟩
  · unfold PFile.print
    rw [if_neg k2, all2_concat b1, FEND_ok h1]
    simp only
    rw [fend_print (fits4 h1 h2)]
    simp
  · rw [PFile.make, PFile.sections', fillMap_values k3 (fun e he => (k4 e he).1)]
  · intro hne
    have : f.sections' ≠ [] := by simpa [PFile.sections', SMap.values] using hne
    generalize f.sections' = xs at b3 this
    cases b3 with
    | nil => simp at this
    | cons hx _ =>
      obtain ⟨l, rest, d, rfl, c1, c2⟩ := hx
      exact ⟨_, l, _, d, by simp; rfl, c1, c2⟩

theorem file_round {f : PFile} (hv : f.Valid) (hr : f.Rep) {mat : Int} (h1 : 1 ≤ mat) (h2 : mat ≤ 9999) :
    ∃ ls, f.print mat = .ok (unlines ls) ∧ ReadsAs f.NoCov (readFileFrom f.mf) f ls ∧ (f.sections ≠ [] → ∃ mt, StartsWith ls ⟨mat, f.mf, mt⟩) := by
  obtain ⟨ls, a1, a2, a3, a4⟩ := file_text hv hr h1 h2
  exact ⟨ls, a1, readFile_rd hv.2.1 a2 a3, a4⟩

/-! ### materials -/

theorem material_round {m : PMaterial} (hv : m.Valid) (hr : m.Rep) :
    ∃ ls, m.print = .ok (unlines ls) ∧ ReadsAs m.NoCov readMaterialFrom m ls ∧ ∃ mf mt, StartsWith ls ⟨m.mat, mf, mt⟩ := by
  obtain ⟨⟨k1, k2⟩, k3, k4, k5⟩ := hv
  have hx : ∀ f ∈ m.files', f.Valid ∧ f.sections ≠ [] := by
    intro x hx
    obtain ⟨e, he, rfl⟩ := List.mem_map.mp hx
    exact (k5 e he).2
  obtain ⟨bs, hbs⟩ : ∃ bs, All2 (fun f b => f.print m.mat = .ok (unlines b) ∧ FileBlock f b ∧ ∃ mf mt, StartsWith b ⟨m.mat, mf, mt⟩) m.files' bs := by
    refine exists_all2 fun f hf => ?_
    obtain ⟨ls, a1, a2, a3⟩ := file_round (hx f hf).1 (hr f hf) k1 k2
    obtain ⟨mt, a4⟩ := a3 (hx f hf).2
    exact ⟨ls, a1, ⟨⟨_, a4, rfl, (hx f hf).1.1⟩, a2⟩, _, _, a4⟩
  obtain ⟨b1, b2⟩ := all2_and hbs
  obtain ⟨b2, b3⟩ := all2_and b2
  obtain ⟨mf, mt, hst⟩ : ∃ mf mt, StartsWith (bs.flatten ++ [endRecord ⟨0, 0, 0⟩]) ⟨m.mat, mf, mt⟩ := by
    have : m.files' ≠ [] := by simpa [PMaterial.files', SMap.values] using k3
    generalize m.files' = xs at b3 this
    cases b3 with
    | nil => simp at this
    | cons hx _ =>
      obtain ⟨mf, mt, l, rest, d, rfl, c1, c2⟩ := hx
      exact ⟨mf, mt, l, _, d, by simp; rfl, c1, c2⟩
  refine ⟨bs.flatten ++ [endRecord ⟨0, 0, 0⟩], ?_, ?_, mf, mt, hst⟩
  · unfold PMaterial.print
    rw [all2_concat b1]
    simp only
    rw [mend_print]
    simp
  · refine readMaterial_rd (t := ⟨m.mat, mf, mt⟩) ⟨bs, ⟨_, _⟩, rfl, b2, mendLine⟩ hst ?_
    rw [PMaterial.make, PMaterial.files', fillMap_values k4 (fun e he => (k5 e he).1)]

/-! ### tapes -/

theorem tape_round {t : PTape} (hv : t.Valid) (hr : t.Rep) :
    ∃ ls, t.print = .ok (unlines ls) ∧ ReadsAs t.NoCov PTape.read ⟨⟨t.id.text, 0⟩, t.materials⟩ ls := by
  obtain ⟨k1, k2, k3, k4, k5⟩ := hv
  obtain ⟨bs, hbs⟩ : ∃ bs, All2 (fun m b => m.print = .ok (unlines b) ∧ MaterialBlock m b) t.materials bs := by
    refine exists_all2 fun m hm => ?_
    obtain ⟨ls, a1, a2, mf, mt, a3⟩ := material_round (k5 m hm) (hr m hm)
    refine ⟨ls, a1, ⟨_, a3, rfl, ?_⟩, a2⟩
    have := (k5 m hm).1.1
    simp only; omega
  obtain ⟨b1, b2⟩ := all2_and hbs
  have hte := DLine.isTend_iff.mp tendLine
  obtain ⟨l0, hl0, hl1, hl2⟩ : ∃ l0, printTpid t.id ⟨0, 0, 0⟩ = unlines [l0] ∧ TextLine ⟨0, 0, 0⟩ l0 ∧ t.id.text = padded 66 l0 := by
    have h := readTpid_printTpid (p := ⟨t.id.text, 0⟩) k1 k2 (fits_zero 3) [] 0
    obtain ⟨l, a1, a2, a3⟩ := readTpid_line.inv h
    have a4 := (readTpid_iff a1.1).mp a2
    refine ⟨l, ?_, a4.1, a4.2⟩
    have hp : printTpid (⟨t.id.text, 0⟩ : Tpid) ⟨0, 0, 0⟩ = printTpid t.id ⟨0, 0, 0⟩ := rfl
    rcases a1.2 with h3 | ⟨h3, _, h4⟩
    · simpa [hp] using h3
    · exfalso
      have : '\n' ∈ printTpid (⟨t.id.text, 0⟩ : Tpid) ⟨0, 0, 0⟩ := by simp [printTpid, tailText]
      simp only [List.append_nil] at h3
      rw [h3] at this
      exact a1.1 this
  refine ⟨l0 :: bs.flatten ++ [endRecord ⟨-1, 0, 0⟩], ?_, ?_⟩
  · unfold PTape.print
    rw [all2_concat b1]
    simp only
    rw [tend_print, hl0]
    simp
  · refine readTape_rd (t := ⟨⟨t.id.text, 0⟩, t.materials⟩) (id := ⟨t.id.text, 0⟩) (ms := t.materials) ⟨l0, bs, _, _, rfl, hl1, hl2, b2, hte.1, rfl⟩ ?_
    rw [PTape.make, if_neg]
    have h3 : 0 < t.materials.length := List.length_pos_iff.mpr k3
    rw [asInt, toInt32_of ⟨by omega, by omega⟩]
    omega

end ENDFtk

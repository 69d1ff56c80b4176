import Verif.Parsed.Agree
/-
  The tree and the parsed layers see the same: materials and tapes.
-/
set_option linter.unusedVariables false
set_option linter.unusedSectionVars false
set_option linter.unusedSimpArgs false
namespace ENDFtk
variable [Disco] [CorrOps]

/-- The files of the parsed material are what the files of the tree material parse as. -/
def MAgrees (t : TMaterial) (m : PMaterial) : Prop := m.mat = t.mat ∧ MapRel FAgrees t.files m.files

theorem MAgrees.func {t : TMaterial} {f g : PMaterial} (h1 : MAgrees t f) (h2 : MAgrees t g) : f = g := by
  cases f; cases g
  obtain ⟨a1, a2⟩ := h1
  obtain ⟨b1, b2⟩ := h2
  simp only at a1 a2 b1 b2
  have e := MapRel.func (R := FAgrees) (fun a b c h h' => FAgrees.func h h') a2 b2
  rw [e, a1, b1]

theorem knownMF_of_type {mf mt : Int} {T : SecType} (h : sectionType? mf mt = some T) : KnownMF mf := by
  have h1 := (sectionType?_iff.mp h).1
  rw [show T.defn.mf = T.nums.1 by rw [T.nums_eq]] at h1
  rw [← h1]
  cases T with
  | std T => cases T <;> rfl
  | cov => rfl

theorem FileL.lines_cons (F : FileL) : F.lines = F.head.text :: F.lines.drop 1 := by
  simp [FileL.lines, FileL.secs, SecL.lines, SecL.core, FileL.head]

theorem FAgrees.mf {F : FileL} {f : PFile} (h : FAgrees F.tree f) : f.mf = F.mf := h.1

/-- The first section of the file parses. -/
theorem FAgrees.first {F : FileL} (hv : F.Valid) {f : PFile} (h : FAgrees F.tree f) : ∃ x, F.first.tree.parseAny = .ok x := by
  obtain ⟨b1, b2⟩ := SMap.build (α := TSection) (fun S : SecL => S.nums.mt) SecL.tree hv.2.1
  obtain ⟨w, _, hw⟩ := h.2.get? ((b2 F.first.nums.mt F.first.tree).mpr ⟨F.first, by simp [FileL.secs], rfl, rfl⟩)
  exact ⟨w, hw⟩

theorem fileBlock_iff {F : FileL} (hv : F.Valid) (hp : F.Plain) (hr : F.Read) {f : PFile} : FileBlock f F.lines ↔ FAgrees F.tree f := by
  constructor
  · rintro ⟨⟨t, ⟨l, rest, d, e, hd, rfl⟩, h2, h3⟩, h4⟩
    rw [F.lines_cons] at e
    obtain ⟨rfl, _⟩ := List.cons.inj e
    have hu := hv.isHead.1.unique hd
    have hmf : f.mf = F.mf := by rw [← h2, ← hu]; rfl
    obtain ⟨_, this⟩ := h4.run [] 0
    rw [hmf] at this
    exact (file_read hv hp hr this).1
  · intro h
    refine ⟨⟨F.head.div.tail, ⟨F.head.text, F.lines.drop 1, F.head.div, F.lines_cons, hv.isHead.1, rfl⟩, ?_, ?_⟩, ?_⟩
    · exact h.mf.symm
    · obtain ⟨x, hx⟩ := h.first hv
      exact knownMF_of_type (sec_parse_mt (hv.1 F.first (by simp [FileL.secs])).1 hx).2.2.2.2
    · unfold PFile.NoCov
      rw [h.mf]
      exact file_reads hv hp hr h

theorem files_blocks {f f' : DLine} (hf : f.IsMend) (hf' : f'.IsMend) {fs : List PFile} {bs : List (List Text)} (h : All2 FileBlock fs bs)
    {Fs : List FileL} (hF : ∀ F ∈ Fs, F.Valid ∧ F.Plain ∧ F.Read) {r q : List Text}
    (e : (bs.flatten ++ [f.text]) ++ r = ((Fs.map FileL.lines).flatten ++ [f'.text]) ++ q) :
    bs = Fs.map FileL.lines ∧ r = q := by
  induction h generalizing Fs with
  | nil =>
    cases Fs with
    | nil => simp at e; exact ⟨rfl, e.2⟩
    | cons F Fs =>
      exfalso
      have hh := (hF F (by simp)).1.isHead
      rw [List.map_cons, List.flatten_cons, F.lines_cons] at e
      simp only [List.flatten_nil, List.nil_append, List.cons_append, List.cons.injEq] at e
      have := HasTail.unique hh.1.1.2.1 (e.1 ▸ hf.1.1.2.1)
      apply hh.2.2.2
      rw [this, hf.2.2]
  | cons hx hs ih =>
    rename_i x b xs bs
    have hx0 := hx
    obtain ⟨⟨t, ⟨l, rest, d, rfl, hd, rfl⟩, h2, h3⟩, h4⟩ := hx
    cases Fs with
    | nil =>
      exfalso
      simp only [List.flatten_nil, List.nil_append, List.map_nil, List.flatten_cons, List.cons_append, List.cons.injEq] at e
      have := HasTail.unique hd.1.2.1 (e.1 ▸ hf'.1.1.2.1)
      rw [this, hf'.2.2] at h3
      simp [KnownMF, implementedMF] at h3
    | cons F Fs =>
      obtain ⟨hv, hp, hrd⟩ := hF F (by simp)
      simp only [List.map_cons, List.flatten_cons, List.append_assoc] at e
      have hl : l = F.head.text := by
        have := e
        rw [F.lines_cons] at this
        simp only [List.cons_append, List.cons.injEq] at this
        exact this.1
      have hu : F.head.div = d := hv.isHead.1.unique (hl ▸ hd)
      have hmf : x.mf = F.mf := by rw [← h2, ← hu]; rfl
      obtain ⟨_, h5⟩ := h4.run (unlines (bs.flatten ++ ([f.text] ++ r))) 0
      rw [← unlines_append, e, unlines_append, hmf] at h5
      have h6 := (file_read hv hp hrd h5).2.1
      have hlen : (l :: rest).length = F.lines.length := by
        simp only at h6
        have h7 := congrArg unlines e
        rw [unlines_append (l :: rest), h6, unlines_append _ (_ ++ (_ ++ q))] at h7
        exact congrArg _ (unlines_inj h4.1 (FileL.lines_nl hp hv) (List.append_cancel_right h7))
      obtain ⟨e1, e2⟩ := List.append_inj e hlen
      obtain ⟨h7, h8⟩ := ih (Fs := Fs) (fun F hF' => hF F (by simp [hF'])) (by simpa using e2)
      exact ⟨by rw [e1, h7]; rfl, h8⟩

/-- A material that is read by reading the sections of its files. -/
def MatL.Read (M : MatL) : Prop := ∀ F ∈ M.files, F.Read

theorem material_make {M : MatL} (hv : M.Valid) {m : PMaterial} :
    (∃ fs, All2 (fun (F : FileL) f => FAgrees F.tree f) M.files fs ∧ PMaterial.make M.mat fs = .ok m) ↔ MAgrees M.tree m := by
  have key : ∀ fs, All2 (fun (F : FileL) f => FAgrees F.tree f) M.files fs → ∃ m, PMaterial.make M.mat fs = .ok m ∧ MAgrees M.tree m := by
    intro fs h
    have h' : All2 (fun (F : FileL) (f : PFile) => F.mf = f.mf ∧ FAgrees F.tree f) M.files fs := All2.mono (fun F f h => ⟨h.mf.symm, h⟩) h
    have hmap : fs.map PFile.mf = M.files.map FileL.mf := by
      clear h hv
      generalize M.files = Fs at h'
      induction h' with
      | nil => rfl
      | cons h _ ih => simp only [List.map_cons, ih, h.1]
    have hnd : (fs.map PFile.mf).Nodup := by rw [hmap]; exact hv.2.1
    refine ⟨⟨M.mat, fs.foldl (fun m b => m.emplace b.mf b) []⟩, ?_, rfl, ?_⟩
    · rw [PMaterial.make, fillMap_nil, if_pos hnd]
    · exact MapRel.foldl (ka := FileL.mf) (va := FileL.tree) (kb := PFile.mf) (vb := id) h' .nil
  constructor
  · rintro ⟨xs, h1, h2⟩
    obtain ⟨f', h3, h4⟩ := key xs h1
    rw [h2] at h3; cases h3; exact h4
  · intro h
    obtain ⟨b1, b2⟩ := SMap.build (α := TFile) FileL.mf FileL.tree hv.2.1
    obtain ⟨xs, hxs⟩ : ∃ xs, All2 (fun (F : FileL) f => FAgrees F.tree f) M.files xs := by
      refine exists_all2 fun F hF => ?_
      obtain ⟨w, _, hw⟩ := h.2.get? ((b2 F.mf F.tree).mpr ⟨F, hF, rfl, rfl⟩)
      exact ⟨w, hw⟩
    obtain ⟨f', h3, h4⟩ := key xs hxs
    rw [h.func h4]
    exact ⟨xs, hxs, h3⟩

theorem MatL.Plain.lines {M : MatL} (h : M.Plain) (hv : M.Valid) : ∃ mend : DLine, mend.IsMend ∧ M.lines = (M.files.map FileL.lines).flatten ++ [mend.text] := by
  obtain ⟨h1, h2⟩ := h
  obtain ⟨mend, hf⟩ := List.length_eq_one_iff.mp h2
  exact ⟨mend, hv.2.2 mend (by simp [hf]), by rw [MatL.lines, hf, List.flatMap_def]; rfl⟩

theorem MatL.lines_nl {M : MatL} (h : M.Plain) (hv : M.Valid) : ∀ l ∈ M.lines, '\n' ∉ l := by
  obtain ⟨mend, hf, e⟩ := h.lines hv
  rw [e]
  intro l hl
  rcases List.mem_append.mp hl with hl | hl
  · obtain ⟨b, hb, hl⟩ := List.mem_flatten.mp hl
    obtain ⟨F, hF, rfl⟩ := List.mem_map.mp hb
    exact FileL.lines_nl (h.1 F hF) (hv.1 F hF).1 l hl
  · rw [List.mem_singleton.mp hl]; exact hf.1.1.1

theorem MatL.lines_cons (M : MatL) : M.lines = M.head.text :: M.lines.drop 1 := by
  simp [MatL.lines, MatL.files, MatL.head, FileL.lines, FileL.secs, SecL.lines, SecL.core, FileL.head]

/-- The text of a material whose files parse is read, all of it. -/
theorem material_reads {M : MatL} (hv : M.Valid) (hp : M.Plain) (hr : M.Read) {m : PMaterial} (h : MAgrees M.tree m) :
    ReadsAs m.NoCov readMaterialFrom m M.lines := by
  obtain ⟨mend, hf, e⟩ := hp.lines hv
  have hall : ∀ F ∈ M.files, F.Valid ∧ F.Plain ∧ F.Read := fun F hF => ⟨(hv.1 F hF).1, hp.1 F hF, hr F hF⟩
  have hst : StartsWith M.lines M.head.div.tail := ⟨_, _, _, M.lines_cons, hv.isHead.1, rfl⟩
  obtain ⟨xs, h1, h2⟩ := (material_make hv).mpr h
  have hft : MaterialText xs M.lines := by
    refine ⟨M.files.map FileL.lines, mend, e, ?_, hf⟩
    refine all2_swap (all2_map_left.mpr ?_)
    exact All2.mono (fun F f h => (fileBlock_iff h.2.1 h.2.2.1 h.2.2.2).mpr h.1) (all2_with hall h1)
  have h2' : PMaterial.make M.head.div.tail.mat xs = .ok m := h2
  obtain ⟨k, hk, h4⟩ := readMaterial_run hft hst
  rw [h2'] at h4
  exact ⟨MatL.lines_nl hp hv, k, fun hn => hk fun f hf => hn f ((PMaterial.make_mem h2').mpr hf), h4⟩

/-- Reading the text of a material: the same as parsing the files the tree has found. -/
theorem material_read {M : MatL} (hv : M.Valid) (hp : M.Plain) (hr : M.Read) {m : PMaterial} {r : Text} {n : Int} {s' : St}
    (h : readMaterialFrom ⟨unlines M.lines ++ r, n⟩ = .ok (m, s')) :
    MAgrees M.tree m ∧ s'.rest = r ∧ (m.NoCov → s'.line = n + (M.lines.length : Int)) := by
  have hnl := MatL.lines_nl hp hv
  obtain ⟨mend, hf, e⟩ := hp.lines hv
  have hall : ∀ F ∈ M.files, F.Valid ∧ F.Plain ∧ F.Read := fun F hF => ⟨(hv.1 F hF).1, hp.1 F hF, hr F hF⟩
  have key : MAgrees M.tree m := by
    rw [← material_make hv]
    obtain ⟨d, s1, h1, h2⟩ := Parser.bind_eq_ok.mp h
    obtain ⟨l, a1, a2, a3⟩ := readDivision_inv h1
    have hhead : At M.head.text (unlines M.lines ++ r) (unlines (M.lines.drop 1) ++ r) := by
      rw [M.lines_cons]
      simp only [unlines_cons, List.append_assoc, List.cons_append, List.drop_succ_cons, List.drop_zero]
      exact At.nl hv.isHead.1.1.1
    obtain ⟨rfl, e3⟩ := a1.unique hhead
    obtain rfl := hv.isHead.1.unique a2
    obtain ⟨xs, rest, b1, ⟨bs, f', c1, c2, c3⟩, b4⟩ := readMaterial_inv a2 h2
    obtain ⟨a, b, hab⟩ := lines_both hnl (show Lines (M.head.text :: rest) (unlines M.lines ++ r) s'.rest from a1.lines.trans b1)
    rw [c1, e] at hab
    obtain ⟨h3, _⟩ := files_blocks c3 hf c2 hall hab
    have hxs : All2 (fun (F : FileL) f => FAgrees F.tree f) M.files xs := by
      rw [h3] at c2
      refine All2.mono (fun F f h => ?_) (all2_with hall (all2_map_left.mp (all2_swap c2)))
      exact (fileBlock_iff h.2.1 h.2.2.1 h.2.2.2).mp h.1
    exact ⟨xs, hxs, b4⟩
  obtain ⟨_, k, hk, h1⟩ := material_reads hv hp hr key
  rw [h1] at h
  cases h
  exact ⟨key, rfl, fun h => by rw [hk h]⟩

theorem MAgrees.first {M : MatL} (hv : M.Valid) {m : PMaterial} (h : MAgrees M.tree m) : ∃ x, M.first.first.tree.parseAny = .ok x := by
  obtain ⟨b1, b2⟩ := SMap.build (α := TFile) FileL.mf FileL.tree hv.2.1
  obtain ⟨w, _, hw⟩ := h.2.get? ((b2 M.first.mf M.first.tree).mpr ⟨M.first, by simp [MatL.files], rfl, rfl⟩)
  exact hw.first (hv.1 M.first (by simp [MatL.files])).1

theorem materialBlock_iff {M : MatL} (hv : M.Valid) (hp : M.Plain) (hr : M.Read) {m : PMaterial} : MaterialBlock m M.lines ↔ MAgrees M.tree m := by
  constructor
  · rintro ⟨_, h4⟩
    obtain ⟨_, h5⟩ := h4.run [] 0
    exact (material_read hv hp hr h5).1
  · intro h
    refine ⟨⟨M.head.div.tail, ⟨M.head.text, M.lines.drop 1, M.head.div, M.lines_cons, hv.isHead.1, rfl⟩, h.1.symm, ?_⟩, material_reads hv hp hr h⟩
    · obtain ⟨x, hx⟩ := h.first hv
      have := (sec_parse_mt ((hv.1 M.first (by simp [MatL.files])).1.1 M.first.first (by simp [FileL.secs])).1 hx).2.2.1
      have e : M.head.div.tail.mat = M.first.first.nums.mat := rfl
      omega

theorem mats_blocks {f f' : Text} {d d' : Division} (hf : DivLine d f) (hdm : d.tail.mat = -1) (hf' : DivLine d' f') (hdm' : d'.tail.mat = -1)
    {fs : List PMaterial} {bs : List (List Text)} (h : All2 MaterialBlock fs bs)
    {Ms : List MatL} (hM : ∀ M ∈ Ms, M.Valid ∧ M.Plain ∧ M.Read ∧ M.mat ≠ -1) {r q : List Text}
    (e : (bs.flatten ++ [f]) ++ r = ((Ms.map MatL.lines).flatten ++ [f']) ++ q) :
    bs = Ms.map MatL.lines ∧ r = q := by
  induction h generalizing Ms with
  | nil =>
    cases Ms with
    | nil => simp at e; exact ⟨rfl, e.2⟩
    | cons M Ms =>
      exfalso
      have hh := (hM M (by simp)).1.isHead
      rw [List.map_cons, List.flatten_cons, M.lines_cons] at e
      simp only [List.flatten_nil, List.nil_append, List.cons_append, List.cons.injEq] at e
      have := HasTail.unique hh.1.1.2.1 (e.1 ▸ hf.1.2.1)
      apply (hM M (by simp)).2.2.2
      rw [← hdm, ← this]; rfl
  | cons hx hs ih =>
    rename_i x b xs bs
    obtain ⟨⟨t, ⟨l, rest, dl, rfl, hd, rfl⟩, h2, h3⟩, h4⟩ := hx
    cases Ms with
    | nil =>
      exfalso
      simp only [List.flatten_nil, List.nil_append, List.map_nil, List.flatten_cons, List.cons_append, List.cons.injEq] at e
      have := HasTail.unique hd.1.2.1 (e.1 ▸ hf'.1.2.1)
      rw [this] at h3
      exact h3 hdm'
    | cons M Ms =>
      obtain ⟨hv, hp, hrd, _⟩ := hM M (by simp)
      simp only [List.map_cons, List.flatten_cons, List.append_assoc] at e
      obtain ⟨_, h5⟩ := h4.run (unlines (bs.flatten ++ ([f] ++ r))) 0
      rw [← unlines_append, e, unlines_append] at h5
      have h6 := (material_read hv hp hrd h5).2.1
      have hlen : (l :: rest).length = M.lines.length := by
        simp only at h6
        have h7 := congrArg unlines e
        rw [unlines_append (l :: rest), h6, unlines_append _ (_ ++ (_ ++ q))] at h7
        exact congrArg _ (unlines_inj h4.1 (MatL.lines_nl hp hv) (List.append_cancel_right h7))
      obtain ⟨e1, e2⟩ := List.append_inj e hlen
      obtain ⟨h7, h8⟩ := ih (Ms := Ms) (fun M hM' => hM M (by simp [hM'])) (by simpa using e2)
      exact ⟨by rw [e1, h7]; rfl, h8⟩

/-- The tape has the materials the tree has found. -/
def TapeAgrees (L : TapeL) (t : PTape) : Prop :=
  t.id = ⟨L.label, L.ntape⟩ ∧ All2 (fun (M : MatL) m => MAgrees M.tree m) L.mats t.materials ∧ PTape.make t.id t.materials = .ok t

/-- Reading the text of a tape. -/
theorem tape_reads {L : TapeL} (hv : L.Valid) (hp : ∀ M ∈ L.mats, M.Plain ∧ M.Read ∧ M.mat ≠ -1) {t : PTape} :
    (∀ r n s', PTape.read ⟨unlines L.lines ++ r, n⟩ = .ok (t, s') → TapeAgrees L t) ∧ (TapeAgrees L t → ReadsAs t.NoCov PTape.read t L.lines) := by
  obtain ⟨v1, v2, v3, v4⟩ := hv
  have hall : ∀ M ∈ L.mats, M.Valid ∧ M.Plain ∧ M.Read ∧ M.mat ≠ -1 := fun M hM => ⟨v2 M hM, hp M hM⟩
  have hnl : ∀ l ∈ L.lines, '\n' ∉ l := by
    intro l hl
    simp only [TapeL.lines, List.cons_append, List.mem_cons, List.mem_append, List.mem_flatMap, List.not_mem_nil, or_false] at hl
    rcases hl with rfl | ⟨M, hM, hl⟩ | rfl
    · exact v1.1
    · exact MatL.lines_nl (hp M hM).1 (v2 M hM) l hl
    · exact v4.1.1.1
  have htm : L.tend.div.tail.mat = -1 := by rw [v4.2.2]
  have hlab : L.label = padded 66 L.tpid := rfl
  have hft : ∀ ms, All2 (fun (M : MatL) m => MAgrees M.tree m) L.mats ms → TapeText ⟨L.label, L.ntape⟩ ms L.lines := by
    intro ms h
    refine ⟨L.tpid, L.mats.map MatL.lines, L.tend.text, L.tend.div, by rw [TapeL.lines, List.flatMap_def], v1, hlab, ?_, v4.1, htm⟩
    refine all2_swap (all2_map_left.mpr ?_)
    exact All2.mono (fun F f h => (materialBlock_iff h.2.1 h.2.2.1 h.2.2.2.1).mpr h.1) (all2_with hall h)
  constructor
  · intro r n s' h
    obtain ⟨id, ms, ls, a1, ⟨tpid, bs, tend, dt, c1, c2, c3, c4, c5, c6⟩, a4⟩ := readTape_inv h
    obtain ⟨a, b, hab⟩ := lines_both hnl a1
    rw [c1, TapeL.lines, List.flatMap_def] at hab
    simp only [List.cons_append, List.cons.injEq] at hab
    obtain ⟨rfl, hab⟩ := hab
    obtain ⟨h3, _⟩ := mats_blocks c5 c6 v4.1 htm c4 hall hab
    have hid : id = ⟨L.label, L.ntape⟩ := by
      have := HasTail.unique c2.2.1 v1.2.1
      cases id
      simp only [Nums.mk.injEq, and_true] at this c3 ⊢
      rw [Tpid.mk.injEq]
      exact ⟨by rw [c3, hlab], this⟩
    have hxs : All2 (fun (M : MatL) m => MAgrees M.tree m) L.mats ms := by
      rw [h3] at c4
      refine All2.mono (fun F f h => ?_) (all2_with hall (all2_map_left.mp (all2_swap c4)))
      exact (materialBlock_iff h.2.1 h.2.2.1 h.2.2.2.1).mp h.1
    have ht : t = ⟨id, ms⟩ := by
      unfold PTape.make at a4
      split at a4
      · cases a4
      · exact (Except.ok.inj a4).symm
    subst ht
    exact ⟨hid, hxs, a4⟩
  · rintro ⟨h1, h2, h3⟩
    obtain ⟨k, hk, h4⟩ := readTape_run (hft _ h2)
    rw [← h1, h3] at h4
    exact ⟨hnl, k, hk, h4⟩

theorem tape_read {L : TapeL} (hv : L.Valid) (hp : ∀ M ∈ L.mats, M.Plain ∧ M.Read ∧ M.mat ≠ -1) {t : PTape} {r : Text} {n : Int} {s' : St}
    (h : PTape.read ⟨unlines L.lines ++ r, n⟩ = .ok (t, s')) : TapeAgrees L t ∧ s'.rest = r ∧ (t.NoCov → s'.line = n + (L.lines.length : Int)) := by
  have key := (tape_reads hv hp).1 _ _ _ h
  obtain ⟨_, k, hk, h1⟩ := (tape_reads hv hp).2 key
  rw [h1] at h
  cases h
  exact ⟨key, rfl, fun h => by rw [hk h]⟩

end ENDFtk

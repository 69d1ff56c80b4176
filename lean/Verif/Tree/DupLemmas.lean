import Verif.Tree.ReadLemmas2
/-
  Duplicate sections and files are rejected, whatever follows them.
-/
set_option linter.unusedVariables false
set_option linter.unusedSectionVars false
set_option linter.unusedSimpArgs false
namespace ENDFtk
variable [Disco]

section
variable {α : Type} (mine : Division → Bool) (key : Division → Int) (item : Nums → Text → Parser α) (isEnd : Division → Bool)

/-- The loop fails if it fails at the line after some items. -/
theorem createMap_error (isFinal : Division → Bool) (hEnd : ∀ d : Division, d.isHead = true → isEnd d = false) {f : DLine} {g r : Text}
    (hf : DivLine f.div f.text) (hat : At f.text g r) (hfe : isEnd f.div = false)
    {its : List (Item α)} (hg : Good mine item isEnd its g) (hnd : (its.map (fun it => key it.head.div)).Nodup) (s : St)
    (herr : ∀ n fuel, createLoop mine key item isEnd (fuel + 1) g f.div (addItems key [] its) ⟨r, n⟩ = .error .exc) :
    createMap mine key item isEnd isFinal (itemsText its g) s = .error .exc := by
  have hfirst : DivLine (firstLine its f).div (firstLine its f).text := by
    cases its with
    | nil => exact hf
    | cons i is => exact hg.1
  have hlen := Good.length_le (its := its) (g := g)
  obtain ⟨n1, hn1⟩ := createLoop_run mine key item isEnd hEnd hf hat hfe its [] ((itemsText its g).length + 1 - its.length)
    (s.line - 1 + 1) hg hnd (by simp [SMap.has])
  rw [show (itemsText its g).length + 1 - its.length + its.length = (itemsText its g).length + 1 by omega] at hn1
  obtain ⟨k, hk⟩ := Nat.exists_eq_succ_of_ne_zero (show (itemsText its g).length + 1 - its.length ≠ 0 by omega)
  rw [hk, herr] at hn1
  have hd : readDivision ⟨itemsText its g, s.line - 1⟩ = .ok ((firstLine its f).div, ⟨afterFirst its g r, s.line - 1 + 1⟩) :=
    readDivision_at hfirst (itemsText_first hat (Good.heads mine item isEnd hg)) _
  rw [createMap, Parser.bind_ok (Parser.get_run _), Parser.bind_ok (Parser.set_run _ _), Parser.bind_ok hd, Parser.bind_err hn1]

end

theorem addItems_has {α : Type} (key : Division → Int) (its : List (Item α)) (k : Int) : ∀ (m : SMap α),
    (addItems key m its).has k = (m.has k || (its.map (fun it => key it.head.div)).contains k) := by
  induction its with
  | nil => intro m; simp [addItems]
  | cons it its ih =>
    intro m
    have : addItems key m (it :: its) = addItems key (m.emplace (key it.head.div) it.val) its := rfl
    rw [this, ih, SMap.has_emplace]
    simp only [List.map_cons, List.contains_cons]
    rw [show (k == key it.head.div) = (key it.head.div == k) from Bool.beq_comm]
    cases (key it.head.div == k) <;> cases (SMap.has m k) <;> simp

theorem readTFile_dup {F : FileL} (hF : F.Valid) {h : DLine} (hh : h.IsHead) (hmf : h.div.tail.mf = F.mf)
    (hmt : h.div.tail.mt ∈ F.secs.map (fun s => s.nums.mt)) {g r : Text} (hat : At h.text g r) (s : St) :
    readTFile F.head.div.tail (unlines (F.secs.flatMap SecL.lines) ++ g) s = .error .exc := by
  have hd := DLine.isHead_iff.mp hh
  have hnd : ((F.secs.map SecL.item).map (fun it => it.head.div.tail.mt)).Nodup := by
    rw [List.map_map]; exact hF.2.1
  have := createMap_error (fun d => d.tail.mf == F.mf) (fun d => d.tail.mt) readTSection Division.isSend Division.isFend isHead_not_isSend
    (f := h) hd.1 hat (isHead_not_isSend _ hd.2) (secs_good (g := g) F.secs hF.1) hnd s (by
      intro n fuel
      rw [createLoop, if_pos (by simp [hd.2, hmf]), if_pos]
      · rfl
      · rw [addItems_has, List.map_map]
        simp only [SMap.has, List.any_nil, Bool.false_or, List.contains_eq_mem, decide_eq_true_eq]
        exact hmt)
  rw [itemsText_secs] at this
  rw [readTFile, Parser.mapErr_error]
  exact ⟨.exc, by rw [show F.head.div.tail.mf = F.mf from rfl, Parser.bind_err this], rfl⟩

theorem at_file {F : FileL} (hF : F.Valid) (b : Text) : ∃ r, At F.head.text (unlines (F.secs.flatMap SecL.lines) ++ b) r := by
  refine ⟨unlines (F.first.body ++ [F.first.send] ++ F.first.extra.map DLine.text ++ F.others.flatMap SecL.lines) ++ b, ?_⟩
  have : unlines (F.secs.flatMap SecL.lines) ++ b = F.head.text ++ '\n' ::
      (unlines (F.first.body ++ [F.first.send] ++ F.first.extra.map DLine.text ++ F.others.flatMap SecL.lines) ++ b) := by
    simp [FileL.secs, SecL.lines, SecL.core, FileL.head]
  rw [this]
  exact At.nl hF.isHead.1.1.1

theorem MatL.files_split (m : MatL) : ∃ init, m.files = init ++ [m.last] := by
  refine ⟨m.files.dropLast, ?_⟩
  have h : m.files ≠ [] := by simp [MatL.files]
  have := m.last_eq
  rw [List.getLast?_eq_some_getLast h] at this
  rw [← Option.some.inj this, List.dropLast_concat_getLast h]

theorem readTMaterial_dupMT {M : MatL} (hM : M.Valid) {h : DLine} (hh : h.IsHead) (hl : M.last.fends = [])
    (hmf : h.div.tail.mf = M.last.mf) (hmt : h.div.tail.mt ∈ M.last.secs.map (fun s => s.nums.mt)) {g r : Text} (hat : At h.text g r) (s : St) :
    readTMaterial M.head.div.tail (unlines (M.files.flatMap FileL.lines) ++ g) s = .error .exc := by
  obtain ⟨init, hinit⟩ := M.files_split
  have hlast := hM.1 M.last (by rw [hinit]; simp)
  have hLh := DLine.isHead_iff.mp hlast.1.isHead
  have hLk := (Division.kinds M.last.head.div).1 hLh.2
  have hnd := hM.2.1
  rw [hinit, List.map_append, List.nodup_append] at hnd
  obtain ⟨nd1, _, nd2⟩ := hnd
  let g' := unlines (M.last.secs.flatMap SecL.lines) ++ g
  obtain ⟨r', hat'⟩ := at_file hlast.1 g
  have hgood : Good (fun d => d.tail.mat == M.mat) readTFile Division.isFend (init.map FileL.item) g' := by
    refine files_good init (fun f hf => hM.1 f (by rw [hinit]; simp [hf])) nd1 ?_
    intro f hf hn
    refine ⟨_, _, _, hat', hLh.1, hLk.1, hLk.2.1, ?_⟩
    simp only [hLh.2, Bool.true_and, beq_eq_false_iff_ne]
    intro he
    exact nd2 f.mf (List.mem_map_of_mem (List.mem_of_getLast? hf)) M.last.mf (by simp) he.symm
  have := createMap_error (fun d => d.tail.mat == M.mat) (fun d => d.tail.mf) readTFile Division.isFend Division.isMend isHead_not_isFend
    (f := M.last.head) hLh.1 hat' (isHead_not_isFend _ hLh.2) hgood (by rw [List.map_map]; exact nd1) s (by
      intro n fuel
      have hmat : M.last.head.div.tail.mat = M.mat := hlast.2
      rw [createLoop, if_pos (by simp [hLh.2, hmat])]
      split
      · rfl
      · rw [Parser.bind_err (readTFile_dup hlast.1 hh hmf hmt hat _)])
  rw [itemsText_files] at this
  rw [readTMaterial, Parser.mapErr_error]
  refine ⟨.exc, ?_, rfl⟩
  rw [show M.head.div.tail.mat = M.mat from rfl, hinit]
  have e : unlines ((init ++ [M.last]).flatMap FileL.lines) ++ g = unlines (init.flatMap FileL.lines) ++ (unlines (M.last.secs.flatMap SecL.lines) ++ g) := by
    simp [FileL.lines, hl]
  rw [e, Parser.bind_err this]

theorem readTMaterial_dupMF {M : MatL} (hM : M.Valid) {h : DLine} (hh : h.IsHead) (hl : M.last.fends = [] → h.div.tail.mf ≠ M.last.mf)
    (hmat : h.div.tail.mat = M.mat) (hmf : h.div.tail.mf ∈ M.files.map FileL.mf) {g r : Text} (hat : At h.text g r) (s : St) :
    readTMaterial M.head.div.tail (unlines (M.files.flatMap FileL.lines) ++ g) s = .error .exc := by
  have hd := DLine.isHead_iff.mp hh
  have hk := (Division.kinds h.div).1 hd.2
  have hgood : Good (fun d => d.tail.mat == M.mat) readTFile Division.isFend (M.files.map FileL.item) g := by
    refine files_good M.files hM.1 hM.2.1 ?_
    intro f hf hn
    rw [M.last_eq] at hf
    cases hf
    refine ⟨_, _, _, hat, hd.1, hk.1, hk.2.1, ?_⟩
    simp only [hd.2, Bool.true_and, beq_eq_false_iff_ne]
    exact hl hn
  have := createMap_error (fun d => d.tail.mat == M.mat) (fun d => d.tail.mf) readTFile Division.isFend Division.isMend isHead_not_isFend
    (f := h) hd.1 hat (isHead_not_isFend _ hd.2) hgood (by rw [List.map_map]; exact hM.2.1) s (by
      intro n fuel
      rw [createLoop, if_pos (by simp [hd.2, hmat]), if_pos]
      · rfl
      · rw [addItems_has, List.map_map]
        simp only [SMap.has, List.any_nil, Bool.false_or, List.contains_eq_mem, decide_eq_true_eq]
        exact hmf)
  rw [itemsText_files] at this
  rw [readTMaterial, Parser.mapErr_error]
  exact ⟨.exc, by rw [show M.head.div.tail.mat = M.mat from rfl, Parser.bind_err this], rfl⟩

theorem chained_append {ms : List MatL} {M : MatL} (h : Chained (ms ++ [M])) : Chained ms ∧ ∀ m, ms.getLast? = some m → m.CanFollow M := by
  induction ms with
  | nil => exact ⟨trivial, by simp⟩
  | cons a ms ih =>
    cases ms with
    | nil => exact ⟨trivial, by simpa using h.1⟩
    | cons b ms =>
      obtain ⟨i1, i2⟩ := ih h.2
      exact ⟨⟨h.1, i1⟩, by intro m hm; rw [List.getLast?_cons_cons] at hm; exact i2 m hm⟩

/-- The tape constructor fails if the last of some materials cannot be read. -/
theorem readTTape_error {tpid : Text} {nt : Int} {ms : List MatL} {M : MatL} (htp : TextLine ⟨nt, 0, 0⟩ tpid) (hv : ∀ m ∈ ms, m.Valid) (hM : M.Valid)
    (hch : Chained (ms ++ [M])) {g r : Text} (hat : At M.head.text g r)
    (herr : ∀ n, readTMaterial M.head.div.tail g ⟨r, n⟩ = .error .exc) (n : Int) :
    readTTape ⟨tpid ++ '\n' :: (unlines (ms.flatMap MatL.lines) ++ g), n⟩ = .error .exc := by
  obtain ⟨hc1, hc2⟩ := chained_append hch
  have hh := DLine.isHead_iff.mp hM.isHead
  have hk := (Division.kinds M.head.div).1 hh.2
  have hlen := Good.length_le (its := ms.map MatL.item) (g := g)
  rw [List.length_map] at hlen
  obtain ⟨k, hk'⟩ := Nat.exists_eq_add_of_le hlen
  obtain ⟨m, hm⟩ := tapeLoop_steps hh.1 hat hk.1 hk.2.1 hk.2.2.1 ms [] (k + 1) (n + 1 + 1) hv hc1 (by
    intro m hm hn
    obtain ⟨c1, c2⟩ := hc2 m hm hn
    refine ⟨?_, fun hl => ?_⟩
    · simp only [hh.2, Bool.true_and, beq_eq_false_iff_ne]; exact c1
    · simp only [hh.2, Bool.true_and, beq_eq_false_iff_ne]; exact c2 hl)
  have hdivs : ∀ it ∈ ms.map MatL.item, DivLine it.head.div it.head.text := by
    intro it hit
    obtain ⟨y, hy, rfl⟩ := List.mem_map.mp hit
    exact (hv y hy).isHead.1
  have hat' := itemsText_first (its := ms.map MatL.item) hat hdivs
  have hdiv : DivLine (firstLine (ms.map MatL.item) M.head).div (firstLine (ms.map MatL.item) M.head).text := by
    cases ms with
    | nil => exact hh.1
    | cons m' ms => exact (hv m' (by simp)).isHead.1
  rw [readTTape, Parser.mapErr_error]
  refine ⟨.exc, ?_, rfl⟩
  have htp' : readTpid ⟨tpid ++ '\n' :: (unlines (ms.flatMap MatL.lines) ++ g), n⟩ = .ok (_, ⟨_, n + 1⟩) :=
    readTpid_run (t := ⟨tpid, nt, [], ⟨[], ⟨zeroCont, ⟨0, 0, 0⟩⟩⟩⟩) htp _ n
  rw [Parser.bind_ok htp', Parser.bind_ok (Parser.get_run _), ← itemsText_mats, Parser.bind_ok (readDivision_at hdiv hat' _)]
  simp only
  rw [show (itemsText (ms.map MatL.item) g).length + 1 = k + 1 + ms.length by omega]
  refine Parser.bind_err ?_
  rw [hm, tapeLoop, if_pos hh.2, Parser.bind_err (herr _)]

end ENDFtk

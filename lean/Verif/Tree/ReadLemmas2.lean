import Verif.Tree.ReadLemmas
/-
  tree::Material and tree::Tape constructors.
-/
set_option linter.unusedVariables false
set_option linter.unusedSectionVars false
set_option linter.unusedSimpArgs false
namespace ENDFtk
variable [Disco]

def FileL.item (f : FileL) : Item TFile := ⟨f.head, f.tailLines, f.fends.drop 1, f.tree⟩

theorem FileL.item_core (f : FileL) : f.item.core = f.core := by rw [f.core_eq]; rfl
theorem FileL.item_lines (f : FileL) : f.item.lines = f.lines := by
  rw [f.lines_eq, ← f.item_core]; rfl

namespace MatL
/-- The lines up to and including the first MEND. -/
def core (m : MatL) : List Text := m.files.flatMap FileL.lines ++ (m.mends.take 1).map DLine.text
def head (m : MatL) : DLine := m.first.head
theorem core_eq (m : MatL) : m.core = m.head.text :: m.core.drop 1 := by
  simp [core, head, files, FileL.head, FileL.lines, FileL.secs, SecL.lines, SecL.core]
theorem lines_eq (m : MatL) : m.lines = m.core ++ (m.mends.drop 1).map DLine.text := by
  simp only [lines, core, List.append_assoc, ← List.map_append, List.take_append_drop]
def item (m : MatL) : Item TMaterial := ⟨m.head, m.core.drop 1, m.mends.drop 1, m.tree⟩
theorem item_core (m : MatL) : m.item.core = m.core := by rw [m.core_eq]; rfl
theorem item_lines (m : MatL) : m.item.lines = m.lines := by
  rw [m.lines_eq, ← m.item_core]; rfl
end MatL

theorem FileL.Valid.isHead {F : FileL} (h : F.Valid) : F.head.IsHead := (h.1 F.first (by simp [FileL.secs])).1.1

theorem files_good {mat : Int} {g : Text} : ∀ (fs : List FileL), (∀ f ∈ fs, f.Valid ∧ f.mat = mat) → (fs.map FileL.mf).Nodup →
    (∀ f, fs.getLast? = some f → f.Next g) →
    Good (fun d => d.tail.mat == mat) readTFile Division.isFend (fs.map FileL.item) g := by
  intro fs
  induction fs with
  | nil => intro _ _ _; trivial
  | cons f fs ih =>
    intro h hnd hlast
    obtain ⟨hv, hm⟩ := h f (by simp)
    have hh := DLine.isHead_iff.mp hv.isHead
    simp only [List.map_cons, List.nodup_cons] at hnd
    refine ⟨hh.1, hh.2, by simpa [FileL.item, FileL.mat, FileL.head, SecL.nums] using hm, ?_, ?_, ih (fun x hx => h x (by simp [hx])) hnd.2 ?_⟩
    · intro l hl; exact DLine.isFend_iff.mp (hv.2.2 l (List.mem_of_mem_drop hl))
    · intro n
      rw [FileL.item_core]
      refine readTFile_run hv ?_ _
      intro hnil
      simp only [FileL.item, hnil, List.drop_nil, List.map_nil, unlines_nil, List.nil_append]
      cases fs with
      | nil => simpa [itemsText] using hlast f (by simp) hnil
      | cons f' fs =>
        obtain ⟨hv', _⟩ := h f' (by simp)
        have hh' := DLine.isHead_iff.mp hv'.isHead
        obtain ⟨k1, k2, _⟩ := (Division.kinds f'.head.div).1 hh'.2
        refine ⟨f'.head.text, f'.head.div, unlines f'.item.body ++ (unlines (f'.item.extra.map DLine.text) ++ itemsText (fs.map FileL.item) g),
          ?_, hh'.1, k1, k2, ?_⟩
        · simp only [itemsText, List.map_cons, List.flatMap_cons, Item.lines, unlines_append, List.append_assoc]
          show At _ (unlines (f'.head.text :: f'.item.body) ++ _) _
          rw [unlines_cons, List.append_assoc, List.cons_append]
          exact At.nl hh'.1.1.1
        · rw [hh'.2]
          simp only [Bool.true_and, beq_eq_false_iff_ne]
          intro he
          apply hnd.1
          simp only [List.map_cons, List.mem_cons]
          exact .inl he.symm
    · intro x hx
      apply hlast
      cases fs with
      | nil => simp at hx
      | cons f' fs => rw [List.getLast?_cons_cons]; exact hx

theorem addItems_files (fs : List FileL) (m : SMap TFile) :
    addItems (fun d => d.tail.mf) m (fs.map FileL.item) = fs.foldl (fun m f => m.emplace f.mf f.tree) m := by
  simp only [addItems, List.foldl_map]
  rfl

theorem itemsText_files (fs : List FileL) (g : Text) : itemsText (fs.map FileL.item) g = unlines (fs.flatMap FileL.lines) ++ g := by
  simp only [itemsText, List.flatMap_map, FileL.item_lines]

/-- What must hold of the line that follows a material without MEND. -/
def MatL.Next (m : MatL) (b : Text) : Prop :=
  m.mends = [] → ∃ l d r, At l b r ∧ DivLine d l ∧ d.isFend = false ∧ d.isMend = false ∧ (d.isHead && d.tail.mat == m.mat) = false ∧
    (m.last.fends = [] → d.isSend = false ∧ (d.isHead && d.tail.mf == m.last.mf) = false)

theorem MatL.last_eq (m : MatL) : m.files.getLast? = some m.last := by
  simp [MatL.last, MatL.files, List.getLast?_cons]

theorem readTMaterial_run {M : MatL} (hM : M.Valid) {b : Text} (hb : M.Next b) (s : St) :
    ∃ m, readTMaterial M.head.div.tail (unlines M.core ++ b) s = .ok (M.tree, ⟨b, m⟩) := by
  have hgood : ∀ g, M.last.Next g → Good (fun d => d.tail.mat == M.mat) readTFile Division.isFend (M.files.map FileL.item) g := by
    intro g hg
    refine files_good M.files hM.1 hM.2.1 ?_
    intro f hf
    rw [M.last_eq] at hf
    exact (Option.some.inj hf) ▸ hg
  have hnd : ((M.files.map FileL.item).map (fun it => it.head.div.tail.mf)).Nodup := by
    rw [List.map_map]; exact hM.2.1
  have key : ∃ m, createMap (fun d => d.tail.mat == M.mat) (fun d => d.tail.mf) readTFile Division.isFend Division.isMend (unlines M.core ++ b) s
      = .ok (addItems (fun d => d.tail.mf) [] (M.files.map FileL.item), ⟨b, m⟩) := by
    cases hfe : M.mends with
    | nil =>
      obtain ⟨l, d, r, h1, h2, h3, h4, h5, h6⟩ := hb hfe
      obtain ⟨m, hm⟩ := createMap_run (fun d => d.tail.mat == M.mat) (fun d => d.tail.mf) readTFile Division.isFend Division.isMend
        isHead_not_isFend (f := ⟨l, d⟩) h2 h1 h3 h5
        (hgood b fun hn => ⟨l, d, r, h1, h2, (h6 hn).1, h3, (h6 hn).2⟩) hnd s
      refine ⟨m, ?_⟩
      rw [itemsText_files] at hm
      simp only [MatL.core, hfe, List.take_nil, List.map_nil, List.append_nil]
      rw [hm]
      simp [h4]
    | cons fe fes =>
      have hfe1 := DLine.isMend_iff.mp (hM.2.2 fe (by simp [hfe]))
      have hk := Division.kinds fe.div
      have n1 : fe.div.isSend = false := by
        cases h : fe.div.isSend with
        | false => rfl
        | true => have := (hk.2.1 h).2.1; rw [hfe1.2] at this; cases this
      have n2 : fe.div.isFend = false := by
        cases h : fe.div.isFend with
        | false => rfl
        | true => have := (hk.2.2.1 h).1; rw [hfe1.2] at this; cases this
      have n3 : fe.div.isHead = false := by
        cases h : fe.div.isHead with
        | false => rfl
        | true => have := (hk.1 h).2.2.1; rw [hfe1.2] at this; cases this
      have hat := At.nl hfe1.1.1.1 (r := b)
      obtain ⟨m, hm⟩ := createMap_run (fun d => d.tail.mat == M.mat) (fun d => d.tail.mf) readTFile Division.isFend Division.isMend
        isHead_not_isFend (f := fe) hfe1.1 hat n2 (by simp [n3]) (hgood _ fun hn => ⟨_, _, _, hat, hfe1.1, n1, n2, by simp [n3]⟩) hnd s
      refine ⟨m, ?_⟩
      rw [itemsText_files] at hm
      simp only [MatL.core, hfe, List.take_succ_cons, List.take_zero, List.map_cons, List.map_nil, unlines_append, unlines_cons, unlines_nil,
        List.append_assoc, List.cons_append, List.nil_append]
      rw [hm]
      simp [hfe1.2]
  obtain ⟨m, hm⟩ := key
  refine ⟨m, ?_⟩
  rw [readTMaterial, Parser.mapErr_ok]
  rw [show M.head.div.tail.mat = M.mat from rfl, Parser.bind_ok hm, addItems_files]
  rfl

/-- What is known of a material that was read. -/
def QM (h : DLine) (body : List Text) (v : TMaterial) (rest : Text) : Prop :=
  ∃ M : MatL, M.Valid ∧ M.mends.length ≤ 1 ∧ M.head = h ∧ M.lines = h.text :: body ∧ v = M.tree ∧
    (M.mends = [] → NextNot (fun d => d.isHead && d.tail.mat == M.mat) rest ∧
      (M.last.fends = [] → NextNot (fun d => d.isHead && d.tail.mf == M.last.mf) rest))

theorem chain_files {its : List (Item TFile)} {s b : Text} (h : Chain QF its s b) {mat : Int}
    (hok : ∀ i ∈ its, i.Ok (fun d => d.tail.mat == mat) Division.isFend) :
    ∃ Fs : List FileL, Fs.map (fun F => (F.head, F.lines, F.tree)) = its.map (fun i => (i.head, i.lines, i.val)) ∧
      (∀ F ∈ Fs, F.Valid ∧ F.mat = mat) ∧
      ∀ F, Fs.getLast? = some F → F.fends = [] → NextNot (fun d => d.isHead && d.tail.mf == F.mf) b := by
  induction h with
  | nil s => exact ⟨[], rfl, by simp, by simp⟩
  | @cons it its s s1 s2 b h1 h2 h3 h4 h5 ih =>
    obtain ⟨Fs, e1, e2, e3⟩ := ih fun i hi => hok i (by simp [hi])
    obtain ⟨F, q1, q2, q3, q4, q5, q6⟩ := h3
    obtain ⟨o1, o2, o3, o4⟩ := hok it (by simp)
    refine ⟨{ F with fends := F.fends ++ it.extra } :: Fs, ?_, ?_, ?_⟩
    · simp only [List.map_cons, e1, List.cons.injEq, and_true, Prod.mk.injEq]
      refine ⟨q3, ?_, q5.symm⟩
      show F.secs.flatMap SecL.lines ++ (F.fends ++ it.extra).map DLine.text = it.lines
      rw [List.map_append, ← List.append_assoc]
      show F.lines ++ _ = _
      rw [q4]; rfl
    · intro X hX
      rcases List.mem_cons.mp hX with rfl | hX
      · refine ⟨⟨q1.1, q1.2.1, ?_⟩, ?_⟩
        · intro l hl
          rcases List.mem_append.mp hl with hl | hl
          · exact q1.2.2 l hl
          · exact DLine.isFend_iff.mpr (o4 l hl)
        · show F.head.div.tail.mat = mat
          rw [q3]; simpa using o3
      · exact e2 X hX
    · intro X hX hn
      cases Fs with
      | nil =>
        simp only [List.getLast?_singleton, Option.some.injEq] at hX
        subst hX
        simp only [List.append_eq_nil_iff] at hn
        have hits : its = [] := by simpa using e1.symm
        subst hits
        rw [hn.2] at h4
        cases h4
        cases h5
        exact (q6 hn.1).2
      | cons F' Fs =>
        rw [List.getLast?_cons_cons] at hX
        exact e3 X hX hn

theorem readTMaterial_inv {d : Division} {l begin : Text} {s : St} (ha : At l begin s.rest) (hd : DivLine d l) (hh : d.isHead = true) :
    Post (readTMaterial d.tail begin s) (fun x => ∃ body, Lines (l :: body) begin x.2.rest ∧ QM ⟨l, d⟩ body x.1 x.2.rest) := by
  have h := createMap_inv (fun x => x.tail.mat == d.tail.mat) (fun d => d.tail.mf) readTFile Division.isFend Division.isMend (Q := QF)
    (fun d l begin s h1 h2 h3 _ => readTFile_inv h1 h2 h3) ha hd hh (by simp) s
  cases hc : createMap (fun x => x.tail.mat == d.tail.mat) (fun d => d.tail.mf) readTFile Division.isFend Division.isMend begin s with
  | error e =>
    rw [hc] at h
    have : readTMaterial d.tail begin s = .error (catchStd e) := by
      rw [readTMaterial, Parser.mapErr_error]
      exact ⟨e, by rw [Parser.bind_err hc], rfl⟩
    rw [this]
    exact stdErr_catchStd h
  | ok x =>
    obtain ⟨m', s'⟩ := x
    rw [hc] at h
    have : readTMaterial d.tail begin s = .ok (⟨d.tail.mat, m'⟩, s') := by
      rw [readTMaterial, Parser.mapErr_ok, Parser.bind_ok hc]; rfl
    rw [this]
    obtain ⟨it, is, fin, begin', l', r', d', c1, c2, c3, c4, c5, c6, c7, c8, c9, c10⟩ := h
    obtain ⟨Fs, e1, e2, e3⟩ := chain_files c1 c3
    cases Fs with
    | nil => simp at e1
    | cons F Fs =>
      obtain ⟨t1, t2, t3, t4⟩ := map_triple e1
      have hF : F.head = ⟨l, d⟩ := by
        simp only [List.map_cons, List.cons.injEq] at t1
        rw [t1.1, c6]
      have hfin : (∀ f ∈ fin, f.IsMend) ∧ fin.length ≤ 1 := by
        rcases c10 with ⟨h1, rfl⟩ | ⟨h1, rfl⟩
        · refine ⟨?_, by simp⟩
          intro f hf
          simp only [List.mem_singleton] at hf
          subst hf
          exact DLine.isMend_iff.mpr ⟨c8, h1⟩
        · simp
      let M : MatL := ⟨F, Fs, fin⟩
      have hlines : Lines M.lines begin s'.rest := by
        have := c1.lines.trans c2
        rw [← t2] at this
        exact this
      have hFt : F.first.head.text = l := by
        have : F.first.head = ⟨l, d⟩ := hF
        rw [this]
      have hcons : M.lines = l :: (M.lines.drop 1) := by
        simp [M, MatL.lines, MatL.files, FileL.lines, FileL.secs, SecL.lines, SecL.core, hFt]
      refine ⟨M.lines.drop 1, by rw [← hcons]; exact hlines, M, ⟨?_, ?_, hfin.1⟩, hfin.2, hF, hcons, ?_, ?_⟩
      · intro X hX
        obtain ⟨v1, v2⟩ := e2 X hX
        refine ⟨v1, ?_⟩
        show _ = F.head.div.tail.mat
        rw [hF]; exact v2
      · have : M.files.map FileL.mf = ((F :: Fs).map FileL.head).map (fun h => h.div.tail.mf) := by
          rw [List.map_map]; rfl
        rw [this, t1, List.map_map]
        exact c5
      · have := t4 (SMap TFile) (fun h => h.div.tail.mf) (fun u k v => u.emplace k v) []
        show TMaterial.mk _ _ = TMaterial.mk F.head.div.tail.mat _
        rw [hF, c4]
        congr 1
        exact this.symm
      · intro hnil
        have hnil : fin = [] := hnil
        rcases c10 with ⟨h1, h2⟩ | ⟨h1, h2⟩
        · rw [hnil] at h2; cases h2
        · subst h2
          have hb : begin' = s'.rest := by cases c2; rfl
          rw [← hb]
          refine ⟨(nextNot_iff c7 c8).mpr ?_, fun hl => e3 M.last M.last_eq hl⟩
          show (d'.isHead && d'.tail.mat == F.head.div.tail.mat) = false
          rw [hF]; exact c9

/-! ### tape -/

theorem MatL.Valid.isHead {M : MatL} (h : M.Valid) : M.head.IsHead := (h.1 M.first (by simp [MatL.files])).1.isHead

theorem itemsText_mats (ms : List MatL) (g : Text) : itemsText (ms.map MatL.item) g = unlines (ms.flatMap MatL.lines) ++ g := by
  simp only [itemsText, List.flatMap_map, MatL.item_lines]

theorem isTend_not {d : Division} (h : d.isTend = true) : d.isHead = false ∧ d.isSend = false ∧ d.isFend = false ∧ d.isMend = false := by
  obtain ⟨k1, k2, k3, k4⟩ := Division.kinds d
  refine ⟨?_, ?_, ?_, ?_⟩
  · cases hh : d.isHead with
    | false => rfl
    | true => rw [(k1 hh).2.2.2] at h; cases h
  · cases hh : d.isSend with
    | false => rfl
    | true => rw [(k2 hh).2.2] at h; cases h
  · cases hh : d.isFend with
    | false => rfl
    | true => rw [(k3 hh).2] at h; cases h
  · cases hh : d.isMend with
    | false => rfl
    | true => rw [k4 hh] at h; cases h

/-- Line `f` can follow material `m`. -/
def MatL.Before (m : MatL) (f : DLine) : Prop :=
  m.mends = [] → (f.div.isHead && f.div.tail.mat == m.mat) = false ∧
    (m.last.fends = [] → (f.div.isHead && f.div.tail.mf == m.last.mf) = false)

theorem tapeLoop_steps {f : DLine} {g r : Text} (hfd : DivLine f.div f.text) (hat : At f.text g r) (f2 : f.div.isSend = false)
    (f3 : f.div.isFend = false) (f4 : f.div.isMend = false) :
    ∀ (ms : List MatL) (x : SMap TMaterial) (fuel : Nat) (n : Int), (∀ m ∈ ms, m.Valid) → Chained ms →
    (∀ m, ms.getLast? = some m → m.Before f) →
    ∃ n', tapeLoop (fuel + ms.length) (itemsText (ms.map MatL.item) g) (firstLine (ms.map MatL.item) f).div x
        ⟨afterFirst (ms.map MatL.item) g r, n⟩ =
      tapeLoop fuel g f.div (ms.foldl (fun x m => SMap.emplaceMulti m.mat m.tree x) x) ⟨r, n'⟩ := by
  intro ms
  induction ms with
  | nil =>
    intro x fuel n _ _ _
    exact ⟨n, by simp [itemsText, firstLine, afterFirst]⟩
  | cons M ms ih =>
    intro x fuel n hv hch hfol
    have hM := hv M (by simp)
    have hh := DLine.isHead_iff.mp hM.isHead
    have hdivs : ∀ it ∈ ms.map MatL.item, DivLine it.head.div it.head.text := by
      intro it hit
      obtain ⟨y, hy, rfl⟩ := List.mem_map.mp hit
      exact (hv y (by simp [hy])).isHead.1
    have hat' := itemsText_first (its := ms.map MatL.item) hat hdivs
    have hdiv : DivLine (firstLine (ms.map MatL.item) f).div (firstLine (ms.map MatL.item) f).text ∧
        (firstLine (ms.map MatL.item) f).div.isMend = false ∧ (firstLine (ms.map MatL.item) f).div.isFend = false ∧
        (firstLine (ms.map MatL.item) f).div.isSend = false := by
      cases ms with
      | nil => exact ⟨hfd, f4, f3, f2⟩
      | cons m' ms =>
        have h' := DLine.isHead_iff.mp (hv m' (by simp)).isHead
        have hk := (Division.kinds m'.head.div).1 h'.2
        exact ⟨h'.1, hk.2.2.1, hk.2.1, hk.1⟩
    have hnext : M.Next (unlines (M.item.extra.map DLine.text) ++ itemsText (ms.map MatL.item) g) := by
      intro hnil
      simp only [MatL.item, hnil, List.drop_nil, List.map_nil, unlines_nil, List.nil_append]
      refine ⟨_, _, _, hat', hdiv.1, hdiv.2.2.1, hdiv.2.1, ?_, fun hl => ⟨hdiv.2.2.2, ?_⟩⟩
      · cases ms with
        | nil => exact (hfol M (by simp) hnil).1
        | cons m' ms =>
          have := (hch.1 hnil).1
          simp only [List.map_cons, firstLine, Bool.and_eq_false_iff, beq_eq_false_iff_ne]
          exact .inr this
      · cases ms with
        | nil => exact (hfol M (by simp) hnil).2 hl
        | cons m' ms =>
          have := (hch.1 hnil).2 hl
          simp only [List.map_cons, firstLine, Bool.and_eq_false_iff, beq_eq_false_iff_ne]
          exact .inr this
    have hch' : Chained ms := by
      cases ms with
      | nil => trivial
      | cons m' ms => exact hch.2
    obtain ⟨n1, hn1⟩ := readTMaterial_run hM hnext ⟨afterFirst ((M :: ms).map MatL.item) g r, n⟩
    obtain ⟨n2, hn2⟩ := skipWhile_first (p := Division.isMend) hdiv.1 hat' hdiv.2.1 M.item.extra
      (fun l hl => DLine.isMend_iff.mp (hM.2.2 l (List.mem_of_mem_drop hl))) n1
    obtain ⟨n3, hn3⟩ := ih (SMap.emplaceMulti M.mat M.tree x) fuel n2 (fun m hm => hv m (by simp [hm])) hch' (by
      intro m hm
      apply hfol
      cases ms with
      | nil => simp at hm
      | cons m' ms => rw [List.getLast?_cons_cons]; exact hm)
    refine ⟨n3, ?_⟩
    have e1 : itemsText ((M :: ms).map MatL.item) g = unlines M.core ++ (unlines (M.item.extra.map DLine.text) ++ itemsText (ms.map MatL.item) g) := by
      simp [itemsText, Item.lines, unlines_append, ← MatL.item_core]
    rw [show (firstLine ((M :: ms).map MatL.item) f).div = M.head.div from rfl, e1,
      show fuel + (M :: ms).length = (fuel + ms.length) + 1 by simp; omega, tapeLoop, if_pos hh.2, Parser.bind_ok hn1,
      Parser.bind_ok (Parser.get_run _)]
    simp only [Parser.bind_run] at hn2 ⊢
    simp only [Parser.get_run] at hn2 ⊢
    cases hd : readDivision ⟨unlines (M.item.extra.map DLine.text) ++ itemsText (ms.map MatL.item) g, n1⟩ with
    | error e => rw [hd] at hn2; simp at hn2
    | ok y =>
      obtain ⟨d1, s1⟩ := y
      rw [hd] at hn2
      simp only at hn2 ⊢
      rw [hn2]
      simp only
      exact hn3

theorem tapeLoop_run {f : DLine} {g r : Text} (hf : f.IsTend) (hat : At f.text g r) (ms : List MatL) (x : SMap TMaterial) (fuel : Nat) (n : Int)
    (hv : ∀ m ∈ ms, m.Valid) (hch : Chained ms) (hfu : ms.length < fuel) :
    ∃ n', tapeLoop fuel (itemsText (ms.map MatL.item) g) (firstLine (ms.map MatL.item) f).div x ⟨afterFirst (ms.map MatL.item) g r, n⟩ =
      .ok (ms.foldl (fun x m => SMap.emplaceMulti m.mat m.tree x) x, ⟨r, n'⟩) := by
  obtain ⟨hfd, hft⟩ := DLine.isTend_iff.mp hf
  obtain ⟨f1, f2, f3, f4⟩ := isTend_not hft
  obtain ⟨k, hk⟩ := Nat.exists_eq_add_of_lt hfu
  obtain ⟨n', hn'⟩ := tapeLoop_steps hfd hat f2 f3 f4 ms x (k + 1) n hv hch (fun m _ _ => ⟨by simp [f1], fun _ => by simp [f1]⟩)
  rw [show fuel = k + 1 + ms.length by omega, hn', tapeLoop, if_neg (by simp [f1]), if_pos hft]
  exact ⟨n', rfl⟩

/-- The text of a tape with its TEND line given as `g`. -/
def TapeL.textWith (t : TapeL) (g : Text) : Text := t.tpid ++ '\n' :: (unlines (t.mats.flatMap MatL.lines) ++ g)

theorem readTpid_run {t : TapeL} (h : TextLine ⟨t.ntape, 0, 0⟩ t.tpid) (r : Text) (n : Int) :
    readTpid ⟨t.tpid ++ '\n' :: r, n⟩ = .ok (⟨t.label, t.ntape⟩, ⟨r, n + 1⟩) := by
  rw [readTpid_line.run_nl h.1, tailOpt_iff.mpr h.2]
  rfl

theorem readTTape_run {t : TapeL} (ht : t.Valid) {g r : Text} (hat : At t.tend.text g r) (n : Int) :
    ∃ m, readTTape ⟨t.textWith g, n⟩ = .ok (t.tree, ⟨r, m⟩) := by
  have hlen := Good.length_le (its := t.mats.map MatL.item) (g := g)
  rw [List.length_map] at hlen
  obtain ⟨m, hm⟩ := tapeLoop_run ht.2.2.2 hat t.mats [] ((itemsText (t.mats.map MatL.item) g).length + 1) (n + 1 + 1) ht.2.1 ht.2.2.1 (by omega)
  have hdivs : ∀ it ∈ t.mats.map MatL.item, DivLine it.head.div it.head.text := by
    intro it hit
    obtain ⟨y, hy, rfl⟩ := List.mem_map.mp hit
    exact (ht.2.1 y hy).isHead.1
  have hat' := itemsText_first (its := t.mats.map MatL.item) hat hdivs
  have hdiv : DivLine (firstLine (t.mats.map MatL.item) t.tend).div (firstLine (t.mats.map MatL.item) t.tend).text := by
    cases hms : t.mats with
    | nil => exact ht.2.2.2.1
    | cons m' ms => exact (ht.2.1 m' (by simp [hms])).isHead.1
  refine ⟨m, ?_⟩
  rw [readTTape, Parser.mapErr_ok, TapeL.textWith, Parser.bind_ok (readTpid_run ht.1 _ n), Parser.bind_ok (Parser.get_run _), ← itemsText_mats,
    Parser.bind_ok (readDivision_at hdiv hat' _), Parser.bind_ok hm]
  rfl

theorem chain_mats {its : List (Item TMaterial)} {s b : Text} (h : Chain QM its s b)
    (hok : ∀ i ∈ its, i.Ok (fun _ => true) Division.isMend) :
    ∃ Ms : List MatL, Ms.map (fun M => (M.head, M.lines, M.tree)) = its.map (fun i => (i.head, i.lines, i.val)) ∧
      (∀ M ∈ Ms, M.Valid) ∧ Chained Ms := by
  induction h with
  | nil s => exact ⟨[], rfl, by simp, trivial⟩
  | @cons it its s s1 s2 b h1 h2 h3 h4 h5 ih =>
    obtain ⟨Ms, e1, e2, e3⟩ := ih fun i hi => hok i (by simp [hi])
    obtain ⟨M, q1, q2, q3, q4, q5, q6⟩ := h3
    obtain ⟨o1, o2, o3, o4⟩ := hok it (by simp)
    refine ⟨{ M with mends := M.mends ++ it.extra } :: Ms, ?_, ?_, ?_⟩
    · simp only [List.map_cons, e1, List.cons.injEq, and_true, Prod.mk.injEq]
      refine ⟨q3, ?_, q5.symm⟩
      show M.files.flatMap FileL.lines ++ (M.mends ++ it.extra).map DLine.text = it.lines
      rw [List.map_append, ← List.append_assoc]
      show M.lines ++ _ = _
      rw [q4]; rfl
    · intro X hX
      rcases List.mem_cons.mp hX with rfl | hX
      · refine ⟨q1.1, q1.2.1, ?_⟩
        intro l hl
        rcases List.mem_append.mp hl with hl | hl
        · exact q1.2.2 l hl
        · exact DLine.isMend_iff.mpr (o4 l hl)
      · exact e2 X hX
    · cases Ms with
      | nil => trivial
      | cons M' Ms =>
        refine ⟨?_, e3⟩
        intro hn
        simp only [List.append_eq_nil_iff] at hn
        rw [hn.2] at h4
        cases h4
        cases h5 with
        | nil => simp at e1
        | @cons it' its' _ s1' s2' _ h1' h2' h3' h4' h5' =>
          have hhead : M'.head = it'.head := by simp at e1; exact e1.1.1
          have hd' := hok it' (by simp)
          have hat : ∃ r', At it'.head.text s1 r' := by
            have := h1'.eq_unlines h2'
            rw [this]
            exact ⟨unlines it'.body ++ s1', by simp [Item.core]; exact At.nl hd'.1.1.1⟩
          obtain ⟨r', hat⟩ := hat
          obtain ⟨p1, p2⟩ := q6 hn.1
          refine ⟨?_, ?_⟩
          · have := (nextNot_iff hat hd'.1).mp p1
            simp only [hd'.2.1, Bool.true_and, beq_eq_false_iff_ne] at this
            show M'.head.div.tail.mat ≠ _
            rw [hhead]; exact this
          · intro hl
            have := (nextNot_iff hat hd'.1).mp (p2 hl)
            simp only [hd'.2.1, Bool.true_and, beq_eq_false_iff_ne] at this
            show M'.head.div.tail.mf ≠ _
            rw [hhead]; exact this

theorem tapeLoop_inv : ∀ (fuel : Nat) (begin l0 : Text) (d0 : Division) (m : SMap TMaterial) (s : St), begin.length < fuel →
    At l0 begin s.rest → DivLine d0 l0 →
    Post (tapeLoop fuel begin d0 m s) (fun x => ∃ (its : List (Item TMaterial)) (l' begin' : Text) (d' : Division), Chain QM its begin begin' ∧
        (∀ it ∈ its, it.Ok (fun _ => true) Division.isMend) ∧ x.1 = its.foldl (fun m it => SMap.emplaceMulti it.head.div.tail.mat it.val m) m ∧
        At l' begin' x.2.rest ∧ DivLine d' l' ∧ d'.isTend = true) := by
  intro fuel
  induction fuel with
  | zero => intro begin l0 d0 m s h; omega
  | succ fuel ih =>
    intro begin l0 d0 m s hfu ha hd
    rw [tapeLoop]
    by_cases hc : d0.isHead = true
    · rw [if_pos hc, Parser.bind_run]
      have hi := readTMaterial_inv ha hd hc
      cases hx : readTMaterial d0.tail begin s with
      | error e => rw [hx] at hi; exact hi
      | ok x =>
        obtain ⟨v, s1⟩ := x
        rw [hx] at hi
        obtain ⟨body, hl, hq⟩ := hi
        simp only at hl hq ⊢
        rw [Parser.bind_ok (Parser.get_run _), Parser.bind_run]
        cases hr : readDivision s1 with
        | error e => exact readDivision_err hr
        | ok y =>
          obtain ⟨d1, s2⟩ := y
          obtain ⟨l1, ha1, hd1, _⟩ := readDivision_inv hr
          simp only
          rw [Parser.bind_ok (Parser.get_run _), Parser.bind_run]
          have hsw := skipWhile_inv (p := Division.isMend) (s2.rest.length + 1) s1.rest l1 d1 s2 (by omega) ha1 hd1
          cases hw : skipWhile Division.isMend (s2.rest.length + 1) s1.rest d1 s2 with
          | error e => rw [hw] at hsw; exact hsw
          | ok z =>
            obtain ⟨⟨begin2, d2⟩, s3⟩ := z
            rw [hw] at hsw
            obtain ⟨extra, l2, e1, e2, e3, e4, e5⟩ := hsw
            simp only
            have hlt : begin2.length < fuel := by
              have h1 := hl.length_lt (by simp)
              have h2 := e1.length_le
              omega
            have := ih begin2 l2 d2 (SMap.emplaceMulti d0.tail.mat v m) s3 hlt e3 e4
            cases hcl : tapeLoop fuel begin2 d2 (SMap.emplaceMulti d0.tail.mat v m) s3 with
            | error e => rw [hcl] at this; exact this
            | ok w =>
              obtain ⟨m', s'⟩ := w
              rw [hcl] at this
              obtain ⟨its, l', begin', d', g1, g2, g3, g4, g5, g6⟩ := this
              refine ⟨⟨⟨l0, d0⟩, body, extra, v⟩ :: its, l', begin', d', Chain.cons hl ha1.ne_nil hq e1 g1, ?_, g3, g4, g5, g6⟩
              intro it hit
              rcases List.mem_cons.mp hit with rfl | hit
              · exact ⟨hd, hc, rfl, e2⟩
              · exact g2 it hit
    · rw [if_neg hc]
      by_cases ht : d0.isTend = true
      · rw [if_pos ht]
        exact ⟨[], l0, begin, d0, Chain.nil _, by simp, rfl, ha, hd, ht⟩
      · rw [if_neg ht]; rfl

theorem readTTape_inv (s : St) :
    Post (readTTape s) (fun x => ∃ (t : TapeL) (g : Text), t.Valid ∧ s.rest = t.textWith g ∧ At t.tend.text g x.2.rest ∧ x.1 = t.tree) := by
  unfold readTTape Parser.mapErr
  rw [Parser.bind_run]
  cases h0 : readTpid s with
  | error e => exact stdErr_catchStd (readTpid_reads.err h0)
  | ok x0 =>
    obtain ⟨id, s0⟩ := x0
    simp only
    obtain ⟨l0, a0, b0, _⟩ := readTpid_line.inv h0
    have hid : ∃ nt, TextLine ⟨nt, 0, 0⟩ l0 ∧ id = ⟨padded 66 l0, nt⟩ := by
      cases h1 : tailOpt (l0.drop 66) with
      | none => simp [h1, opt, Except.bind] at b0
      | some t =>
        simp only [h1, opt, Except.bind] at b0
        split at b0
        · cases b0
        split at b0
        · cases b0
        rename_i q1 q2
        have ht := tailOpt_iff.mp h1
        simp only [ne_eq, Decidable.not_not] at q1 q2
        refine ⟨t.mat, ⟨a0.1, ?_⟩, (Except.ok.inj b0).symm⟩
        have : t = ⟨t.mat, 0, 0⟩ := by cases t; simp_all
        rw [← this]; exact ht
    obtain ⟨nt, htl, rfl⟩ := hid
    rw [Parser.bind_ok (Parser.get_run _), Parser.bind_run]
    cases hr : readDivision s0 with
    | error e => exact stdErr_catchStd (readDivision_err hr)
    | ok y =>
      obtain ⟨d1, s1⟩ := y
      obtain ⟨l1, ha1, hd1, _⟩ := readDivision_inv hr
      simp only
      rw [Parser.bind_run]
      have := tapeLoop_inv (s0.rest.length + 1) s0.rest l1 d1 [] s1 (by omega) ha1 hd1
      cases hcl : tapeLoop (s0.rest.length + 1) s0.rest d1 [] s1 with
      | error e => rw [hcl] at this; exact stdErr_catchStd this
      | ok w =>
        obtain ⟨m', s'⟩ := w
        rw [hcl] at this
        obtain ⟨its, l', begin', d', g1, g2, g3, g4, g5, g6⟩ := this
        obtain ⟨Ms, k1, k2, k3⟩ := chain_mats g1 g2
        obtain ⟨t1, t2, t3, t4⟩ := map_triple k1
        simp only at g3 g4 ⊢
        refine ⟨⟨l0, nt, Ms, ⟨l', d'⟩⟩, begin', ⟨htl, k2, k3, DLine.isTend_iff.mpr ⟨g5, g6⟩⟩, ?_, g4, ?_⟩
        · have e1 := a0.eq ha1.ne_nil
          have e2 := g1.lines.eq_unlines g4.ne_nil
          rw [e1, e2, ← t2]; rfl
        · have := t4 (SMap TMaterial) (fun h => h.div.tail.mat) (fun u k v => SMap.emplaceMulti k v u) []
          rw [g3]
          show TTape.mk _ _ = TTape.mk _ _
          congr 1
          exact this.symm

end ENDFtk

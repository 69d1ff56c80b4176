import Verif.Props.Agree
/-
  C45: the tree and the parsed layers agree.
  `toSectionAny x mat`, `toFile f mat`, `toMaterial m` are `tree::toSection`, `tree::toFile`, `tree::toMaterial`;
  `s.parseAny`, `t.parse mf`, `m.parse` are the `parse` functions of the tree.
-/
set_option linter.unusedVariables false
set_option linter.unusedSectionVars false
set_option linter.unusedSimpArgs false
namespace ENDFtk.Props
open ENDFtk
variable [Disco] [CorrOps]

/-! ### specification -/

/-- The last line of the section has at least 66 columns. -/
def LongSend (s : TSection) : Prop := ∀ ls l, s.content = unlines (ls ++ [l]) → (∀ m ∈ ls ++ [l], '\n' ∉ m) → 66 ≤ l.length

/-- The files that have a parser: not MF30, and in MF8 only MT 454, 457 and 459.  In MF32 the SEND lines have at least 66 columns (INTG records read on
    after the end of a shorter line). -/
def HasParser (t : TFile) : Prop := t.mf ≠ 30 ∧ (t.mf = 8 → ∀ mt ∈ t.sectionNumbers, mt = 454 ∨ mt = 457 ∨ mt = 459) ∧ (t.mf = 32 → ∀ s ∈ t.sections', LongSend s)

theorem longSend_iff {S : SecL} (hv : S.Valid) : LongSend S.tree ↔ 66 ≤ S.send.length := by
  constructor
  · intro h
    exact h (S.head.text :: S.body) S.send rfl (fun m hm => hv.core_nl m hm)
  · intro h ls l e hn
    have := unlines_inj hv.core_nl hn (show unlines S.core = _ from e)
    simp only [SecL.core] at this
    rw [← (List.append_inj' this rfl).2 |> List.cons.inj |>.1]
    exact h

theorem fileRead_iff {F : FileL} (hv : F.Valid) : F.Read ↔ HasParser F.tree := by
  obtain ⟨b1, b2⟩ := SMap.build (α := TSection) (fun S : SecL => S.nums.mt) SecL.tree hv.2.1
  have hmem : ∀ e, e ∈ F.tree.sections ↔ ∃ S ∈ F.secs, S.nums.mt = e.1 ∧ S.tree = e.2 := fun e =>
    ⟨fun he => (b2 e.1 e.2).mp (SMap.get?_of_mem b1 he), fun h => SMap.mem_of_get? ((b2 e.1 e.2).mpr h)⟩
  constructor
  · rintro ⟨h1, h2, h3⟩
    refine ⟨h1, fun h8 mt hmt => ?_, fun h32 s hs => ?_⟩
    · obtain ⟨e, he, rfl⟩ := List.mem_map.mp hmt
      obtain ⟨S, hS, hk, _⟩ := (hmem e).mp he
      rw [← hk]; exact h2 h8 S hS
    · obtain ⟨e, he, rfl⟩ := List.mem_map.mp hs
      obtain ⟨S, hS, _, hk⟩ := (hmem e).mp he
      rw [← hk]
      exact (longSend_iff (hv.1 S hS).1).mpr (h3 S hS ((hv.1 S hS).2.trans h32))
  · rintro ⟨h1, h2, h3⟩
    refine ⟨h1, fun h8 S hS => ?_, fun S hS h32 => ?_⟩
    · exact h2 h8 _ (List.mem_map.mpr ⟨_, (hmem (S.nums.mt, S.tree)).mpr ⟨S, hS, rfl, rfl⟩, rfl⟩)
    · exact (longSend_iff (hv.1 S hS).1).mp (h3 ((hv.1 S hS).2.symm.trans h32) _ (List.mem_map.mpr ⟨_, (hmem (S.nums.mt, S.tree)).mpr ⟨S, hS, rfl, rfl⟩, rfl⟩))

/-- A parsed file is what one gets by parsing the sections of the tree one by one. -/
def SameFile (t : TFile) (f : PFile) : Prop :=
  f.mf = t.mf ∧ f.sections'.map AnySection.mt = t.sectionNumbers ∧ (∀ mt, f.hasMT mt = t.hasMT mt) ∧
  ∀ mt s, t.section' mt = .ok s → ∃ x, s.parseAny = .ok x ∧ f.section' mt = .ok x

/-- A parsed material is what one gets by parsing the files of the tree one by one. -/
def SameMaterial (t : TMaterial) (m : PMaterial) : Prop :=
  m.mat = t.mat ∧ m.files'.map PFile.mf = t.fileNumbers ∧ (∀ mf, m.hasMF mf = t.hasMF mf) ∧
  ∀ mf g, t.file mf = .ok g → ∃ f, g.parse mf = .ok f ∧ m.file mf = .ok f ∧ SameFile g f

/-! ### sections -/

/-- A tree section made from a parsed section has its numbers, its printed text and its line count (below 2^32). -/
theorem C45_to_section {x : AnySection} (hv : x.1.defn.WellFormed x.2) {mat : Int} (h1 : 1 ≤ mat) (h2 : mat ≤ 9999) :
    ∃ s, toSectionAny x mat = .ok s ∧ s.mat = mat ∧ s.mf = x.mf ∧ s.mt = x.mt ∧ x.print mat x.mf = .ok s.content ∧
      (x.NC < 4294967296 → s.nc = x.NC) := toSectionAny_nc hv h1 h2

/-- With a material number below 1 it throws. -/
theorem C45_to_section_rejects (x : AnySection) {mat : Int} (h : mat < 1) : toSectionAny x mat = .error .exc := toSectionAny_err h

/-- Parsing the tree section gives the parsed section back; the tree section is one that can be indexed again (C09). -/
theorem C45_section_round_trip {x : AnySection} (hv : x.Valid) (hr : x.Rep) {mat : Int} (h1 : 1 ≤ mat) (h2 : mat ≤ 9999) :
    ∃ s, toSectionAny x mat = .ok s ∧ s.parseAny = .ok x ∧ GoodSection s := by
  obtain ⟨S, b1, b0, b2, b3, b4, b5, b6⟩ := section_layout hv hr h1 h2
  exact ⟨_, b5, (sec_parse b1 b0).mpr (by rw [b3]; exact b6), SecL.good b1⟩

/-! ### sections in files and materials -/

theorem at'_eq {α : Type} {m m' : SMap α} {k k' : Int} (h : m.get? k = m'.get? k') : m.at' k = m'.at' k' := by
  unfold SMap.at'; rw [h]

/-- `insert` of a parsed section in a tree file: it succeeds exactly if the MF is that of the file and the MT is not there yet; then the section is
    parsed back from the file, and the other sections are as before. -/
theorem C45_file_insert {f : TFile} (hs : f.sectionNumbers.Pairwise (· < ·)) {x : AnySection} (hv : x.Valid) (hr : x.Rep) (h1 : 1 ≤ f.mat) (h2 : f.mat ≤ 9999) :
    (x.mf = f.mf ∧ f.hasMT x.mt = false → (f.insertParsed x).1 = .ok () ∧
      (∃ s, (f.insertParsed x).2.section' x.mt = .ok s ∧ s.parseAny = .ok x ∧ toSectionAny x f.mat = .ok s) ∧
      (∀ k, k ≠ x.mt → (f.insertParsed x).2.section' k = f.section' k) ∧ (f.insertParsed x).2.mat = f.mat ∧ (f.insertParsed x).2.mf = f.mf) ∧
    (¬(x.mf = f.mf ∧ f.hasMT x.mt = false) → f.insertParsed x = (.error .exc, f)) := by
  obtain ⟨s, e1, e2, e3⟩ := C45_section_round_trip hv hr h1 h2
  obtain ⟨s', e1', n1, n2, n3, _⟩ := C45_to_section hv.1 h1 h2
  rw [e1] at e1'; cases e1'
  have hs' := SMap.sorted_iff_keys.mpr hs
  have heq : f.insertParsed x = f.insert s := by unfold TFile.insertParsed; rw [e1]
  rw [heq]
  constructor
  · rintro ⟨c1, c2⟩
    obtain ⟨i1, i2, i3⟩ := insertOrReplace_ok hs' (s := s) ⟨n1.symm, by rw [n2, c1]⟩
    have hi : f.insert s = f.insertOrReplace s := by unfold TFile.insert; rw [if_neg (by rw [n3, c2]; simp)]
    rw [hi, i1]
    refine ⟨rfl, ⟨s, ?_, e2, e1⟩, fun k hk => at'_eq ?_, rfl, rfl⟩
    · show SMap.at' _ _ = _
      rw [SMap.at'_ok, i3, n3, upd, if_pos rfl]
    · show SMap.get? _ _ = _
      rw [i3, n3, upd, if_neg hk]
  · intro hc
    unfold TFile.insert
    by_cases hm : f.hasMT s.mt = true
    · rw [if_pos hm]
    · rw [if_neg hm]
      unfold TFile.insertOrReplace
      rw [if_pos]
      right
      intro hmf
      exact hc ⟨by rw [hmf, n2], by rw [n3] at hm; simpa using hm⟩

/-- `insertOrReplace` of a parsed section in a tree file. -/
theorem C45_file_insert_or_replace {f : TFile} (hs : f.sectionNumbers.Pairwise (· < ·)) {x : AnySection} (hv : x.Valid) (hr : x.Rep) (h1 : 1 ≤ f.mat) (h2 : f.mat ≤ 9999) :
    (x.mf = f.mf → (f.insertOrReplaceParsed x).1 = .ok () ∧
      (∃ s, (f.insertOrReplaceParsed x).2.section' x.mt = .ok s ∧ s.parseAny = .ok x ∧ toSectionAny x f.mat = .ok s) ∧
      (∀ k, k ≠ x.mt → (f.insertOrReplaceParsed x).2.section' k = f.section' k) ∧
      (f.insertOrReplaceParsed x).2.mat = f.mat ∧ (f.insertOrReplaceParsed x).2.mf = f.mf) ∧
    (x.mf ≠ f.mf → f.insertOrReplaceParsed x = (.error .exc, f)) := by
  obtain ⟨s, e1, e2, e3⟩ := C45_section_round_trip hv hr h1 h2
  obtain ⟨s', e1', n1, n2, n3, _⟩ := C45_to_section hv.1 h1 h2
  rw [e1] at e1'; cases e1'
  have hs' := SMap.sorted_iff_keys.mpr hs
  have heq : f.insertOrReplaceParsed x = f.insertOrReplace s := by unfold TFile.insertOrReplaceParsed; rw [e1]
  rw [heq]
  constructor
  · intro c1
    obtain ⟨i1, i2, i3⟩ := insertOrReplace_ok hs' (s := s) ⟨n1.symm, by rw [n2, c1]⟩
    rw [i1]
    refine ⟨rfl, ⟨s, ?_, e2, e1⟩, fun k hk => at'_eq ?_, rfl, rfl⟩
    · show SMap.at' _ _ = _
      rw [SMap.at'_ok, i3, n3, upd, if_pos rfl]
    · show SMap.get? _ _ = _
      rw [i3, n3, upd, if_neg hk]
  · intro hc
    unfold TFile.insertOrReplace
    rw [if_pos]
    right
    rw [n2]; exact Ne.symm hc

/-- A material number below 1 makes every such call throw and leaves the tree as it was. -/
theorem C45_insert_rejects (x : AnySection) :
    (∀ f : TFile, f.mat < 1 → f.insertParsed x = (.error .exc, f) ∧ f.insertOrReplaceParsed x = (.error .exc, f)) ∧
    (∀ m : TMaterial, m.mat < 1 → m.insertParsed x = (.error .exc, m) ∧ m.insertOrReplaceAny x = (.error .exc, m)) := by
  refine ⟨fun f h => ⟨?_, ?_⟩, fun f h => ⟨?_, ?_⟩⟩
  · unfold TFile.insertParsed; rw [toSectionAny_err h]
  · unfold TFile.insertOrReplaceParsed; rw [toSectionAny_err h]
  · unfold TMaterial.insertParsed; rw [toSectionAny_err h]
  · unfold TMaterial.insertOrReplaceAny TMaterial.insertOrReplaceParsed; rw [show toSection x.1.defn x.2 f.mat = _ from toSectionAny_err h]

/-- `insert` of a parsed section in a tree material (any material that agrees with an abstract map, see C11): it succeeds exactly if the material does
    not have that section; then the section is parsed back from the material, and the other sections are as before. -/
theorem C45_material_insert {m : TMaterial} {mm : MMap} (hm : MatAgrees m.mat mm m) {x : AnySection} (hv : x.Valid) (hr : x.Rep) (h1 : 1 ≤ m.mat) (h2 : m.mat ≤ 9999) :
    (m.hasMFMT x.mf x.mt = false → (m.insertParsed x).1 = .ok () ∧
      (∃ s, (m.insertParsed x).2.section' x.mf x.mt = .ok s ∧ s.parseAny = .ok x ∧ toSectionAny x m.mat = .ok s) ∧
      (∀ k l, ¬(k = x.mf ∧ l = x.mt) → (m.insertParsed x).2.section' k l = m.section' k l) ∧ (m.insertParsed x).2.mat = m.mat) ∧
    (m.hasMFMT x.mf x.mt = true → (m.insertParsed x).1 = .error .exc ∧ (m.insertParsed x).2.mat = m.mat ∧
      ∀ k l, (m.insertParsed x).2.section' k l = m.section' k l) := by
  obtain ⟨s, e1, e2, e3⟩ := C45_section_round_trip hv hr h1 h2
  obtain ⟨s', e1', n1, n2, n3, _⟩ := C45_to_section hv.1 h1 h2
  rw [e1] at e1'; cases e1'
  have heq : m.insertParsed x = MatOp.run m (.insertSection s) := by unfold TMaterial.insertParsed; rw [e1]; rfl
  obtain ⟨a1, a2⟩ := mat_step hm (.insertSection s) trivial
  rw [heq]
  obtain ⟨-, -, -, -, -, -, g1, g2⟩ := hm
  obtain ⟨q1, -, -, -, -, -, q2, q3⟩ := a2
  have hsub : ((mm s.mf).getD (fun _ => none)) s.mt = (mm s.mf).bind (· s.mt) := by cases mm s.mf <;> rfl
  have hhas : m.hasMFMT x.mf x.mt = (((mm s.mf).getD (fun _ => none)) s.mt).isSome := by rw [g2, hsub, n2, n3]
  have hold : ∀ k l, (upd mm s.mf (some ((mm s.mf).getD (fun _ => none))) k).bind (· l) = (mm k).bind (· l) := by
    intro k l
    unfold upd
    split
    · rename_i hk; rw [hk]; cases mm s.mf <;> rfl
    · rfl
  constructor
  · intro hc
    rw [hhas] at hc
    have hspec : MatOp.spec m.mat mm (.insertSection s) = (.ok (), upd mm s.mf (some (upd ((mm s.mf).getD (fun _ => none)) s.mt (some s)))) := by
      simp only [MatOp.spec]
      rw [if_neg (by simp [hc, n1])]
    rw [hspec] at a1 q2
    refine ⟨a1, ⟨s, ?_, e2, e1⟩, fun k l hkl => ?_, q1⟩
    · rw [q2, ← n2, ← n3]; simp [upd]
    · rw [q2, g1]
      have : (upd mm s.mf (some (upd ((mm s.mf).getD (fun _ => none)) s.mt (some s))) k).bind (· l) = (mm k).bind (· l) := by
        by_cases hk : k = s.mf
        · have hl : l ≠ s.mt := fun hl => hkl ⟨by rw [hk, n2], by rw [hl, n3]⟩
          rw [upd, if_pos hk, Option.bind_some, upd, if_neg hl, hk]
          cases mm s.mf <;> rfl
        · rw [upd, if_neg hk]
      rw [this]
  · intro hc
    rw [hhas] at hc
    have hspec : MatOp.spec m.mat mm (.insertSection s) = (.error .exc, upd mm s.mf (some ((mm s.mf).getD (fun _ => none)))) := by
      simp only [MatOp.spec]
      rw [if_pos (by simp [hc])]
    rw [hspec] at a1 q2
    exact ⟨a1, q1, fun k l => by rw [q2, g1, hold]⟩

/-- `insertOrReplace` of a parsed section in a tree material. -/
theorem C45_material_insert_or_replace {m : TMaterial} {mm : MMap} (hm : MatAgrees m.mat mm m) {x : AnySection} (hv : x.Valid) (hr : x.Rep) (h1 : 1 ≤ m.mat) (h2 : m.mat ≤ 9999) :
    (m.insertOrReplaceAny x).1 = .ok () ∧
      (∃ s, (m.insertOrReplaceAny x).2.section' x.mf x.mt = .ok s ∧ s.parseAny = .ok x ∧ toSectionAny x m.mat = .ok s) ∧
      (∀ k l, ¬(k = x.mf ∧ l = x.mt) → (m.insertOrReplaceAny x).2.section' k l = m.section' k l) ∧ (m.insertOrReplaceAny x).2.mat = m.mat := by
  obtain ⟨s, e1, e2, e3⟩ := C45_section_round_trip hv hr h1 h2
  obtain ⟨s', e1', n1, n2, n3, _⟩ := C45_to_section hv.1 h1 h2
  rw [e1] at e1'; cases e1'
  have heq : m.insertOrReplaceAny x = MatOp.run m (.insertOrReplaceSection s) := by unfold TMaterial.insertOrReplaceAny TMaterial.insertOrReplaceParsed; rw [show toSection x.1.defn x.2 m.mat = _ from e1]; rfl
  obtain ⟨a1, a2⟩ := mat_step hm (.insertOrReplaceSection s) trivial
  rw [heq]
  obtain ⟨-, -, -, -, -, -, g1, g2⟩ := hm
  obtain ⟨q1, -, -, -, -, -, q2, q3⟩ := a2
  have hspec : MatOp.spec m.mat mm (.insertOrReplaceSection s) = (.ok (), upd mm s.mf (some (upd ((mm s.mf).getD (fun _ => none)) s.mt (some s)))) := by
    simp only [MatOp.spec]
    rw [if_neg (by simp [n1])]
  rw [hspec] at a1 q2
  refine ⟨a1, ⟨s, ?_, e2, e1⟩, fun k l hkl => ?_, q1⟩
  · rw [q2, ← n2, ← n3]; simp [upd]
  · rw [q2, g1]
    have : (upd mm s.mf (some (upd ((mm s.mf).getD (fun _ => none)) s.mt (some s))) k).bind (· l) = (mm k).bind (· l) := by
      by_cases hk : k = s.mf
      · have hl : l ≠ s.mt := fun hl => hkl ⟨by rw [hk, n2], by rw [hl, n3]⟩
        rw [upd, if_pos hk, Option.bind_some, upd, if_neg hl, hk]
        cases mm s.mf <;> rfl
      · rw [upd, if_neg hk]
    rw [this]

/-! ### parsing tree files and materials -/

theorem goodSection_parse {s : TSection} (h : GoodSection s) {x : AnySection} (hx : s.parseAny = .ok x) : x.mt = s.mt := by
  obtain ⟨S, a1, a2, a3, a4, a5⟩ := h.layout
  rw [← a2] at hx
  have := (sec_parse_mt a1 hx).1
  rw [this, a4]

/-- A file whose sections are all parsed. -/
theorem all_parsed {t : TFile} (h : ∀ mt s, t.section' mt = .ok s → ∃ x, s.parseAny = .ok x) (hs : t.sections.Sorted) :
    ∃ f, FAgrees t f := by
  obtain ⟨gs, hgs⟩ : ∃ gs, All2 (fun (e : Int × TSection) (g : Int × AnySection) => e.1 = g.1 ∧ e.2.parseAny = .ok g.2) t.sections gs := by
    refine exists_all2 fun e he => ?_
    obtain ⟨x, hx⟩ := h e.1 e.2 (SMap.at'_ok.mpr (SMap.get?_of_mem hs he))
    exact ⟨(e.1, x), rfl, hx⟩
  exact ⟨⟨t.mf, gs⟩, rfl, hgs⟩

theorem sameFile_of_agrees {t : TFile} (hg : GoodFile t) {f : PFile} (h : FAgrees t f) : SameFile t f := by
  refine ⟨h.1, ?_, fun mt => h.2.has mt, fun mt s hs => ?_⟩
  · show List.map _ (List.map _ f.sections) = List.map _ t.sections
    rw [List.map_map]
    have : All2 (fun e g => (e.1 = g.1 ∧ e.2.parseAny = .ok g.2) ∧ e ∈ t.sections) t.sections f.sections := all2_with (fun e he => he) h.2
    exact all2_map_eq this (fun e g hh => by
      obtain ⟨q1, q2, q3, q4⟩ := hg.2 e.1 e.2 hh.2
      simp only [Function.comp]
      rw [goodSection_parse q4 hh.1.2, q1])
  · obtain ⟨x, a1, a2⟩ := h.2.get? (SMap.at'_ok.mp hs)
    exact ⟨x, a2, SMap.at'_ok.mpr a1⟩

theorem file_parse_iff {t : TFile} (hg : GoodFile t) (hne : t.sections ≠ []) (h1 : 1 ≤ t.mat) (hp : HasParser t) {f : PFile} :
    t.parse t.mf = .ok f ↔ FAgrees t f := by
  obtain ⟨F, a1, a2, a3, a4, a5, a6⟩ := good_file_layout hg hne h1
  have hread : F.Read := (fileRead_iff a1).mpr (by rw [a2]; exact hp)
  have := fun s' => file_read a1 a6 hread (f := f) (r := []) (n := 1) (s' := s')
  have hgo := fun h => (file_reads a1 a6 hread (f := f) h).run [] 1
  unfold TFile.parse
  rw [a5]
  simp only
  rw [List.append_nil, a2, a4] at this hgo
  show (match readFileFrom t.mf ⟨unlines F.lines, 1⟩ with | .ok (x, _) => Except.ok x | .error e => .error e) = .ok f ↔ _
  constructor
  · intro h
    split at h
    · rename_i x s' hx
      cases h
      exact (this s' hx).1
    · cases h
  · intro h
    obtain ⟨_, hgo⟩ := hgo h
    rw [hgo]

/-- Parsing a tree file gives what parsing its sections one by one gives, and it succeeds exactly if all of them can be parsed. -/
theorem C45_file_parse {t : TFile} (hg : GoodFile t) (hne : t.sections ≠ []) (h1 : 1 ≤ t.mat) (hp : HasParser t) :
    (∀ f, t.parse t.mf = .ok f → SameFile t f) ∧
    ((∃ f, t.parse t.mf = .ok f) ↔ ∀ mt s, t.section' mt = .ok s → ∃ x, s.parseAny = .ok x) := by
  refine ⟨fun f h => sameFile_of_agrees hg ((file_parse_iff hg hne h1 hp).mp h), ?_, ?_⟩
  · rintro ⟨f, h⟩ mt s hs
    obtain ⟨_, _, _, q⟩ := sameFile_of_agrees hg ((file_parse_iff hg hne h1 hp).mp h)
    obtain ⟨x, hx, _⟩ := q mt s hs
    exact ⟨x, hx⟩
  · intro h
    obtain ⟨f, hf⟩ := all_parsed h (SMap.sorted_iff_keys.mpr hg.1)
    exact ⟨f, (file_parse_iff hg hne h1 hp).mpr hf⟩

/-- Nothing in the material is empty. -/
def FullMaterial (m : TMaterial) : Prop := m.files ≠ [] ∧ ∀ e ∈ m.files, e.2.sections ≠ [] ∧ HasParser e.2

theorem pruneMat_full {m : TMaterial} (h : FullMaterial m) : pruneMat m = m := by
  have hfil : (m.files.filter (fun e => !e.2.sections.isEmpty)) = m.files := by
    rw [List.filter_eq_self]
    intro x hx
    simpa using (h.2 x hx).1
  unfold pruneMat
  rw [hfil]

theorem matRead_of {M : MatL} (hv : M.Valid) (h : ∀ e ∈ M.tree.files, HasParser e.2) : M.Read := by
  intro F hF
  obtain ⟨b1, b2⟩ := SMap.build (α := TFile) FileL.mf FileL.tree hv.2.1
  have hm : (F.mf, F.tree) ∈ M.tree.files := SMap.mem_of_get? ((b2 F.mf F.tree).mpr ⟨F, hF, rfl, rfl⟩)
  exact (fileRead_iff (hv.1 F hF).1).mpr (h _ hm)

theorem material_parse_iff {t : TMaterial} (hg : GoodMaterial t) (hf : FullMaterial t) {m : PMaterial} : t.parse = .ok m ↔ MAgrees t m := by
  obtain ⟨M, a1, a2, a3, a4, a5, a6⟩ := good_mat_layout hg (by rw [pruneMat_full hf]; exact hf.1)
  rw [pruneMat_full hf] at a2
  have hread : M.Read := matRead_of a1 (by rw [a2]; exact fun e he => (hf.2 e he).2)
  have := fun s' => material_read a1 a6 hread (m := m) (r := []) (n := 1) (s' := s')
  have hgo := fun h => (material_reads a1 a6 hread (m := m) h).run [] 1
  unfold TMaterial.parse
  rw [a4]
  simp only
  rw [List.append_nil, a2] at this hgo
  show (match readMaterialFrom ⟨unlines M.lines, 1⟩ with | .ok (x, _) => Except.ok x | .error e => .error e) = .ok m ↔ _
  constructor
  · intro h
    split at h
    · rename_i x s' hx
      cases h
      exact (this s' hx).1
    · cases h
  · intro h
    obtain ⟨_, hgo⟩ := hgo h
    rw [hgo]

theorem sameMaterial_of_agrees {t : TMaterial} (hg : GoodMaterial t) (hf : FullMaterial t) {m : PMaterial} (h : MAgrees t m) : SameMaterial t m := by
  refine ⟨h.1, ?_, fun mt => h.2.has mt, fun mf g hs => ?_⟩
  · show List.map _ (List.map _ m.files) = List.map _ t.files
    rw [List.map_map]
    have : All2 (fun e g => (e.1 = g.1 ∧ FAgrees e.2 g.2) ∧ e ∈ t.files) t.files m.files := all2_with (fun e he => he) h.2
    exact all2_map_eq this (fun e g hh => by
      obtain ⟨q1, q2, q3⟩ := hg.2.2 e.1 e.2 hh.2
      simp only [Function.comp]
      rw [hh.1.2.1, q1])
  · have hmem := SMap.mem_of_get? (SMap.at'_ok.mp hs)
    obtain ⟨f, a1, a2⟩ := h.2.get? (SMap.at'_ok.mp hs)
    obtain ⟨q1, q2, q3⟩ := hg.2.2 mf g hmem
    refine ⟨f, ?_, SMap.at'_ok.mpr a1, sameFile_of_agrees q3 a2⟩
    rw [q1]
    exact (file_parse_iff q3 (hf.2 _ hmem).1 (by rw [q2]; exact hg.1) (hf.2 _ hmem).2).mpr a2

/-- Parsing a tree material gives what parsing its files one by one gives, and it succeeds exactly if all of them can be parsed. -/
theorem C45_material_parse {t : TMaterial} (hg : GoodMaterial t) (hf : FullMaterial t) :
    (∀ m, t.parse = .ok m → SameMaterial t m) ∧
    ((∃ m, t.parse = .ok m) ↔ ∀ mf g, t.file mf = .ok g → ∃ f, g.parse mf = .ok f) := by
  refine ⟨fun f h => sameMaterial_of_agrees hg hf ((material_parse_iff hg hf).mp h), ?_, ?_⟩
  · rintro ⟨m, h⟩ mt s hs
    obtain ⟨_, _, _, q⟩ := sameMaterial_of_agrees hg hf ((material_parse_iff hg hf).mp h)
    obtain ⟨x, hx, _⟩ := q mt s hs
    exact ⟨x, hx⟩
  · intro h
    obtain ⟨gs, hgs⟩ : ∃ gs, All2 (fun (e : Int × TFile) (g : Int × PFile) => e.1 = g.1 ∧ FAgrees e.2 g.2) t.files gs := by
      refine exists_all2 fun e he => ?_
      obtain ⟨q1, q2, q3⟩ := hg.2.2 e.1 e.2 he
      obtain ⟨x, hx⟩ := h e.1 e.2 (SMap.at'_ok.mpr (SMap.get?_of_mem (SMap.sorted_iff_keys.mpr hg.2.1) he))
      rw [q1] at hx
      exact ⟨(e.1, x), rfl, (file_parse_iff q3 (hf.2 _ he).1 (by rw [q2]; exact hg.1) (hf.2 _ he).2).mp hx⟩
    exact ⟨⟨t.mat, gs⟩, (material_parse_iff hg hf).mpr ⟨rfl, hgs⟩⟩

/-! ### making tree files and materials -/

theorem toSectionAny_content {x : AnySection} {mat : Int} {s : TSection} (h : toSectionAny x mat = .ok s) : x.print mat x.mf = .ok s.content := by
  unfold toSectionAny toSection at h
  show x.1.defn.print x.2 mat x.1.defn.mf = _
  split at h
  · rename_i txt hp; cases h; exact hp
  · cases h

theorem all2_concat' {α β : Type} {g : α → Except Err Text} {c : β → Text} {xs : List α} {ys : List β} (h : All2 (fun x y => g x = .ok (c y)) xs ys) :
    TMaterial.concat (xs.map g) = .ok (ys.map c).flatten := by
  refine concat_ok ?_
  rw [List.map_map]
  induction h with
  | nil => rfl
  | cons h _ ih => simp only [List.map_cons, Function.comp, h, ih]

theorem GoodSection.content_ne {s : TSection} (h : GoodSection s) : s.content.length ≠ 0 := by
  obtain ⟨head, body, send, h1, _⟩ := h
  rw [h1, List.cons_append, unlines_cons]; simp

theorem flatMap_ne {l : List TSection} (hl : l ≠ []) (h : ∀ s ∈ l, s.content.length ≠ 0) : (l.flatMap (·.content)).length ≠ 0 := by
  cases l with
  | nil => exact absurd rfl hl
  | cons s l =>
    have := h s (by simp)
    simp only [List.flatMap_cons, List.length_append]; omega

/-- `tree::toFile` of a parsed file with sections: a tree file with its numbers and its printed text, whose sections are those `tree::toSection` makes of
    the parsed sections, and which is parsed as the file it was made from. -/
theorem C45_to_file {f : PFile} (hv : f.Valid) (hr : f.Rep) (hne : f.sections ≠ []) {mat : Int} (h1 : 1 ≤ mat) (h2 : mat ≤ 9999) :
    ∃ t, toFile f mat = .ok t ∧ t.mat = mat ∧ t.mf = f.mf ∧ GoodFile t ∧ t.content = f.print mat ∧ t.sectionNumbers = f.sections'.map AnySection.mt ∧
      (∀ mt x, f.section' mt = .ok x → ∃ s, t.section' mt = .ok s ∧ toSectionAny x mat = .ok s) ∧ t.parse f.mf = .ok f := by
  obtain ⟨F, b1, b2, b3, b4, b5, b6, b7, b8, b9⟩ := file_layout hv hr hne h1 h2
  obtain ⟨g1, g2⟩ := FileL.good b1 b6
  have hp : HasParser F.tree := (fileRead_iff b1).mp b3
  have hmat : F.tree.mat = mat := b4
  have hmf : F.tree.mf = f.mf := b5
  refine ⟨F.tree, toFile_layout b1 b2 b7, b4, b5, g1, ?_, ?_, fun mt x hx => ?_, ?_⟩
  · have hc : TMaterial.concat (f.sections'.map (fun x => x.print mat f.mf)) = .ok (F.tree.sections'.map (·.content)).flatten := by
      refine all2_concat' ?_
      show All2 _ (List.map _ f.sections) (List.map _ F.tree.sections)
      refine all2_map_left.mpr (all2_swap (all2_map_left.mpr ?_))
      have hb := all2_swap (all2_with (P := fun e => e.2.mf = f.mf) (fun e he => (hv.2.2.2 e he).2.1) (all2_swap b9))
      refine All2.mono (fun e g hh => ?_) hb
      have := toSectionAny_content hh.1.2
      rw [hh.2] at this
      exact this
    unfold TFile.content PFile.print
    rw [if_neg hv.2.1, hc]
    simp only
    rw [if_pos, hmat, FEND_ok h1, List.flatMap_def]
    refine flatMap_ne ?_ ?_
    · intro hn; exact g2 (List.map_eq_nil_iff.mp hn)
    · intro s hs
      obtain ⟨e, he, rfl⟩ := List.mem_map.mp hs
      exact (g1.2 e.1 e.2 he).2.2.2.content_ne
  · exact (sameFile_of_agrees g1 b8).2.1.symm
  · have hk := b9.has mt
    have hx' := SMap.at'_ok.mp hx
    have : F.tree.sections.has mt = true := by rw [← hk, SMap.has_eq_isSome, hx']; rfl
    rw [SMap.has_eq_isSome] at this
    obtain ⟨s, hs⟩ := Option.isSome_iff_exists.mp this
    obtain ⟨w, q1, q2⟩ := b9.get? hs
    rw [hx'] at q1; cases q1
    exact ⟨s, SMap.at'_ok.mpr hs, q2⟩
  · rw [← hmf]
    exact (file_parse_iff g1 g2 (by rw [hmat]; exact h1) hp).mpr b8

/-- `tree::toMaterial` of a parsed material none of whose files is empty. -/
theorem C45_to_material {m : PMaterial} (hv : m.Valid) (hr : m.Rep) :
    ∃ t, toMaterial m = .ok t ∧ t.mat = m.mat ∧ GoodMaterial t ∧ t.content = m.print ∧ t.fileNumbers = m.files'.map PFile.mf ∧
      (∀ mf f, m.file mf = .ok f → ∃ g, t.file mf = .ok g ∧ toFile f m.mat = .ok g) ∧ t.parse = .ok m := by
  obtain ⟨M, b1, b2, b3, b4, b5, b6, b7, b8⟩ := material_layout hv hr
  obtain ⟨g1, g2, g3⟩ := MatL.good b1 (by rw [b4]; exact hv.1.1) b5
  have hmat : M.tree.mat = m.mat := b4
  have hfile : ∀ mf f, m.file mf = .ok f → ∃ g, M.tree.file mf = .ok g ∧ toFile f m.mat = .ok g := by
    intro mf f hx
    have hk := b8.has mf
    have hx' := SMap.at'_ok.mp hx
    have : M.tree.files.has mf = true := by rw [← hk, SMap.has_eq_isSome, hx']; rfl
    rw [SMap.has_eq_isSome] at this
    obtain ⟨s, hs⟩ := Option.isSome_iff_exists.mp this
    obtain ⟨w, q1, q2⟩ := b8.get? hs
    rw [hx'] at q1; cases q1
    exact ⟨s, SMap.at'_ok.mpr hs, q2⟩
  have hfull : FullMaterial M.tree := by
    refine ⟨g2, fun e he => ⟨g3 e he, ?_⟩⟩
    obtain ⟨c1, c2⟩ := SMap.build (α := TFile) FileL.mf FileL.tree b1.2.1
    obtain ⟨F, hF, hk, ht⟩ := (c2 e.1 e.2).mp (SMap.get?_of_mem c1 he)
    rw [← ht]
    exact (fileRead_iff (b1.1 F hF).1).mp (b3 F hF)
  refine ⟨M.tree, toMaterial_layout b1 b2 b6, b4, g1, ?_, (sameMaterial_of_agrees g1 hfull b7).2.1.symm, hfile, (material_parse_iff g1 hfull).mpr b7⟩
  have hpr : ∀ e ∈ m.files, e.2.Valid ∧ e.2.Rep ∧ e.2.sections ≠ [] := fun e he =>
    ⟨(hv.2.2.2 e he).2.1, hr e.2 (List.mem_map.mpr ⟨e, he, rfl⟩), (hv.2.2.2 e he).2.2⟩
  have hcont : All2 (fun (e : Int × PFile) (g : Int × TFile) => e.2.print m.mat = g.2.content) m.files M.tree.files := by
    refine All2.mono (fun e g hh => ?_) (all2_with hpr (all2_swap b8))
    obtain ⟨⟨_, q⟩, v, r, n⟩ := hh
    obtain ⟨t, a1, a2, a3, a4, a5, _⟩ := C45_to_file v r n hv.1.1 hv.1.2
    rw [q] at a1; cases a1
    exact a5.symm
  have hc : TMaterial.concat (m.files'.map (fun f => f.print m.mat)) = TMaterial.concat (M.tree.files'.map TFile.content) := by
    congr 1
    show List.map _ (List.map _ m.files) = List.map _ (List.map _ M.tree.files)
    rw [List.map_map, List.map_map]
    exact (all2_map_eq hcont (fun e g hh => hh.symm)).symm
  have hprint : m.print = .ok (unlines M.lines) := b6
  unfold TMaterial.content
  rw [← hc]
  unfold PMaterial.print at hprint ⊢
  cases hcc : TMaterial.concat (m.files'.map (fun f => f.print m.mat)) with
  | error e => rfl
  | ok c =>
    simp only
    rw [if_pos]
    intro h0
    obtain ⟨mend, _, e⟩ := b2.lines b1
    rw [hcc] at hprint
    simp only [List.length_eq_zero_iff.mp h0, List.nil_append, mend_print, Except.ok.injEq] at hprint
    have hl := unlines_inj (fun l hl => by rw [List.mem_singleton.mp hl]; exact mendLine.1.1.1) (MatL.lines_nl b2 b1) hprint
    have hlen := congrArg List.length hl
    have hF := (FileL.Plain.lines (b2.1 M.first (by simp [MatL.files])) (b1.1 M.first (by simp [MatL.files])).1)
    obtain ⟨fend, _, ef⟩ := hF
    rw [e] at hlen
    simp only [MatL.files, List.map_cons, List.flatten_cons, List.length_append, List.length_singleton, ef] at hlen
    omega

/-- Finding: `tree::toFile` of a parsed file without sections succeeds, but the tree file has MF 0. -/
theorem C45_empty_file (mf : Int) (h30 : mf ≠ 30) {mat : Int} (h1 : 1 ≤ mat) (h2 : mat ≤ 9999) :
    toFile ⟨mf, []⟩ mat = .ok ⟨mat, 0, []⟩ := by
  have hf := DLine.isFend_iff.mp (fendLine h1 h2)
  have hh : (Division.mk zeroCont ⟨mat, 0, 0⟩ : Division).isHead = false := by simp [Division.isHead]
  have hp : (PFile.mk mf []).print mat = .ok (unlines [endRecord ⟨mat, 0, 0⟩]) := by
    unfold PFile.print
    rw [if_neg h30, FEND_ok h1]
    simp only [PFile.sections', SMap.values, List.map_nil, TMaterial.concat, List.nil_append]
    rw [fend_print (fits4 h1 h2)]
  have hl : unlines [endRecord ⟨mat, 0, 0⟩] = endRecord ⟨mat, 0, 0⟩ ++ '\n' :: [] := by simp [unlines]
  unfold toFile
  rw [hp]
  simp only
  rw [hl, Parser.bind_ok (readDivision_run hf.1 [] 0)]
  have hc : createMap (fun d => d.tail.mf == 0) (fun d => d.tail.mt) readTSection Division.isSend Division.isFend (endRecord ⟨mat, 0, 0⟩ ++ '\n' :: []) ⟨[], 0 + 1⟩
      = .ok ([], ⟨[], 1⟩) := by
    unfold createMap
    rw [Parser.bind_ok (show Parser.get ⟨[], 0 + 1⟩ = .ok (⟨[], 0 + 1⟩, ⟨[], 0 + 1⟩) from rfl),
      Parser.bind_ok (show Parser.set ⟨endRecord ⟨mat, 0, 0⟩ ++ '\n' :: [], (⟨[], 0 + 1⟩ : St).line - 1⟩ ⟨[], 0 + 1⟩ = .ok ((), ⟨endRecord ⟨mat, 0, 0⟩ ++ '\n' :: [], 0⟩) from rfl),
      Parser.bind_ok (readDivision_run hf.1 [] 0)]
    have hcl : createLoop (fun d => d.tail.mf == 0) (fun d => d.tail.mt) readTSection Division.isSend ((endRecord ⟨mat, 0, 0⟩ ++ '\n' :: []).length + 1)
        (endRecord ⟨mat, 0, 0⟩ ++ '\n' :: []) ⟨zeroCont, ⟨mat, 0, 0⟩⟩ [] ⟨[], 0 + 1⟩ = .ok ((endRecord ⟨mat, 0, 0⟩ ++ '\n' :: [], ⟨zeroCont, ⟨mat, 0, 0⟩⟩, []), ⟨[], 0 + 1⟩) := by
      unfold createLoop
      rw [hh]; rfl
    rw [Parser.bind_ok hcl]
    simp only
    rw [Parser.bind_ok (show Parser.get ⟨[], 0 + 1⟩ = .ok (⟨[], 0 + 1⟩, ⟨[], 0 + 1⟩) from rfl), if_pos hf.2]
    rfl
  unfold readTFile Parser.mapErr
  simp only
  rw [Parser.bind_ok hc]
  rfl

/-! ### files in materials, materials in tapes -/

/-- `insert` of a parsed file in a tree material: it succeeds exactly if the material has no file with that MF; then the file is parsed back from the
    material and the other files are as before. -/
theorem C45_material_insert_file {m : TMaterial} (hs : m.fileNumbers.Pairwise (· < ·)) {f : PFile} (hv : f.Valid) (hr : f.Rep) (hne : f.sections ≠ [])
    (h1 : 1 ≤ m.mat) (h2 : m.mat ≤ 9999) :
    (m.hasMF f.mf = false → (m.insertParsedFile f).1 = .ok () ∧ (∃ g, (m.insertParsedFile f).2.file f.mf = .ok g ∧ g.parse f.mf = .ok f ∧ toFile f m.mat = .ok g) ∧
      (∀ k, k ≠ f.mf → (m.insertParsedFile f).2.file k = m.file k) ∧ (m.insertParsedFile f).2.mat = m.mat) ∧
    (m.hasMF f.mf = true → m.insertParsedFile f = (.error .exc, m)) := by
  obtain ⟨g, e1, n1, n2, -, -, -, -, e2⟩ := C45_to_file hv hr hne h1 h2
  have heq : m.insertParsedFile f = m.insertFile g := by unfold TMaterial.insertParsedFile; rw [e1]
  rw [heq]
  unfold TMaterial.insertFile
  rw [n2]
  constructor
  · intro hc
    rw [if_neg (by simp [hc])]
    unfold TMaterial.insertOrReplaceFile
    rw [if_neg (by simp [n1]), n2]
    have hsort := SMap.erase_sorted (SMap.sorted_iff_keys.mpr hs) f.mf
    have hget : ∀ k, SMap.get? ((SMap.erase m.files f.mf).emplace f.mf g) k = if k = f.mf then some g else m.files.get? k := by
      intro k
      rw [SMap.get?_emplace hsort, SMap.has_erase, SMap.get?_erase]
      by_cases hk : f.mf = k
      · simp [hk]
      · rw [if_neg (by simp [hk]), if_neg hk, if_neg (fun h => hk h.symm)]
    refine ⟨rfl, ⟨g, SMap.at'_ok.mpr ?_, e2, e1⟩, fun k hk => at'_eq ?_, rfl⟩
    · show SMap.get? ((SMap.erase m.files f.mf).emplace f.mf g) _ = _
      rw [hget, if_pos rfl]
    · show SMap.get? ((SMap.erase m.files f.mf).emplace f.mf g) _ = _
      rw [hget, if_neg hk]
  · intro hc
    rw [if_pos hc]

/-- `insertOrReplace` of a parsed file in a tree material: the old file, if any, is replaced as a whole. -/
theorem C45_material_insert_or_replace_file {m : TMaterial} (hs : m.fileNumbers.Pairwise (· < ·)) {f : PFile} (hv : f.Valid) (hr : f.Rep) (hne : f.sections ≠ [])
    (h1 : 1 ≤ m.mat) (h2 : m.mat ≤ 9999) :
    (m.insertOrReplaceParsedFile f).1 = .ok () ∧ (∃ g, (m.insertOrReplaceParsedFile f).2.file f.mf = .ok g ∧ g.parse f.mf = .ok f ∧ toFile f m.mat = .ok g) ∧
      (∀ k, k ≠ f.mf → (m.insertOrReplaceParsedFile f).2.file k = m.file k) ∧ (m.insertOrReplaceParsedFile f).2.mat = m.mat := by
  obtain ⟨g, e1, n1, n2, -, -, -, -, e2⟩ := C45_to_file hv hr hne h1 h2
  have heq : m.insertOrReplaceParsedFile f = m.insertOrReplaceFile g := by unfold TMaterial.insertOrReplaceParsedFile; rw [e1]
  rw [heq]
  unfold TMaterial.insertOrReplaceFile
  rw [if_neg (by simp [n1]), n2]
  have hsort := SMap.erase_sorted (SMap.sorted_iff_keys.mpr hs) f.mf
  have hget : ∀ k, SMap.get? ((SMap.erase m.files f.mf).emplace f.mf g) k = if k = f.mf then some g else m.files.get? k := by
    intro k
    rw [SMap.get?_emplace hsort, SMap.has_erase, SMap.get?_erase]
    by_cases hk : f.mf = k
    · simp [hk]
    · rw [if_neg (by simp [hk]), if_neg hk, if_neg (fun h => hk h.symm)]
  refine ⟨rfl, ⟨g, SMap.at'_ok.mpr ?_, e2, e1⟩, fun k hk => at'_eq ?_, rfl⟩
  · show SMap.get? ((SMap.erase m.files f.mf).emplace f.mf g) _ = _
    rw [hget, if_pos rfl]
  · show SMap.get? ((SMap.erase m.files f.mf).emplace f.mf g) _ = _
    rw [hget, if_neg hk]

/-- `insert` and `replace` of a parsed material in a tree tape: the tape then has, under its MAT, the materials it had (or none of them) and one that is
    parsed as the material. -/
theorem C45_tape_insert {t : TTape} (ho : TapeOrdered t) {mm : TMap} (ht : TapeAgrees mm t) {m : PMaterial} (hv : m.Valid) (hr : m.Rep) :
    ∃ x, toMaterial m = .ok x ∧ x.parse = .ok m ∧
      (t.insertParsed m).1 = .ok () ∧ TapeOrdered (t.insertParsed m).2 ∧ TapeAgrees (upd mm m.mat (mm m.mat ++ [x])) (t.insertParsed m).2 ∧
      (t.replaceParsed m).1 = .ok () ∧ TapeOrdered (t.replaceParsed m).2 ∧ TapeAgrees (upd mm m.mat [x]) (t.replaceParsed m).2 := by
  obtain ⟨x, e1, n1, -, -, -, -, e2⟩ := C45_to_material hv hr
  have q1 : t.insertParsed m = (.ok (), t.insert x) := by unfold TTape.insertParsed; rw [e1]
  have q2 : t.replaceParsed m = (.ok (), t.replace x) := by unfold TTape.replaceParsed; rw [e1]
  obtain ⟨a1, a2⟩ := tape_step ho ht (.insert x)
  obtain ⟨b1, b2⟩ := tape_step ho ht (.replace x)
  rw [q1, q2]
  simp only [TapeOp.spec, n1] at a2 b2
  exact ⟨x, e1, e2, rfl, a1, a2, rfl, b1, b2⟩

/-! ### tapes, and reading without the tree -/

/-- Parsing a tree tape gives the tape identification (the number, which is not printed, is 0) and, in order, the materials that parsing the tree
    materials one by one gives; it succeeds exactly if all of them can be parsed. -/
theorem C45_tape_parse {t : TTape} (hg : GoodTape t) (hf : ∀ k m, (k, m) ∈ t.materials → FullMaterial m) (h0 : t.materials ≠ []) (hsz : t.size < 2147483648) :
    (∀ p, t.parse = .ok p → (∃ id, t.tpid = some id ∧ p.id = ⟨id.text, 0⟩) ∧ All2 (fun (m : TMaterial) q => m.parse = .ok q) t.materials' p.materials) ∧
    ((∃ p, t.parse = .ok p) ↔ ∀ m ∈ t.materials', ∃ q, m.parse = .ok q) := by
  obtain ⟨⟨id, hid, h66, hnl⟩, ho, hm⟩ := id hg
  obtain ⟨L, a1, a2, a3, a4, a5, a6, a7, -⟩ := good_tape_layout t hg
  have hne : NoEmpty t := fun k m hkm => ⟨(hf k m hkm).1, fun j f hjf => ((hf k m hkm).2 _ hjf).1⟩
  rw [prune_noEmpty hne] at a7
  have hmats : ∀ M ∈ L.mats, M.Plain ∧ M.Read ∧ M.mat ≠ -1 := by
    intro M hM
    have : (M.mat, M.tree) ∈ t.materials := by rw [← a7]; exact List.mem_map.mpr ⟨M, hM, rfl⟩
    refine ⟨a5 M hM, matRead_of (a1.2.1 M hM) (fun e he => ((hf _ _ this).2 e he).2), ?_⟩
    obtain ⟨q1, q2⟩ := hm _ _ this
    have := q2.1
    rw [← q1] at this; omega
  have hval : t.materials' = L.mats.map MatL.tree := by
    show List.map _ t.materials = _
    rw [← a7, List.map_map]; rfl
  have hiff : ∀ ps, All2 (fun (M : MatL) m => MAgrees M.tree m) L.mats ps ↔ All2 (fun (m : TMaterial) q => m.parse = .ok q) t.materials' ps := by
    intro ps
    rw [hval, all2_map_left]
    have key : ∀ M ∈ L.mats, ∀ q, MAgrees M.tree q ↔ M.tree.parse = .ok q := by
      intro M hM q
      have : (M.mat, M.tree) ∈ t.materials := by rw [← a7]; exact List.mem_map.mpr ⟨M, hM, rfl⟩
      exact (material_parse_iff (hm _ _ this).2 (hf _ _ this)).symm
    constructor
    · intro h; exact All2.mono (fun a b hh => (key a hh.2 b).mp hh.1) (all2_with (P := fun M => M ∈ L.mats) (fun a ha => ha) h)
    · intro h; exact All2.mono (fun a b hh => (key a hh.2 b).mpr hh.1) (all2_with (P := fun M => M ∈ L.mats) (fun a ha => ha) h)
  have hread : ∀ p, t.parse = .ok p ↔ p.id = ⟨L.label, L.ntape⟩ ∧ All2 (fun (M : MatL) m => MAgrees M.tree m) L.mats p.materials ∧ PTape.make p.id p.materials = .ok p := by
    intro p
    have := fun s' => tape_read a1 hmats (t := p) (r := []) (n := 1) (s' := s')
    have hgo := fun h => ((tape_reads a1 hmats (t := p)).2 h).run [] 1
    unfold TTape.parse
    rw [a3]
    simp only
    rw [List.append_nil] at this hgo
    constructor
    · intro h
      split at h
      · rename_i x s' hx
        cases h
        exact (this s' hx).1
      · cases h
    · intro h
      obtain ⟨_, hgo⟩ := hgo h
      rw [hgo]
  have hlab := a6 id hid
  refine ⟨fun p hp => ?_, ?_, ?_⟩
  · obtain ⟨c1, c2, c3⟩ := (hread p).mp hp
    exact ⟨⟨id, hid, by rw [c1, hlab.1, hlab.2]⟩, (hiff _).mp c2⟩
  · rintro ⟨p, hp⟩ m hmem
    obtain ⟨c1, c2, c3⟩ := (hread p).mp hp
    obtain ⟨q, _, hq⟩ := ((hiff _).mp c2).forall.1 m hmem
    exact ⟨q, hq⟩
  · intro h
    obtain ⟨ps, hps⟩ := exists_all2 h
    have hlen : ps.length = t.size := by
      have := hps.length
      rw [← this]; simp [TTape.materials', SMap.values, TTape.size]
    refine ⟨⟨⟨L.label, L.ntape⟩, ps⟩, (hread _).mpr ⟨rfl, (hiff _).mpr hps, ?_⟩⟩
    unfold PTape.make
    rw [if_neg]
    rw [hlen]
    have : t.size ≠ 0 := fun h => h0 (List.length_eq_zero_iff.mp h)
    rw [asInt, toInt32_of ⟨by omega, by omega⟩]
    omega

theorem all2_filter {α β : Type} {R : α → β → Prop} {p : α → Bool} {q : β → Bool} {as : List α} {bs : List β} (h : All2 R as bs)
    (hpq : ∀ a b, R a b → q b = p a) : All2 R (as.filter p) (bs.filter q) := by
  induction h with
  | nil => exact .nil
  | cons h _ ih =>
    simp only [List.filter_cons, hpq _ _ h]
    split
    · exact .cons h ih
    · exact ih

/-- Reading a text without redundant end records directly or through the tree: `Tape` reads the same identification, stops at the same place, and has
    under each MAT the materials that the tree materials are parsed as. -/
theorem C45_direct_tape {L : TapeL} (hL : L.Valid)
    (hp : ∀ M ∈ L.mats, M.Plain ∧ M.Read ∧ 1 ≤ M.mat ∧ ∀ F ∈ M.files, ∀ S ∈ F.secs, S.nums.mat = M.mat) (rest : Text) (line : Int) :
    ∃ t, TTape.ofBuffer (unlines L.lines ++ rest) line = .ok t ∧
      (∀ n p s', PTape.read ⟨unlines L.lines ++ rest, n⟩ = .ok (p, s') → t.tpid = some p.id ∧ s'.rest = rest ∧
        ∀ mat, if p.material mat = [] then t.material mat = .error .outOfRange
          else ∃ ms, t.material mat = .ok ms ∧ All2 (fun (m : TMaterial) q => m.parse = .ok q) ms (p.material mat)) ∧
      (L.mats ≠ [] → L.mats.length < 2147483648 → ∀ n, (∃ p s', PTape.read ⟨unlines L.lines ++ rest, n⟩ = .ok (p, s')) ↔
        ∀ mat ms, t.material mat = .ok ms → ∀ m ∈ ms, ∃ q, m.parse = .ok q) := by
  obtain ⟨k, hk⟩ := readTTape_run hL (At.nl hL.2.2.2.1.1.1 (r := rest)) line
  rw [TapeL.textWith_eq] at hk
  have ht : TTape.ofBuffer (unlines L.lines ++ rest) line = .ok L.tree := by
    rw [← ofBuffer_of_run hk]
    simp [TapeL.lines, TapeL.front]
  obtain ⟨b1, b2⟩ := SMap.buildMulti MatL.mat MatL.tree L.mats
  have b2' : ∀ mat, SMap.getAll L.tree.materials mat = (L.mats.filter (fun M => M.mat == mat)).map MatL.tree := b2
  have hmat : ∀ mat, L.tree.material mat = if (L.mats.filter (fun M => M.mat == mat)) = [] then .error .outOfRange
      else .ok ((L.mats.filter (fun M => M.mat == mat)).map MatL.tree) := by
    intro mat
    have := ((tapeAgrees_iff (t := L.tree) b1).mpr (fun k => rfl)).2.2.1 mat
    rw [this, b2']
    simp only [List.map_eq_nil_iff]
  have hmp : ∀ M ∈ L.mats, ∀ q, MAgrees M.tree q ↔ M.tree.parse = .ok q := by
    intro M hM q
    obtain ⟨p1, p2, p3, p4⟩ := hp M hM
    obtain ⟨g1, g2, g3⟩ := MatL.good (hL.2.1 M hM) p3 p4
    refine (material_parse_iff g1 ⟨g2, fun e he => ⟨g3 e he, ?_⟩⟩).symm
    obtain ⟨c1, c2⟩ := SMap.build (α := TFile) FileL.mf FileL.tree (hL.2.1 M hM).2.1
    obtain ⟨F, hF, hk, ht⟩ := (c2 e.1 e.2).mp (SMap.get?_of_mem c1 he)
    rw [← ht]
    exact (fileRead_iff ((hL.2.1 M hM).1 F hF).1).mp (p2 F hF)
  have hmm : ∀ M ∈ L.mats, M.Plain ∧ M.Read ∧ M.mat ≠ -1 := fun M hM => ⟨(hp M hM).1, (hp M hM).2.1, by have := (hp M hM).2.2.1; omega⟩
  have hr := fun (p : PTape) (n : Int) (s' : St) => tape_read hL hmm (t := p) (r := rest) (n := n) (s' := s')
  refine ⟨L.tree, ht, fun n p s' h => ?_, fun h0 hsz n => ⟨?_, fun h => ?_⟩⟩
  · obtain ⟨⟨c1, c2, c3⟩, hrest, _⟩ := hr p n s' h
    refine ⟨by rw [c1]; rfl, hrest, fun mat => ?_⟩
    have hfil := all2_filter (p := fun M : MatL => M.mat == mat) (q := fun m : PMaterial => m.mat == mat)
      (all2_with (P := fun M => M ∈ L.mats) (fun a ha => ha) c2) (fun M m hh => by rw [show m.mat = M.mat from hh.1.1])
    have hfil' : All2 (fun (M : MatL) m => M.tree.parse = .ok m) (L.mats.filter (fun M => M.mat == mat)) (p.material mat) :=
      All2.mono (fun M m hh => (hmp M hh.2 m).mp hh.1) hfil
    rw [hmat]
    split
    · rename_i he
      rw [he] at hfil'
      generalize L.mats.filter (fun M => M.mat == mat) = x at hfil'
      cases hfil'; rfl
    · rename_i he
      rw [if_neg]
      · exact ⟨_, rfl, all2_map_left.mpr hfil'⟩
      · intro hn
        rw [hn] at hfil'
        generalize p.material mat = x at hfil' he
        cases hfil'; exact he rfl
  · rintro ⟨p, s', h⟩ mat ms hms m hm
    obtain ⟨⟨c1, c2, c3⟩, hrest, _⟩ := hr p n s' h
    rw [hmat] at hms
    split at hms
    · cases hms
    · cases hms
      obtain ⟨M, hM, rfl⟩ := List.mem_map.mp hm
      have hM' := (List.mem_filter.mp hM).1
      obtain ⟨q, _, hq⟩ := c2.forall.1 M hM'
      exact ⟨q, (hmp M hM' q).mp hq⟩
  · have hall : ∀ M ∈ L.mats, ∃ q, MAgrees M.tree q := by
      intro M hM
      have hmem : M ∈ L.mats.filter (fun N => N.mat == M.mat) := List.mem_filter.mpr ⟨hM, by simp⟩
      obtain ⟨q, hq⟩ := h M.mat ((L.mats.filter (fun N => N.mat == M.mat)).map MatL.tree) (by
        rw [hmat, if_neg]
        intro hn; rw [hn] at hmem; simp at hmem) M.tree (List.mem_map.mpr ⟨M, hmem, rfl⟩)
      exact ⟨q, (hmp M hM q).mpr hq⟩
    obtain ⟨ps, hps⟩ := exists_all2 hall
    suffices hm : PTape.make ⟨L.label, L.ntape⟩ ps = .ok ⟨⟨L.label, L.ntape⟩, ps⟩ by
      obtain ⟨_, hgo⟩ := ((tape_reads hL hmm (t := ⟨⟨L.label, L.ntape⟩, ps⟩)).2 ⟨rfl, hps, hm⟩).run rest n
      exact ⟨_, _, hgo⟩
    have hlen := hps.length
    unfold PTape.make
    rw [if_neg]
    have : L.mats.length ≠ 0 := fun h => h0 (List.length_eq_zero_iff.mp h)
    show ¬ asInt ps.length = 0
    rw [asInt, toInt32_of ⟨by omega, by omega⟩]
    omega

end ENDFtk.Props

import Verif.Tree.Same
import Verif.Python.Model
/-
  C71: line numbers, and whatever follows them, are ignored.
-/
set_option linter.unusedVariables false
set_option linter.unusedSectionVars false
set_option linter.unusedSimpArgs false
namespace ENDFtk.Props
open ENDFtk
variable [Disco]

/-- From texts that agree in columns 1-75, the reader gives the same exception; or the same value and the same number of lines, and leaves texts that
    agree in columns 1-75. -/
def ReadsTheSame {α : Type} (p : Parser α) : Prop :=
  ∀ (x x' : Text) (n : Int), SameText x x' →
    (∀ e, p ⟨x, n⟩ = .error e ↔ p ⟨x', n⟩ = .error e) ∧
    (∀ a y m, p ⟨x, n⟩ = .ok (a, ⟨y, m⟩) → ∃ y', p ⟨x', n⟩ = .ok (a, ⟨y', m⟩) ∧ SameText y y')

theorem readsTheSame {α : Type} (p : Parser α) [hp : Blind p] : ReadsTheSame p := by
  intro x x' n h
  rcases (hp.run x x' n h).elim with ⟨e, e1, e2⟩ | ⟨a, y, y', m, e1, e2, hy⟩
  · rw [e1, e2]
    exact ⟨fun e => Iff.rfl, fun a y m h => by cases h⟩
  · rw [e1, e2]
    refine ⟨fun e => ⟨fun h => (by cases h), fun h => (by cases h)⟩, fun b z k h => ?_⟩
    cases h
    exact ⟨y', rfl, hy⟩

/-- The records. -/
theorem C71_records (t : Nums) :
    ReadsTheSame (readCont t) ∧ ReadsTheSame (readText t) ∧ ReadsTheSame (readDir t) ∧ ReadsTheSame (readLIST t) ∧ ReadsTheSame (readTAB1 t) ∧
      ReadsTheSame (readTAB2 t) ∧ ReadsTheSame readDivision ∧ ReadsTheSame readTpid :=
  ⟨readsTheSame _, readsTheSame _, readsTheSame _, readsTheSame _, readsTheSame _, readsTheSame _, readsTheSame _, readsTheSame _⟩

/-- INTG records. -/
theorem C71_intg {nd : Nat} (h : 2 ≤ nd ∧ nd ≤ 6) (t : Nums) : ReadsTheSame (readINTG nd (intgN nd) t) :=
  have := readINTG_blind h t
  readsTheSame _

section
variable [CorrOps]

theorem SecType.blindParse (T : SecType) : Blind T.defn.parse := by
  cases T with
  | std T => exact (inferInstance : Blind T.defn.parse)
  | cov => exact (inferInstance : Blind mf32mt151.parse)

/-- Every type of section. -/
theorem C71_section (T : SecType) : ReadsTheSame T.defn.parse :=
  have := SecType.blindParse T
  readsTheSame _

/-- Files, materials and tapes. -/
theorem C71_file (mf : Int) : ReadsTheSame (do let d ← readDivision; readPFile mf d : Parser PFile) :=
  have : Blind (do let d ← readDivision; readPFile mf d : Parser PFile) := Blind.bind inferInstance fun _ => inferInstance
  readsTheSame _

theorem C71_material : ReadsTheSame (do let d ← readDivision; readPMaterial d : Parser PMaterial) :=
  have : Blind (do let d ← readDivision; readPMaterial d : Parser PMaterial) := Blind.bind inferInstance fun _ => inferInstance
  readsTheSame _

theorem C71_tape : ReadsTheSame PTape.read := readsTheSame _

theorem fromString_same {α : Type} {p : Parser α} (hp : Blind p) {x x' : Text} (h : SameText x x') : Py.fromString p x = Py.fromString p x' := by
  unfold Py.fromString
  rcases (hp.run x x' 1 h).elim with ⟨e, e1, e2⟩ | ⟨a, y, y', m, e1, e2, hy⟩ <;> rw [e1, e2]

/-- `from_string` of sections, files and materials in Python. -/
theorem C71_python {x x' : Text} (h : SameText x x') :
    (∀ T, Py.sectionFromString T x = Py.sectionFromString T x') ∧ (∀ mf, Py.fileFromString mf x = Py.fileFromString mf x') ∧
      Py.materialFromString x = Py.materialFromString x' := by
  refine ⟨fun T => ?_, fun mf => ?_, ?_⟩
  · unfold Py.sectionFromString
    rw [fromString_same (SecType.blindParse T) h]
  · exact fromString_same (Blind.bind inferInstance fun _ => inferInstance) h
  · exact fromString_same (Blind.bind inferInstance fun _ => inferInstance) h

end

/-! ### the tree -/

/-- The trees of two tapes that agree in columns 1-75: the same exception, or the same identification, materials, files and sections in the same order,
    and the contents of the sections agree in columns 1-75. -/
theorem C71_tree {x x' : Text} (h : SameLines x x') (n : Int) :
    (∀ e, TTape.ofBuffer x n = .error e ↔ TTape.ofBuffer x' n = .error e) ∧
    (∀ t, TTape.ofBuffer x n = .ok t → ∃ t', TTape.ofBuffer x' n = .ok t' ∧ SameTTape t t') := by
  have hr := readTTape_took (n := n) h
  unfold TTape.ofBuffer
  cases hx : readTTape ⟨x, n⟩ with
  | error e =>
    cases hx' : readTTape ⟨x', n⟩ with
    | error e' =>
      rw [hx, hx'] at hr
      obtain rfl : e = e' := hr
      exact ⟨fun _ => Iff.rfl, fun t h => by cases h⟩
    | ok q => rw [hx, hx'] at hr; exact False.elim hr
  | ok q =>
    cases hx' : readTTape ⟨x', n⟩ with
    | error e' => rw [hx, hx'] at hr; exact False.elim hr
    | ok q' =>
      rw [hx, hx'] at hr
      exact ⟨fun e => ⟨fun h => (by cases h), fun h => (by cases h)⟩, fun t h => by cases h; exact ⟨_, rfl, hr.2⟩⟩

/-- The numbers of such tapes, materials and files are the same. -/
theorem C71_tree_numbers {t t' : TTape} (h : SameTTape t t') :
    t.materialNumbers = t'.materialNumbers ∧
    ∀ mat ms, t.material mat = .ok ms → ∃ ms', t'.material mat = .ok ms' ∧
      All2 (fun m m' => m.mat = m'.mat ∧ m.fileNumbers = m'.fileNumbers ∧
        ∀ mf f, m.file mf = .ok f → ∃ f', m'.file mf = .ok f' ∧ f.mat = f'.mat ∧ f.mf = f'.mf ∧ f.sectionNumbers = f'.sectionNumbers ∧
          ∀ mt s, f.section' mt = .ok s → ∃ s', f'.section' mt = .ok s' ∧
            s.mat = s'.mat ∧ s.mf = s'.mf ∧ s.mt = s'.mt ∧ s.nc = s'.nc ∧ SameBlock s.content s'.content) ms ms' := by
  have hfilter : ∀ (k : Int) {m m' : SMap TMaterial}, SameMap SameTMaterial m m' →
      SameMap SameTMaterial (m.filter (fun e => e.1 == k)) (m'.filter (fun e => e.1 == k)) := by
    intro k m m' hm
    induction hm with
    | nil => exact .nil
    | @cons e e' as bs h1 _ ih =>
      rw [List.filter_cons, List.filter_cons, h1.1]
      cases hk : e'.1 == k with
      | true => exact .cons h1 ih
      | false => exact ih
  refine ⟨by unfold TTape.materialNumbers; rw [h.materials.keys], fun mat ms hms => ?_⟩
  have hf := hfilter mat h.materials
  have hl := All2.length hf
  unfold TTape.material TTape.numberMAT at hms ⊢
  rw [hl] at hms
  by_cases h0 : (t'.materials.filter (fun e => e.1 == mat)).length = 0
  · rw [if_pos h0] at hms; cases hms
  rw [if_neg h0] at hms ⊢
  cases hms
  refine ⟨_, rfl, hf.values.mono fun m m' hm => ⟨hm.mat, hm.files.keys, fun mf f hfile => ?_⟩⟩
  unfold TMaterial.file SMap.at' at hfile ⊢
  rcases hm.files.get? mf with ⟨e1, e2⟩ | ⟨v, v', e1, e2, hv⟩
  · rw [e1] at hfile; cases hfile
  rw [e1] at hfile
  rw [e2]
  cases hfile
  refine ⟨v', rfl, hv.mat, hv.mf, hv.sections.keys, fun mt s hs => ?_⟩
  unfold TFile.section' SMap.at' at hs ⊢
  rcases hv.sections.get? mt with ⟨e1, e2⟩ | ⟨u, u', e1, e2, hu⟩
  · rw [e1] at hs; cases hs
  rw [e1] at hs
  rw [e2]
  cases hs
  exact ⟨u', rfl, hu.mat, hu.mf, hu.mt, by unfold TSection.nc; rw [hu.content.count], hu.content⟩

section
variable [CorrOps]

/-- Sections of the tree that agree are parsed to the same section. -/
theorem C71_tree_section {s s' : TSection} (h1 : s.mf = s'.mf) (h2 : s.mt = s'.mt) (h : SameBlock s.content s'.content) :
    (∀ T : SecType, s.parse T.defn = s'.parse T.defn) ∧ s.parseAny = s'.parseAny ∧ Py.parseSection s = Py.parseSection s' := by
  have hp : ∀ T : SecType, s.parse T.defn = s'.parse T.defn := by
    intro T
    unfold TSection.parse
    rcases ((SecType.blindParse T).run _ _ 1 h.lines.text).elim with ⟨e, e1, e2⟩ | ⟨a, y, y', m, e1, e2, hy⟩ <;> rw [e1, e2]
  refine ⟨hp, ?_, ?_⟩
  · unfold TSection.parseAny
    rw [h1, h2]
    split
    · rw [hp]
    · rfl
  · unfold Py.parseSection
    rw [h1, h2]
    split
    · rw [hp]
    · rfl

theorem parse_file {f f' : TFile} (h : SameTFile f f') (mf : Int) : f.parse mf = f'.parse mf := by
  have hc := h.content
  unfold TFile.parse
  cases e1 : f.content with
  | error e =>
    cases e2 : f'.content with
    | error e' => rw [e1, e2] at hc; obtain rfl : e = e' := hc; rfl
    | ok c' => rw [e1, e2] at hc; exact False.elim hc
  | ok c =>
    cases e2 : f'.content with
    | error e' => rw [e1, e2] at hc; exact False.elim hc
    | ok c' =>
      rw [e1, e2] at hc
      have hc : SameBlock c c' := hc
      have hp := (Blind.bind inferInstance fun _ => inferInstance : Blind (do let d ← readDivision; readPFile mf d : Parser PFile))
      simp only
      rcases (hp.run _ _ 1 hc.lines.text).elim with ⟨e, e1, e2⟩ | ⟨a, y, y', m, e1, e2, hy⟩ <;> rw [e1, e2]

theorem parse_material {m m' : TMaterial} (h : SameTMaterial m m') : m.parse = m'.parse := by
  have hc := h.content
  unfold TMaterial.parse
  cases e1 : m.content with
  | error e =>
    cases e2 : m'.content with
    | error e' => rw [e1, e2] at hc; obtain rfl : e = e' := hc; rfl
    | ok c' => rw [e1, e2] at hc; exact False.elim hc
  | ok c =>
    cases e2 : m'.content with
    | error e' => rw [e1, e2] at hc; exact False.elim hc
    | ok c' =>
      rw [e1, e2] at hc
      have hc : SameBlock c c' := hc
      have hp := (Blind.bind inferInstance fun _ => inferInstance : Blind (do let d ← readDivision; readPMaterial d : Parser PMaterial))
      simp only
      rcases (hp.run _ _ 1 hc.lines.text).elim with ⟨e, e1, e2⟩ | ⟨a, y, y', m, e1, e2, hy⟩ <;> rw [e1, e2]

theorem parse_tape {t t' : TTape} (h : SameTTape t t') : t.parse = t'.parse := by
  have hc := h.content
  unfold TTape.parse
  cases e1 : t.content with
  | error e =>
    cases e2 : t'.content with
    | error e' => rw [e1, e2] at hc; obtain rfl : e = e' := hc; rfl
    | ok c' => rw [e1, e2] at hc; exact False.elim hc
  | ok c =>
    cases e2 : t'.content with
    | error e' => rw [e1, e2] at hc; exact False.elim hc
    | ok c' =>
      rw [e1, e2] at hc
      have hc : SameBlock c c' := hc
      have hp := (inferInstance : Blind PTape.read)
      simp only
      rcases (hp.run _ _ 1 hc.lines.text).elim with ⟨e, e1, e2⟩ | ⟨a, y, y', m, e1, e2, hy⟩ <;> rw [e1, e2]

/-- Parsing through the tree: a tape is indexed, and then all of it, its materials, its files or its sections are parsed. -/
theorem C71_tree_parse {x x' : Text} (h : SameLines x x') (n : Int) {t : TTape} (ht : TTape.ofBuffer x n = .ok t) :
    ∃ t', TTape.ofBuffer x' n = .ok t' ∧ t.parse = t'.parse ∧
      t.materials'.map TMaterial.parse = t'.materials'.map TMaterial.parse ∧
      t.materials'.map (fun m => m.files'.map (fun f => f.parse f.mf)) = t'.materials'.map (fun m => m.files'.map (fun f => f.parse f.mf)) ∧
      t.materials'.map (fun m => m.files'.map (fun f => f.sections'.map TSection.parseAny)) =
        t'.materials'.map (fun m => m.files'.map (fun f => f.sections'.map TSection.parseAny)) := by
  obtain ⟨t', h1, h2⟩ := (C71_tree h n).2 t ht
  have mapEq : ∀ {α β : Type} {V : α → α → Prop} {f : α → β} {as bs : List α}, All2 V as bs → (∀ a b, V a b → f a = f b) → as.map f = bs.map f := by
    intro α β V f as bs h hf
    induction h with
    | nil => rfl
    | cons h1 _ ih => rw [List.map_cons, List.map_cons, hf _ _ h1, ih]
  refine ⟨t', h1, parse_tape h2, mapEq h2.materials.values fun a b k => parse_material k,
    mapEq h2.materials.values fun a b k => mapEq k.files.values fun f g l => ?_,
    mapEq h2.materials.values fun a b k => mapEq k.files.values fun f g l => mapEq l.sections.values fun s s' r => ?_⟩
  · rw [l.mf]; exact parse_file l g.mf
  · exact (C71_tree_section r.mf r.mt r.content).2.1

end

/-- Cleaning removes the differences: the sections of the tree become identical, and if everything can be cleaned the tapes become identical. -/
theorem C71_clean {t t' : TTape} (h : SameTTape t t') : t.clean.1 = t'.clean.1 ∧ (t.clean.1 = .ok () → t.clean.2 = t'.clean.2) := h.clean

theorem C71_clean_section {s s' : TSection} (h : SameTSection s s') : s.clean = s'.clean := h.clean

/-- A line of at least 75 columns whose line number (if there is one) can be read. -/
def Numbered (l : Text) : Prop := '\n' ∉ l ∧ 75 ≤ l.length ∧ ∃ v, parseInt (cols 76 80 l) = some v

/-- Texts of such lines can be cut after column 75, or given other line numbers and comments. -/
theorem C71_cut {ls : List Text} (h : ∀ l ∈ ls, Numbered l) (g : Text → Text) (hn : ∀ l ∈ ls, '\n' ∉ g l)
    (hg : ∀ l ∈ ls, ∃ v, parseInt ((g l).take 5) = some v) : SameLines (unlines ls) (unlines (ls.map fun l => l.take 75 ++ g l)) := by
  induction ls with
  | nil => exact .nil
  | cons l ls ih =>
    obtain ⟨h1, h2, h3⟩ := h l (by simp)
    have hl : (l.take 75).length = 75 := by simp; omega
    have e : ((l.take 75 ++ g l).drop 75) = g l := by
      rw [List.drop_append_of_le_length (by omega), List.drop_eq_nil_of_le (by omega), List.nil_append]
    have e2 : (l.take 75 ++ g l).take 75 = l.take 75 := by
      rw [List.take_append_of_le_length (by omega), List.take_take]; rfl
    have := SameLines.line (l := l) (l' := l.take 75 ++ g l) ⟨h1, by
      simp only [List.mem_append, not_or]; exact ⟨fun k => h1 (List.mem_of_mem_take k), hn l (by simp)⟩, h2, by rw [List.length_append, hl]; omega, e2.symm, h3,
      by rw [e]; exact hg l (by simp)⟩ (ih (fun k hk => h k (by simp [hk])) (fun k hk => hn k (by simp [hk])) (fun k hk => hg k (by simp [hk])))
    simpa using this

/-- In particular the line numbers can be left out. -/
theorem C71_no_line_numbers {ls : List Text} (h : ∀ l ∈ ls, Numbered l) : SameLines (unlines ls) (unlines (ls.map (List.take 75))) := by
  have := C71_cut h (fun _ => []) (by simp) (fun _ _ => ⟨0, Disco.parseInt_blank 0⟩)
  simpa using this

theorem C71_text {x x' : Text} (h : SameLines x x') : SameText x x' := h.text

/-- The line number must be readable: otherwise the line cannot be read, whatever is in the other columns (here for CONT records). -/
theorem C71_unreadable {l r : Text} (hl : '\n' ∉ l) (h : parseInt (cols 76 80 l) = none) (t : Nums) (n : Int) :
    readCont t ⟨l ++ '\n' :: r, n⟩ = .error .exc := by
  have hcat := LineF.mapErr (f := catchInt) (colsTail_line readContBase_cols t) rfl
  have hx := hcat l ('\n' :: r) n hl (Or.inr ⟨r, rfl⟩)
  rw [if_neg (by simp)] at hx
  have ht : tailOpt (l.drop 66) = none := by
    have h : parseInt ((l.drop 75).take 5) = none := h
    simp only [tailOpt, List.drop_drop]
    rw [show 66 + 9 = 75 from rfl, h]
    cases parseInt ((l.drop 66).take 4) <;> try rfl
    cases parseInt ((l.drop (66 + 4)).take 2) <;> try rfl
    cases parseInt ((l.drop (66 + 6)).take 3) <;> rfl
  unfold readCont
  refine Eq.trans hx ?_
  dsimp only
  cases hc : contOpt l with
  | none => rfl
  | some b => rw [tailCheck, ht]; rfl

end ENDFtk.Props

import Verif.Python.Model
import Verif.Props.Parsed
import Verif.Props.TreeParsed
import Verif.Props.Records
import Verif.Props.ResCov
/-
  C64: the Python interface reads what it writes.
  C65: tapes in files on disk.
-/
set_option linter.unusedVariables false
set_option linter.unusedSectionVars false
set_option linter.unusedSimpArgs false
namespace ENDFtk.Props
variable [Disco] [CorrOps]

/-! ### C64 -/

/-- The sections that a section type is for: its MF, and its MT if it has one of its own. -/
def IsFor (T : SecType) (mf mt : Int) : Prop := T.defn.mf = mf ∧ ∀ k, T.defn.fixedMT = some k → k = mt

theorem typeFor_eq (mf mt : Int) : Py.typeFor mf mt = sectionType? mf mt := by
  unfold Py.typeFor sectionType?
  by_cases h1 : mf = 1
  · subst h1; rfl
  by_cases h2 : mf = 2
  · subst h2; rfl
  by_cases h7 : mf = 7
  · subst h7; rfl
  by_cases h8 : mf = 8
  · subst h8; rfl
  by_cases h32 : mf = 32
  · subst h32; rfl
  simp only [h1, h2, h7, h8, h32, if_false]

theorem sectionFromString_ok {T : SecType} {t : Text} {x : Sect T.Data} {s : St} (h : T.defn.parse ⟨t, 1⟩ = .ok (x, s)) : Py.sectionFromString T t = .ok ⟨T, x⟩ := by
  unfold Py.sectionFromString Py.fromString
  rw [h]

/-- What a section returns from a string: `from_string( text )` reads what `to_string( mat, mf )` wrote, whatever follows. -/
theorem C64_section_strings {x : AnySection} (hv : x.Valid) (hr : x.Rep) {mat : Int} (h1 : 1 ≤ mat) (h2 : mat ≤ 9999) :
    ∃ txt, Py.sectionToString x mat x.mf = .ok txt ∧ ∀ r, Py.sectionFromString x.1 (txt ++ r) = .ok x := by
  obtain ⟨T, y⟩ := x
  cases T with
  | std T =>
    obtain ⟨txt, e1, e2⟩ := C41_valid_round_trip T hv hr h1 h2
    refine ⟨txt, e1, fun r => ?_⟩
    obtain ⟨k, e⟩ := e2 r 1
    exact sectionFromString_ok (T := .std T) e
  | cov =>
    obtain ⟨txt, e1, e2⟩ := ResCov.sect_round hv.1 hr h1 (by simp [fits]; omega)
    exact ⟨txt, e1, fun r => sectionFromString_ok (T := .cov) (e2 r 1)⟩

theorem C64_file_strings {f : PFile} (hv : f.Valid) (hr : f.Rep) {mat : Int} (h1 : 1 ≤ mat) (h2 : mat ≤ 9999) :
    ∃ txt, Py.fileToString f mat = .ok txt ∧ ∀ r, Py.fileFromString f.mf (txt ++ r) = .ok f := by
  obtain ⟨txt, e1, e2⟩ := C46_file_round_trip hv hr h1 h2
  refine ⟨txt, e1, fun r => ?_⟩
  obtain ⟨k, e⟩ := e2 r 1
  unfold Py.fileFromString Py.fromString
  rw [show (do let d ← readDivision; readPFile f.mf d : Parser PFile) = readFileFrom f.mf from rfl, e]

theorem C64_material_strings {m : PMaterial} (hv : m.Valid) (hr : m.Rep) :
    ∃ txt, Py.materialToString m = .ok txt ∧ ∀ r, Py.materialFromString (txt ++ r) = .ok m := by
  obtain ⟨txt, e1, e2⟩ := C46_material_round_trip_partial hv hr
  refine ⟨txt, e1, fun r => ?_⟩
  obtain ⟨k, e⟩ := e2 r 1
  unfold Py.materialFromString Py.fromString
  rw [show (do let d ← readDivision; readPMaterial d : Parser PMaterial) = readMaterialFrom from rfl, e]

/-- Records: `from_string( r.to_string( mat, mf, mt ), mat, mf, mt )` is `r`. -/
theorem C64_record_strings {mat mf mt : Int} (ht : (⟨mat, mf, mt⟩ : Nums).Fit) (r : Text) :
    (∀ c : Cont, c.Ok → Py.componentFromString readCont (printCont c ⟨mat, mf, mt⟩ ++ r) mat mf mt = .ok c) ∧
    (∀ l : LIST, l.Ok → Py.componentFromString readLIST (l.print ⟨mat, mf, mt⟩ ++ r) mat mf mt = .ok l) ∧
    (∀ l : TAB1, l.Ok → Py.componentFromString readTAB1 (l.print ⟨mat, mf, mt⟩ ++ r) mat mf mt = .ok l) ∧
    (∀ l : TAB2, l.Ok → Py.componentFromString readTAB2 (l.print ⟨mat, mf, mt⟩ ++ r) mat mf mt = .ok l) := by
  unfold Py.componentFromString Py.fromString
  refine ⟨fun c h => ?_, fun c h => ?_, fun c h => ?_, fun c h => ?_⟩
  · rw [C26_cont_round_trip h ht]
  · rw [C28_list_round_trip h ht]
  · rw [C29_tab1_round_trip h ht]
  · rw [C29_tab2_round_trip h ht]

/-- `parse()` of a tree section: the section is read from its content as the type that is for its MF and MT; it throws if there is none. -/
theorem C64_parse (s : TSection) (x : AnySection) :
    Py.parseSection s = .ok x ↔ IsFor x.1 s.mf s.mt ∧ Py.sectionFromString x.1 s.content = .ok x := by
  have hiff : ∀ T : SecType, IsFor T s.mf s.mt ↔ sectionType? s.mf s.mt = some T := fun T => by
    rw [sectionType?_iff]
    unfold IsFor
    refine and_congr Iff.rfl ?_
    cases T.defn.fixedMT <;> simp [eq_comm]
  rw [hiff]
  unfold Py.parseSection Py.sectionFromString Py.fromString TSection.parse
  rw [typeFor_eq]
  cases hT : sectionType? s.mf s.mt with
  | none => simp
  | some T =>
    simp only [Option.some.injEq]
    cases hp : T.defn.parse ⟨s.content, 1⟩ with
    | error e =>
      simp only
      constructor
      · intro h; cases h
      · rintro ⟨rfl, h⟩; rw [hp] at h; cases h
    | ok y =>
      simp only
      constructor
      · intro h; cases h; exact ⟨rfl, by rw [hp]⟩
      · rintro ⟨rfl, h⟩; rw [hp] at h; exact h

theorem C64_parse_rejects (s : TSection) (h : ∀ T, ¬IsFor T s.mf s.mt) : Py.parseSection s = .error .exc := by
  unfold Py.parseSection
  rw [typeFor_eq]
  cases hT : sectionType? s.mf s.mt with
  | none => rfl
  | some T =>
    exfalso
    refine h T ?_
    have := sectionType?_iff.mp hT
    unfold IsFor
    refine ⟨this.1, fun k hk => ?_⟩
    exact (this.2 k hk).symm

/-- A section in the tree is parsed as the section it was made from. -/
theorem C64_section_tree {x : AnySection} (hv : x.Valid) (hr : x.Rep) {mat : Int} (h1 : 1 ≤ mat) (h2 : mat ≤ 9999) :
    ∃ s, Py.sectionToTree x mat = .ok s ∧ Py.parseSection s = .ok x := by
  obtain ⟨s, e1, e2, -⟩ := C45_section_round_trip hv hr h1 h2
  refine ⟨s, e1, ?_⟩
  unfold Py.parseSection
  rw [typeFor_eq]
  exact e2

/-- A file in the tree is parsed as the file it was made from. -/
theorem C64_file_tree {f : PFile} (hv : f.Valid) (hr : f.Rep) (hne : f.sections ≠ []) {mat : Int} (h1 : 1 ≤ mat) (h2 : mat ≤ 9999) :
    ∃ t, Py.fileToTree f mat = .ok t ∧ Py.parseFile t = .ok f := by
  obtain ⟨t, e1, -, e2, -, -, -, -, e3⟩ := C45_to_file hv hr hne h1 h2
  refine ⟨t, e1, ?_⟩
  unfold Py.parseFile
  rw [if_pos, e2]
  · exact e3
  · rw [e2]
    obtain ⟨k, h30, -⟩ := hv
    unfold KnownMF implementedMF at k
    simp [Py.fileTypes] at k ⊢
    omega

/-- Python's `parse()` of a file is that of C++ with the file's own MF, except that file 30 is rejected. -/
theorem C64_parse_file (f : TFile) :
    (KnownMF f.mf ∧ f.mf ≠ 30 → Py.parseFile f = f.parse f.mf) ∧ (¬(KnownMF f.mf ∧ f.mf ≠ 30) → Py.parseFile f = .error .exc) := by
  have key : f.mf ∈ Py.fileTypes ↔ KnownMF f.mf ∧ f.mf ≠ 30 := by
    unfold KnownMF implementedMF
    simp [Py.fileTypes]
    omega
  unfold Py.parseFile
  rw [← key]
  exact ⟨fun h => if_pos h, fun h => if_neg h⟩

/-- What is read from a string depends only on the lines of the object itself. -/
theorem C64_rest_ignored {T : SecType} {t : Text} {x : AnySection} (h : Py.sectionFromString T t = .ok x) :
    ∃ (ls : List Text) (r : Text), Lines ls t r ∧ ∀ r', Py.sectionFromString T (unlines ls ++ r') = .ok x := by
  unfold Py.sectionFromString Py.fromString at h
  cases hp : T.defn.parse ⟨t, 1⟩ with
  | error e => rw [hp] at h; cases h
  | ok a =>
    obtain ⟨y, s'⟩ := a
    rw [hp] at h
    cases h
    have key : ∃ (ls : List Text) (k : Int), Lines ls t s'.rest ∧ ∀ r, T.defn.parse ⟨unlines ls ++ r, 1⟩ = .ok (y, ⟨r, k⟩) := by
      cases T with
      | std T =>
        obtain ⟨ls, a1, a3⟩ := (C50_sections T ⟨zeroCont, ⟨0, 0, 0⟩⟩ 0).1 _ _ _ hp
        exact ⟨ls, _, a1, fun r => a3 r 1⟩
      | cov =>
        obtain ⟨ls, k, a1, -, -, a3⟩ := (C50_mf32mt151 ⟨zeroCont, ⟨0, 0, 0⟩⟩ 0).1 _ _ _ hp
        exact ⟨ls, _, a1, fun r => a3 r 1⟩
    obtain ⟨ls, k, h1, h2⟩ := key
    refine ⟨ls, _, h1, fun r' => ?_⟩
    exact sectionFromString_ok (h2 r')

/-- `MAT( mat )` of a tape: the material if there is one, all of them if there are several, an exception if there is none. -/
theorem C64_tape_material (t : TTape) (mat : Int) :
    (∀ m, Py.tapeMaterial t mat = .ok (.inl m) ↔ t.material mat = .ok [m]) ∧
    (∀ ms, Py.tapeMaterial t mat = .ok (.inr ms) ↔ t.material mat = .ok ms ∧ 2 ≤ ms.length) ∧
    (∀ e, Py.tapeMaterial t mat = .error e ↔ t.material mat = .error e) := by
  have hl : ∀ ms, t.material mat = .ok ms → ms.length = t.numberMAT mat ∧ t.numberMAT mat ≠ 0 := by
    intro ms h
    unfold TTape.material at h
    split at h
    · cases h
    · rename_i h0
      cases h
      exact ⟨by simp [SMap.values, TTape.numberMAT], h0⟩
  unfold Py.tapeMaterial
  cases hm : t.material mat with
  | error e =>
    split <;> simp
  | ok ms =>
    obtain ⟨h1, h2⟩ := hl ms hm
    split
    · rename_i h
      obtain ⟨a, rfl⟩ := List.length_eq_one_iff.mp (h1.trans h)
      simp
    · rename_i h
      refine ⟨fun m => ?_, fun ms' => ?_, fun e => by simp⟩
      · simp; rintro rfl; exact h h1.symm
      · simp; rintro rfl; omega

/-! ### C65 -/

theorem put_self (d : Disk) (n : String) (t : Text) : d.put n t n = some t := by simp [Disk.put]
theorem put_other (d : Disk) {n k : String} (t : Text) (h : k ≠ n) : d.put n t k = d k := by simp [Disk.put, h]

/-- `fromFile` gives a tape or throws, and it throws if there is no such file; a buffer in a file is read like a buffer in memory. -/
theorem C65_read (d : Disk) (name : String) :
    (∀ txt, d name = some txt → fromFile d name = TTape.ofBuffer txt 0) ∧ (d name = none → fromFile d name = .error .exc) ∧
    ((∃ t, fromFile d name = .ok t) ∨ fromFile d name = .error .exc) := by
  unfold fromFile
  refine ⟨fun txt h => by rw [h], fun h => by rw [h], ?_⟩
  cases d name with
  | none => exact .inr rfl
  | some txt => exact C03_total txt 0

/-- Only the named file is touched. -/
theorem C65_other_files (t : TTape) (name : String) (w : Write) (d : Disk) {k : String} (h : k ≠ name) : (toDisk t name w d).2 k = d k := by
  unfold toDisk
  cases w <;> cases t.content <;> simp [put_other, h]

/-- A tape that is written completely is read back (without its empty files and materials, see C09). -/
theorem C65_write_read (t : TTape) (hg : GoodTape t) (d : Disk) (name : String) :
    ∃ c, t.content = .ok c ∧ ∀ k, c.length ≤ k →
      (toDisk t name (.opened k) d).1 = .ok () ∧ (toDisk t name (.opened k) d).2 name = some c ∧ fromFile (toDisk t name (.opened k) d).2 name = .ok (prune t) := by
  obtain ⟨c, e1, e2, -⟩ := C09_reindex t hg 0
  refine ⟨c, e1, fun k hk => ?_⟩
  unfold toDisk fromFile
  simp only [e1, put_self, List.take_of_length_le hk]
  exact ⟨trivial, trivial, e2⟩

/-- A write that is interrupted at any point never leaves a file that is read as another tape: the file is rejected, unless everything but the last line end
    was written. -/
theorem C65_interrupted (t : TTape) (hg : GoodTape t) (d : Disk) (name : String) (k : Nat) :
    ∃ c, t.content = .ok c ∧
      (k + 1 < c.length → fromFile (toDisk t name (.opened k) d).2 name = .error .exc) ∧
      (c.length ≤ k + 1 → fromFile (toDisk t name (.opened k) d).2 name = .ok (prune t)) := by
  obtain ⟨L, hL, htree, hc1, -, -, -, -, h80⟩ := good_tape_layout t hg
  refine ⟨unlines L.lines, hc1, ?_⟩
  have hd : fromFile (toDisk t name (.opened k) d).2 name = TTape.ofBuffer ((unlines L.lines).take k) 0 := by
    unfold toDisk fromFile
    simp only [hc1, put_self]
  rw [hd]
  have hfront : unlines L.lines = unlines (L.tpid :: L.mats.flatMap MatL.lines) ++ (L.tend.text ++ ['\n']) := by
    simp [TapeL.lines]
  have hlen : (unlines L.lines).length = (unlines (L.tpid :: L.mats.flatMap MatL.lines)).length + 81 := by
    rw [hfront]; simp only [List.length_append, h80, List.length_cons, List.length_nil]
  constructor
  · intro hk
    refine C07_truncated L hL [] _ ((unlines L.lines).drop k) (by rw [List.take_append_drop]; simp) 0 ?_
    rw [List.length_take, h80]
    omega
  · intro hk
    have run : ∀ {g r : Text}, At L.tend.text g r → TTape.ofBuffer (L.front ++ g) 0 = .ok (prune t) := fun hg => by
      obtain ⟨m, hm⟩ := readTTape_run hL hg 0
      rw [TapeL.textWith_eq] at hm
      rw [← htree]
      exact ofBuffer_of_run hm
    have hn : '\n' ∉ L.tend.text := hL.2.2.2.1.1.1
    by_cases hk' : (unlines L.lines).length ≤ k
    · rw [List.take_of_length_le hk']
      have := run (At.nl hn (r := []))
      rw [← this]
      congr 1
    · have : (unlines L.lines).take k = L.front ++ L.tend.text := by
        rw [hfront, ← List.append_assoc]
        exact List.take_left' (by simp only [List.length_append, h80]; omega)
      rw [this]
      exact run (r := []) ⟨hn, .inr ⟨rfl, rfl, by omega⟩⟩

/-- A tape that was read from a file and is written to it is read from it again with the same materials (hypotheses: see `C09_from_buffer`). -/
theorem C65_rewrite (d : Disk) (name : String) (t : TTape) (h : fromFile d name = .ok t) (hneg : t.hasMAT (-1) = false)
    (hmat : ∀ mat ms, t.material mat = .ok ms → ∀ m ∈ ms, ∀ mf mt s, m.section' mf mt = .ok s → s.mat = mat) (other : String) :
    ∃ c, t.content = .ok c ∧ ∀ k, c.length ≤ k → ∃ t', fromFile (toDisk t other (.opened k) d).2 other = .ok t' ∧ t'.materials = t.materials ∧ t'.content = .ok c := by
  unfold fromFile at h
  cases hd : d name with
  | none => rw [hd] at h; cases h
  | some b =>
    rw [hd] at h
    obtain ⟨-, -, c, t', e1, e2, e3, e4⟩ := C09_from_buffer b 0 t h hneg hmat 0
    refine ⟨c, e1, fun k hk => ⟨t', ?_, e3, e4⟩⟩
    unfold toDisk fromFile
    simp only [e1, put_self, List.take_of_length_le hk]
    exact e2

/-- Calls to `to_file` one after the other, each with what the operating system does. -/
def writes (d : Disk) : List (TTape × String × Write) → Disk
  | [] => d
  | (t, n, w) :: l => writes (toDisk t n w d).2 l

/-- The file was opened for writing by this call. -/
def Opens (name : String) (o : TTape × String × Write) : Prop := o.2.1 = name ∧ ∃ k, o.2.2 = .opened k

theorem toDisk_not_opens {o : TTape × String × Write} {name : String} (h : ¬Opens name o) (d : Disk) : (toDisk o.1 o.2.1 o.2.2 d).2 name = d name := by
  obtain ⟨t, n, w⟩ := o
  unfold Opens at h
  unfold toDisk
  cases w with
  | notOpened => cases t.content <;> rfl
  | opened k =>
    have hn : name ≠ n := fun hn => h ⟨hn.symm, k, rfl⟩
    cases t.content <;> simp [put_other, hn]

/-- After any history of calls to `to_file` with consistent tapes, completed or interrupted, a file is as it was if none of them opened it; otherwise it is
    read as the tape of the last call that opened it, or it is rejected if that call was interrupted. -/
theorem C65_history (ops : List (TTape × String × Write)) (hg : ∀ o ∈ ops, GoodTape o.1) (d : Disk) (name : String) :
    ((∀ o ∈ ops, ¬Opens name o) ∧ writes d ops name = d name) ∨
    ∃ a o b, ops = a ++ o :: b ∧ Opens name o ∧ (∀ o' ∈ b, ¬Opens name o') ∧
      ∃ k c, o.2.2 = .opened k ∧ o.1.content = .ok c ∧ (c.length ≤ k + 1 → fromFile (writes d ops) name = .ok (prune o.1)) ∧
        (k + 1 < c.length → fromFile (writes d ops) name = .error .exc) := by
  induction ops generalizing d with
  | nil => exact .inl ⟨by simp, rfl⟩
  | cons o ops ih =>
    rcases ih (fun x hx => hg x (by simp [hx])) (toDisk o.1 o.2.1 o.2.2 d).2 with ⟨h1, h2⟩ | ⟨a, p, b, h1, h2, h3, h4⟩
    · by_cases ho : Opens name o
      · refine .inr ⟨[], o, ops, rfl, ho, h1, ?_⟩
        obtain ⟨t, n, w⟩ := o
        obtain ⟨rfl, k, rfl⟩ := ho
        obtain ⟨c, e1, e2, e3⟩ := C65_interrupted t (hg (t, n, .opened k) (by simp)) d n k
        have hf : fromFile (writes d ((t, n, .opened k) :: ops)) n = fromFile (toDisk t n (.opened k) d).2 n := by
          unfold fromFile
          rw [show writes d ((t, n, .opened k) :: ops) n = _ from h2]
        rw [hf]
        exact ⟨k, c, rfl, e1, e3, e2⟩
      · refine .inl ⟨?_, ?_⟩
        · intro x hx
          rcases List.mem_cons.mp hx with rfl | hx
          · exact ho
          · exact h1 x hx
        · exact h2.trans (toDisk_not_opens ho d)
    · exact .inr ⟨o :: a, p, b, by rw [h1]; rfl, h2, h3, h4⟩

/-- What is missing: `to_file` reports success although nothing was written, or not everything was. -/
theorem C65_silent (t : TTape) {c : Text} (h : t.content = .ok c) (name : String) (d : Disk) :
    toDisk t name .notOpened d = (.ok (), d) ∧ ∀ k, (toDisk t name (.opened k) d).1 = .ok () ∧ (toDisk t name (.opened k) d).2 name = some (c.take k) := by
  unfold toDisk
  simp [h, put_self]

/-- What is missing: if `content()` throws, so does `to_file`, but the file was emptied before: what it contained is lost. -/
theorem C65_content_lost (t : TTape) {e : Err} (h : t.content = .error e) (name : String) (k : Nat) (d : Disk) :
    (toDisk t name (.opened k) d).1 = .error e ∧ (toDisk t name (.opened k) d).2 name = some [] ∧ fromFile (toDisk t name (.opened k) d).2 name = .error .exc := by
  unfold toDisk
  simp only [h]
  refine ⟨trivial, put_self _ _ _, ?_⟩
  unfold fromFile
  rw [put_self]
  rcases C03_total [] 0 with ⟨t', ht⟩ | ht
  · obtain ⟨l, x, y, -, hx⟩ := C07_no_tend [] 0 t' ht
    simp at hx
  · exact ht

end ENDFtk.Props

import Verif.Section.Access
import Verif.Props.Build2
import Verif.Props.Format
/-
  C62: what the getters of the sections and of their components return: what was given to the constructor, and what the text says.  Part 1: the records,
  files 1, 3, 4, 5, 6, 23, 26 and 27.
-/
set_option linter.unusedVariables false
set_option linter.unusedSectionVars false
set_option linter.unusedSimpArgs false
namespace ENDFtk.Props
variable [Disco]

/-! ### specification: lines of a text -/

/-- The text up to the first newline. -/
def firstLine (txt : Text) : Text := txt.takeWhile (· ≠ '\n')
/-- The text after the first newline. -/
def afterLine (txt : Text) : Text := (txt.dropWhile (· ≠ '\n')).drop 1
/-- Line `k` of the text, from 0. -/
def lineAt : Nat → Text → Text
  | 0, txt => firstLine txt
  | k + 1, txt => lineAt k (afterLine txt)

/-- Line `k` of the text has the data of `c` in its columns. -/
def LineShows (k : Nat) (s : St) (c : Cont) : Prop := ShowsCont c (lineAt k s.rest)

/-! ### specification: tables -/

/-- The getters of a TAB1 record return these interpolation regions and points. -/
def TableSays (r : TAB1) (bounds ints : List Int) (x y : List Dbl) : Prop :=
  r.NR = bounds.length ∧ r.NP = x.length ∧ r.NBT = bounds ∧ r.INT = ints ∧ r.x = x ∧ r.y = y

/-- The getters of a TAB2 record return these interpolation regions and this number of components (if the numbers are indices of type `int`). -/
def RegionsSay (r : TAB2) (bounds ints : List Int) (n : Nat) : Prop :=
  r.NR = bounds.length ∧ r.NBT = bounds ∧ r.INT = ints ∧ ((∀ b ∈ bounds, 0 ≤ b ∧ b < 2147483648) → (n : Int) < 2147483648 → r.NZ = n)

/-! ### lemmas -/

theorem firstLine_cons {l r : Text} (h : '\n' ∉ l) : firstLine (l ++ '\n' :: r) = l ∧ afterLine (l ++ '\n' :: r) = r := by
  induction l with
  | nil => simp [firstLine, afterLine]
  | cons c l ih =>
    have hc : c ≠ '\n' := by intro e; apply h; simp [e]
    have hl : '\n' ∉ l := by intro e; apply h; simp [e]
    obtain ⟨h1, h2⟩ := ih hl
    simp only [firstLine, afterLine, ne_eq, decide_not, List.drop_one] at h1 h2
    simp [firstLine, afterLine, hc, h1, h2]

theorem firstLine_last {l : Text} (h : '\n' ∉ l) : firstLine l = l ∧ afterLine l = [] := by
  induction l with
  | nil => simp [firstLine, afterLine]
  | cons c l ih =>
    have hc : c ≠ '\n' := by intro e; apply h; simp [e]
    have hl : '\n' ∉ l := by intro e; apply h; simp [e]
    obtain ⟨h1, h2⟩ := ih hl
    simp only [firstLine, afterLine, ne_eq, decide_not, List.drop_one] at h1 h2
    simp [firstLine, afterLine, hc, h1, h2]

theorem lines_cons {l : Text} {ls : List Text} {txt rest : Text} (h : Lines (l :: ls) txt rest) : firstLine txt = l ∧ Lines ls (afterLine txt) rest := by
  cases h with
  | cons h1 h2 =>
    obtain ⟨e1, e2⟩ := firstLine_cons (r := _) h1
    rw [e1, e2]; exact ⟨rfl, h2⟩
  | last h1 h2 =>
    obtain ⟨e1, e2⟩ := firstLine_last h1
    rw [e1, e2]; exact ⟨rfl, .nil _⟩

theorem lines_nil {txt rest : Text} (h : Lines [] txt rest) : rest = txt := by cases h; rfl

theorem division_line {s s' : St} {d : Division} (h : readDivision s = .ok (d, s')) :
    LineShows 0 s d.base ∧ HasTail d.tail (lineAt 0 s.rest) ∧ s'.rest = afterLine s.rest := by
  obtain ⟨ls, hl, -, l, rfl, h1, h2, -⟩ := readDivision_reads.ok h
  obtain ⟨e, hn⟩ := lines_cons hl
  refine ⟨?_, ?_, lines_nil hn⟩
  · show ShowsCont _ (firstLine s.rest)
    rw [e]; exact h1
  · show HasTail _ (firstLine s.rest)
    rw [e]; exact h2

theorem cont_line {t : Nums} {s s' : St} {c : Cont} (h : readCont t s = .ok (c, s')) : LineShows 0 s c ∧ s'.rest = afterLine s.rest := by
  obtain ⟨ls, hl, -, l, rfl, h1, h2⟩ := (readCont_reads t).ok h
  obtain ⟨e, hn⟩ := lines_cons hl
  refine ⟨?_, lines_nil hn⟩
  show ShowsCont _ (firstLine s.rest)
  rw [e]; exact h1

theorem list_line {t : Nums} {s s' : St} {r : LIST} (h : readLIST t s = .ok (r, s')) : LineShows 0 s ⟨r.c1, r.c2, r.l1, r.l2, r.npl, r.n2⟩ := by
  obtain ⟨ls, hl, -, l, ds, rfl, -, -, h1, -⟩ := (readLIST_reads t).ok h
  show ShowsCont _ (firstLine s.rest)
  rw [(lines_cons hl).1]; exact h1

theorem tab2_line {t : Nums} {s s' : St} {r : TAB2} (h : readTAB2 t s = .ok (r, s')) : LineShows 0 s ⟨r.c1, r.c2, r.l1, r.l2, r.NR, r.NZ⟩ := by
  obtain ⟨ls, hl, -, ⟨l, ds, rfl, -, -, h1, -⟩, -⟩ := (readTAB2_reads t).ok h
  show ShowsCont _ (firstLine s.rest)
  rw [(lines_cons hl).1]; exact h1

theorem tab1_line {t : Nums} {s s' : St} {r : TAB1} (h : readTAB1 t s = .ok (r, s')) :
    LineShows 0 s ⟨r.base.c1, r.base.c2, r.base.l1, r.base.l2, r.NR, r.NP⟩ := by
  obtain ⟨ls, hl, -, ⟨hs, ds, rfl, -, -, ⟨l, ds', rfl, -, -, h1, -⟩, -⟩, -, -, -, hn⟩ := (readTAB1_reads t).ok h
  show ShowsCont _ (firstLine s.rest)
  rw [List.cons_append] at hl
  rw [(lines_cons hl).1]
  have : r.base.meta' = ⟨r.base.c1, r.base.c2, r.base.l1, r.base.l2, r.NR, r.NP⟩ := by
    simp only [TAB2.meta', TAB1.NR, TAB1.NP, TAB2.NR, TAB2.nr, hn]
  rw [← this]; exact h1

theorem line_succ {k : Nat} {s s' : St} {c : Cont} (h : s'.rest = afterLine s.rest) : LineShows k s' c ↔ LineShows (k + 1) s c := by
  unfold LineShows
  rw [h]; rfl

theorem table_says {c1 c2 : Dbl} {l1 l2 : Int} {b i : List Int} {x y : List Dbl} {r : TAB1} (h : TAB1.make c1 c2 l1 l2 b i x y = .ok r) :
    r.base.c1 = c1 ∧ r.base.c2 = c2 ∧ r.base.l1 = l1 ∧ r.base.l2 = l2 ∧ TableSays r b i x y := by
  obtain ⟨rfl, -⟩ := tab1_make h
  exact ⟨rfl, rfl, rfl, rfl, rfl, rfl, rfl, rfl, rfl, rfl⟩

theorem regions_say {α : Type} {c1 c2 : Dbl} {l1 l2 : Int} {b i : List Int} {seq : List α} {r : ISeq α}
    (h : ((TAB2.make c1 c2 l1 l2 b i).bind fun tab2 => ISeq.make tab2 seq) = .ok r) :
    r.tab2.c1 = c1 ∧ r.tab2.c2 = c2 ∧ r.tab2.l1 = l1 ∧ r.tab2.l2 = l2 ∧ r.seq = seq ∧ RegionsSay r.tab2 b i seq.length := by
  obtain ⟨tab2, h1, h2⟩ := bind_eq h
  obtain ⟨rfl, hv⟩ := TAB2.make_ok.mp h1
  obtain ⟨rfl, h3, h4⟩ := iseq_make h2
  refine ⟨rfl, rfl, rfl, rfl, rfl, rfl, rfl, rfl, fun hb hn => ?_⟩
  simp only [TAB1.npDiffer, bne_eq_false_iff_eq] at h4
  obtain ⟨v1, -⟩ := hv
  have : (⟨c1, c2, l1, l2, b, i⟩ : TAB2).n2 ∈ b := by
    simp only at v1
    unfold TAB2.n2
    rw [List.getLastD_eq_getLast?, List.getLast?_eq_some_getLast v1]
    exact List.getLast_mem v1
  have := hb _ this
  show TAB2.n2 ⟨c1, c2, l1, l2, b, i⟩ = _
  omega

/-! ### the lines of the records of a section -/

/-- The data of the first line of a record (text and directory records have none). -/
def recLine : Rec → Option Cont
  | .cont c => some c
  | .list r => some ⟨r.c1, r.c2, r.l1, r.l2, r.data.length, r.n2⟩
  | .tab1 r => some ⟨r.base.c1, r.base.c2, r.base.l1, r.base.l2, r.base.bounds.length, r.x.length⟩
  | .tab2 r => some ⟨r.c1, r.c2, r.l1, r.l2, r.bounds.length, r.bounds.getLastD 0⟩
  | .text _ => none
  | .dir _ => none

/-- The number of lines of a record: six values on a line, or three pairs. -/
def recLines : Rec → Nat
  | .list r => 1 + (r.data.length + 5) / 6
  | .tab1 r => 1 + (r.base.bounds.length + 2) / 3 + (r.x.length + 2) / 3
  | .tab2 r => 1 + (r.bounds.length + 2) / 3
  | _ => 1

theorem lineAt_lines {ls : List Text} {txt rest : Text} (h : Lines ls txt rest) (k : Nat) : lineAt (k + ls.length) txt = lineAt k rest := by
  induction ls generalizing txt with
  | nil => rw [lines_nil h]; rfl
  | cons l ls ih =>
    obtain ⟨-, h2⟩ := lines_cons h
    rw [← ih h2]; rfl

theorem rec_at {t : Nums} {r : Rec} {s s' : St} (h : r.At t s s') :
    (∀ c, recLine r = some c → LineShows 0 s c) ∧ ∀ k, lineAt (k + recLines r) s.rest = lineAt k s'.rest := by
  cases r with
  | cont c =>
    obtain ⟨ls, hl, -, l, rfl, -⟩ := (readCont_reads t).ok h
    exact ⟨fun _ e => by cases e; exact (cont_line h).1, lineAt_lines hl⟩
  | list r =>
    obtain ⟨ls, hl, -, l, ds, -, -, hn, -⟩ := (readLIST_reads t).ok h
    refine ⟨fun _ e => by cases e; exact list_line h, fun k => ?_⟩
    rw [← lineAt_lines hl k, hn]; rfl
  | tab1 r =>
    obtain ⟨ls, hl, -, ⟨hs, ds, -, -, hn, -⟩, hv⟩ := (readTAB1_reads t).ok h
    refine ⟨fun _ e => by cases e; exact tab1_line h, fun k => ?_⟩
    rw [← lineAt_lines hl k, hn]
    congr 1
  | tab2 r =>
    obtain ⟨ls, hl, -, ⟨l, ds, -, -, hn, -⟩, -⟩ := (readTAB2_reads t).ok h
    refine ⟨fun _ e => by cases e; exact tab2_line h, fun k => ?_⟩
    rw [← lineAt_lines hl k, hn]; rfl
  | text x =>
    obtain ⟨ls, hl, -, l, rfl, -⟩ := (readText_reads t).ok h
    exact ⟨fun _ e => (by cases e), lineAt_lines hl⟩
  | dir d =>
    obtain ⟨ls, hl, -, l, rfl, -⟩ := (readDir_reads t).ok h
    exact ⟨fun _ e => (by cases e), lineAt_lines hl⟩

theorem recs_lines {t : Nums} {pre : List Rec} {r : Rec} {post : List Rec} {s s' : St} (h : Recs t (pre ++ r :: post) s s') {c : Cont} (hc : recLine r = some c) :
    LineShows (pre.map recLines).sum s c := by
  induction pre generalizing s with
  | nil =>
    obtain ⟨_, h1, -⟩ := recs_cons.mp h
    exact (rec_at h1).1 c hc
  | cons p pre ih =>
    obtain ⟨s1, h1, h2⟩ := recs_cons.mp h
    have := ih h2
    unfold LineShows at this ⊢
    rw [← (rec_at h1).2] at this
    simp only [List.map_cons, List.sum_cons]
    rw [Nat.add_comm]; exact this

/-- A section that was parsed consists of records with the format of its type, and every record is on the lines of the text that come after the HEAD
    record and the records before it. -/
theorem C62_records (T : SectionType) {s s' : St} {x : Sect T.Data} (h : T.defn.parse s = .ok (x, s')) :
    ∃ a mt rs, LineShows 0 s a ∧ Fmt.body T a mt x.data rs ∧
      ∀ pre r post c, rs = pre ++ r :: post → recLine r = some c → LineShows (1 + (pre.map recLines).sum) s c := by
  obtain ⟨head, s0, h0, -, -, -, -, rs, s1, hr, hb, -⟩ := (C51_parse T s x s').mp h
  obtain ⟨l0, -, e0⟩ := division_line h0
  refine ⟨_, _, rs, l0, hb, ?_⟩
  rintro pre r post c rfl hc
  have := (line_succ e0).mp (recs_lines hr hc)
  rw [Nat.add_comm]; exact this

/-! ### all sections -/

/-- The HEAD record: ZA is C1, rounded, AWR is C2; MT is in columns 73-75 (if there is more than one section of the type). -/
theorem C62_head (T : SectionType) {s s' : St} {x : Sect T.Data} (h : T.defn.parse s = .ok (x, s')) :
    ∃ c, LineShows 0 s c ∧ x.ZA = toInt32 (Disco.round c.c1) ∧ x.AWR = c.c2 ∧
      ((Fmt.numbers T).2 = none → parseInt (cols 73 75 (lineAt 0 s.rest)) = some x.MT) ∧ (∀ mt, (Fmt.numbers T).2 = some mt → x.MT = mt) := by
  obtain ⟨head, s0, h0, -, h1, h2, h3, -⟩ := (C51_parse T s x s').mp h
  obtain ⟨l1, l2, -⟩ := division_line h0
  refine ⟨head.base, l1, h1, h2, fun hn => ?_, fun mt hm => ?_⟩
  · rw [show x.MT = head.tail.mt from by rw [show x.MT = x.mt from rfl, h3, Fmt.mt, hn]; rfl]
    exact l2.2.2
  · rw [show x.MT = x.mt from rfl, h3, Fmt.mt, hm]; rfl

/-- What was given to the constructors. -/
theorem C62_made_base {β : Type} {D : SecDef β} {mt za : Int} {awr : Dbl} {data : Except Err β} {x : Sect β} (h : D.build mt za awr data = .ok x) :
    x.ZA = za ∧ x.AWR = awr ∧ x.MT = D.fixedMT.getD mt ∧ data = .ok x.data := by
  obtain ⟨h1, h2, h3, h4, -⟩ := build_ok h
  exact ⟨h2, h3, h4, h1⟩

/-! ### files 3, 23 and 27 -/

theorem C62_made_mf3 {mt za : Int} {awr qm qi : Dbl} {lr : Int} {bounds ints : List Int} {energies xs : List Dbl} {x : Sect TAB1}
    (h : Make.mf3 mt za awr qm qi lr bounds ints energies xs = .ok x) (hl : IsInt32 lr) :
    x.ZA = za ∧ x.AWR = awr ∧ x.MT = mt ∧ Get.MF3.QM x = qm ∧ Get.MF3.QI x = qi ∧ Get.MF3.LR x = lr ∧ Get.MF3.NR x = bounds.length ∧
    Get.MF3.NP x = energies.length ∧ Get.MF3.NBT x = bounds ∧ Get.MF3.INT x = ints ∧ Get.MF3.energies x = energies ∧ Get.MF3.crossSections x = xs := by
  obtain ⟨h1, h2, h3, h4⟩ := C62_made_base h
  obtain ⟨e1, e2, e3, e4, t1, t2, t3, t4, t5, t6⟩ := table_says h4
  exact ⟨h1, h2, h3, e1, e2, by rw [Get.MF3.LR, e4]; exact toInt32_of hl, t1, t2, t3, t4, t5, t6⟩

/-- The TAB1 record of file 3 starts on the second line. -/
theorem C62_text_mf3 {s s' : St} {x : Sect TAB1} (h : (SectionType.mf3).defn.parse s = .ok (x, s')) :
    ∃ c, LineShows 1 s c ∧ Get.MF3.QM x = c.c1 ∧ Get.MF3.QI x = c.c2 ∧ Get.MF3.LR x = toInt32 c.l2 ∧ Get.MF3.NR x = c.n1 ∧ Get.MF3.NP x = c.n2 := by
  obtain ⟨head, s0, h0, -, -, -, -, rs, s1, hr, hb, -⟩ := (C51_parse .mf3 s x s').mp h
  obtain rfl : rs = [.tab1 x.data] := hb
  have := tab1_line (recs_singleton.mp hr)
  exact ⟨_, (line_succ (division_line h0).2.2).mp this, rfl, rfl, rfl, rfl, rfl⟩

theorem C62_made_mf23 {mt za : Int} {awr epe efl : Dbl} {bounds ints : List Int} {energies xs : List Dbl} {x : Sect TAB1}
    (h : Make.mf23 mt za awr epe efl bounds ints energies xs = .ok x) :
    x.ZA = za ∧ x.AWR = awr ∧ x.MT = mt ∧ Get.MF23.EPE x = epe ∧ Get.MF23.EFL x = efl ∧ Get.MF23.NR x = bounds.length ∧
    Get.MF23.NP x = energies.length ∧ Get.MF23.NBT x = bounds ∧ Get.MF23.INT x = ints ∧ Get.MF23.energies x = energies ∧ Get.MF23.crossSections x = xs := by
  obtain ⟨h1, h2, h3, h4⟩ := C62_made_base h
  obtain ⟨e1, e2, e3, e4, t1, t2, t3, t4, t5, t6⟩ := table_says h4
  exact ⟨h1, h2, h3, e1, e2, t1, t2, t3, t4, t5, t6⟩

theorem C62_text_mf23 {s s' : St} {x : Sect TAB1} (h : (SectionType.mf23).defn.parse s = .ok (x, s')) :
    ∃ c, LineShows 1 s c ∧ Get.MF23.EPE x = c.c1 ∧ Get.MF23.EFL x = c.c2 ∧ Get.MF23.NR x = c.n1 ∧ Get.MF23.NP x = c.n2 := by
  obtain ⟨head, s0, h0, -, -, -, -, rs, s1, hr, hb, -⟩ := (C51_parse .mf23 s x s').mp h
  obtain rfl : rs = [.tab1 x.data] := hb
  exact ⟨_, (line_succ (division_line h0).2.2).mp (tab1_line (recs_singleton.mp hr)), rfl, rfl, rfl, rfl⟩

/-- Z is the charge number of the ZA that was given. -/
theorem C62_made_mf27 {mt za : Int} {awr : Dbl} {bounds ints : List Int} {xs hs : List Dbl} {x : Sect TAB1}
    (h : Make.mf27 mt za awr bounds ints xs hs = .ok x) (hz : IsInt32 za) :
    x.ZA = za ∧ x.AWR = awr ∧ x.MT = mt ∧ Get.MF27.Z x = za / 1000 ∧ Get.MF27.NR x = bounds.length ∧
    Get.MF27.NP x = xs.length ∧ Get.MF27.NBT x = bounds ∧ Get.MF27.INT x = ints ∧ Get.MF27.X x = xs ∧ Get.MF27.H x = hs := by
  obtain ⟨-, -, -, -, hp, -⟩ := build_ok h
  obtain ⟨h1, h2, h3, h4⟩ := C62_made_base h
  obtain ⟨e1, e2, e3, e4, t1, t2, t3, t4, t5, t6⟩ := table_says h4
  refine ⟨h1, h2, h3, ?_, t1, t2, t3, t4, t5, t6⟩
  rw [Get.MF27.Z, e2, Int.tdiv_eq_ediv_of_nonneg (by omega)]
  exact Disco.trunc_ofInt _ (by omega) (by have := hz.2; omega)

theorem C62_text_mf27 {s s' : St} {x : Sect TAB1} (h : (SectionType.mf27).defn.parse s = .ok (x, s')) :
    ∃ c, LineShows 1 s c ∧ Get.MF27.Z x = Disco.trunc c.c2 ∧ Get.MF27.NR x = c.n1 ∧ Get.MF27.NP x = c.n2 := by
  obtain ⟨head, s0, h0, -, -, -, -, rs, s1, hr, hb, -⟩ := (C51_parse .mf27 s x s').mp h
  obtain rfl : rs = [.tab1 x.data] := hb
  exact ⟨_, (line_succ (division_line h0).2.2).mp (tab1_line (recs_singleton.mp hr)), rfl, rfl, rfl⟩

end ENDFtk.Props

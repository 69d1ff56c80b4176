import Verif.Record.IntgLemmas
import Verif.DiscoInstance
/-
  Properties C24 - C40: records.  Vocabulary: `Verif/Spec.lean` (lines, columns), `Lines` (Verif/Lines.lean), `ShowsLIST` etc.
-/
set_option linter.unusedVariables false
set_option linter.unusedSectionVars false
set_option linter.unusedSimpArgs false
namespace ENDFtk.Props
variable [Disco]

/-! ### C24: structure divisions are classified unambiguously -/

/-- A division is at most one of HEAD, SEND, FEND, MEND, TEND. -/
theorem C24_at_most_one (d : Division) :
    ([d.isHead, d.isSend, d.isFend, d.isMend, d.isTend].filter id).length ≤ 1 := by
  have hb : ∀ a b : Int, (a == b) = decide (a = b) := fun a b => rfl
  have key : ∀ (b z1 z2 z3 p q : Bool), (z3 = true → p = false) → (q = true → p = false) → (q = true → z3 = false) →
      ([!z1 && (!z2 && !z3), b && (z1 && (!z2 && p)), b && (z1 && (z2 && p)), b && (z1 && (z2 && z3)), b && (z1 && (z2 && q))].filter id).length ≤ 1 := by
    decide
  have := key d.baseIsZero (d.tail.mt == 0) (d.tail.mf == 0) (d.tail.mat == 0) (decide (d.tail.mat > 0)) (d.tail.mat == -1)
    (by simp; omega) (by simp; omega) (by simp; omega)
  simpa [Division.isHead, Division.isSend, Division.isFend, Division.isMend, Division.isTend, Division.isFendPermissive,
    Division.isSendPermissive, Bool.and_assoc, hb] using this

/-- All fields of the record are zero (doubles are compared with `==`). -/
def AllZero (c : Cont) : Prop := Disco.eqD Disco.zero c.c1 = true ∧ Disco.eqD Disco.zero c.c2 = true ∧ c.l1 = 0 ∧ c.l2 = 0 ∧ c.n1 = 0 ∧ c.n2 = 0

/-- What the five classes are. -/
theorem C24_classes (c : Cont) (mat mf mt : Int) :
    ((Division.mk c ⟨mat, mf, mt⟩).isHead = true ↔ mat ≠ 0 ∧ mf ≠ 0 ∧ mt ≠ 0) ∧
    ((Division.mk c ⟨mat, mf, mt⟩).isSend = true ↔ AllZero c ∧ 0 < mat ∧ mf ≠ 0 ∧ mt = 0) ∧
    ((Division.mk c ⟨mat, mf, mt⟩).isFend = true ↔ AllZero c ∧ 0 < mat ∧ mf = 0 ∧ mt = 0) ∧
    ((Division.mk c ⟨mat, mf, mt⟩).isMend = true ↔ AllZero c ∧ mat = 0 ∧ mf = 0 ∧ mt = 0) ∧
    ((Division.mk c ⟨mat, mf, mt⟩).isTend = true ↔ AllZero c ∧ mat = -1 ∧ mf = 0 ∧ mt = 0) := by
  have e : (Division.mk c ⟨mat, mf, mt⟩).baseIsZero = true ↔ AllZero c := by
    unfold Division.baseIsZero AllZero
    simp only [Bool.and_eq_true, beq_iff_eq, and_assoc]
  simp only [Division.isHead, Division.isSend, Division.isFend, Division.isMend, Division.isTend, Division.isFendPermissive, Division.isSendPermissive,
    Bool.and_eq_true, beq_iff_eq, decide_eq_true_eq, e]
  refine ⟨?_, ?_, ?_, ?_, ?_⟩ <;> constructor <;> (rintro ⟨h1, h2⟩ ; simp_all)

theorem fits_send {mat mf : Int} (h1 : fits 4 mat) (h2 : fits 2 mf) : (Nums.mk mat mf 0).Fit := ⟨h1, h2, fits_zero 2⟩

theorem baseIsZero_zero (t : Nums) : (Division.mk zeroCont t).baseIsZero = true := by
  simp [Division.baseIsZero, zeroCont, Disco.eqD_zero]

/-- SEND( MAT, MF ) for MAT >= 1 and MF >= 1 is a SEND record with those numbers and nothing else, and is read back as such. -/
theorem C24_send {mat mf : Int} (h1 : 1 ≤ mat) (h2 : 1 ≤ mf) (h3 : fits 4 mat) (h4 : fits 2 mf) :
    ∃ d, SEND mat mf = .ok d ∧ d.isSend = true ∧ d.tail = ⟨mat, mf, 0⟩ ∧
      ∀ s n, readDivision ⟨d.print ++ s, n⟩ = .ok (d, ⟨s, n + 1⟩) := by
  refine ⟨⟨zeroCont, ⟨mat, mf, 0⟩⟩, by rw [SEND, if_neg (by omega), if_neg (by omega)], ?_, rfl, ?_⟩
  · simp [Division.isSend, Division.isSendPermissive, baseIsZero_zero]; omega
  · intro s n
    exact readDivision_print (by simp [Division.isHead]) (fun _ => rfl) (fits_send h3 h4) (by simp; omega) (by simp; omega) (by simp) s n

/-- FEND( MAT ) for MAT >= 1. -/
theorem C24_fend {mat : Int} (h1 : 1 ≤ mat) (h3 : fits 4 mat) :
    ∃ d, FEND mat = .ok d ∧ d.isFend = true ∧ d.tail = ⟨mat, 0, 0⟩ ∧
      ∀ s n, readDivision ⟨d.print ++ s, n⟩ = .ok (d, ⟨s, n + 1⟩) := by
  refine ⟨⟨zeroCont, ⟨mat, 0, 0⟩⟩, by rw [FEND, if_neg (by omega)], ?_, rfl, ?_⟩
  · simp [Division.isFend, Division.isFendPermissive, Division.isSendPermissive, baseIsZero_zero]; omega
  · intro s n
    exact readDivision_print (by simp [Division.isHead]) (fun _ => rfl) ⟨h3, fits_zero 1, fits_zero 2⟩ (by simp; omega) (by simp) (by simp) s n

theorem fits_neg_one : fits 4 (-1) := by decide +kernel

/-- MEND() and TEND(). -/
theorem C24_mend_tend :
    (MEND.isMend = true ∧ MEND.tail = ⟨0, 0, 0⟩ ∧ ∀ s n, readDivision ⟨MEND.print ++ s, n⟩ = .ok (MEND, ⟨s, n + 1⟩)) ∧
    (TEND.isTend = true ∧ TEND.tail = ⟨-1, 0, 0⟩ ∧ ∀ s n, readDivision ⟨TEND.print ++ s, n⟩ = .ok (TEND, ⟨s, n + 1⟩)) := by
  refine ⟨⟨?_, rfl, ?_⟩, ?_, rfl, ?_⟩
  · simp [Division.isMend, Division.isFendPermissive, Division.isSendPermissive, MEND, baseIsZero_zero]
  · intro s n
    exact readDivision_print (by simp [MEND, Division.isHead]) (fun _ => rfl) ⟨fits_zero 3, fits_zero 1, fits_zero 2⟩ (by simp [MEND])
      (by simp [MEND]) (by simp [MEND]) s n
  · simp [Division.isTend, Division.isFendPermissive, Division.isSendPermissive, TEND, baseIsZero_zero]
  · intro s n
    exact readDivision_print (by simp [TEND, Division.isHead]) (fun _ => rfl) ⟨fits_neg_one, fits_zero 1, fits_zero 2⟩ (by simp [TEND])
      (by simp [TEND]) (by simp [TEND]) s n

/-- SEND and FEND refuse numbers below one. -/
theorem C24_refuse (mat mf : Int) :
    (mat < 1 ∨ mf < 1 → SEND mat mf = .error .exc) ∧ (mat < 1 → FEND mat = .error .exc) := by
  refine ⟨?_, ?_⟩
  · rintro (h | h)
    · rw [SEND, if_pos h]
    · rw [SEND]; split
      · rfl
      · rfl
  · intro h; rw [FEND, if_pos h]

/-- A HEAD record is read back with all its columns. -/
theorem C24_head {d : Division} (hd : d.isHead = true) (hb : d.base.Ok) (ht : d.tail.Fit) (h1 : -1 ≤ d.tail.mat) (h2 : 0 ≤ d.tail.mf)
    (h3 : 0 ≤ d.tail.mt) (s : Text) (n : Int) : readDivision ⟨d.print ++ s, n⟩ = .ok (d, ⟨s, n + 1⟩) :=
  readDivision_print (fun _ => hb) (fun h => by rw [hd] at h; cases h) ht h1 h2 h3 s n

/-! ### C25 -/

/-- From any text a division is read with valid numbers - those of the line - or a `std::exception` is thrown. -/
theorem C25_division_valid (s : St) :
    match readDivision s with
    | .ok (d, s') => -1 ≤ d.tail.mat ∧ 0 ≤ d.tail.mf ∧ 0 ≤ d.tail.mt ∧
        ∃ l, Lines [l] s.rest s'.rest ∧ HasTail d.tail l ∧ ShowsCont d.base l ∧ s'.line = s.line + 1
    | .error e => e.isStd = true := by
  have h := readDivision_reads s
  cases hr : readDivision s with
  | error e => rw [hr] at h; exact h
  | ok r =>
    obtain ⟨d, s'⟩ := r
    rw [hr] at h
    obtain ⟨ls, h1, h2, l, rfl, h3, h4, h5, h6, h7⟩ := h
    exact ⟨h5, h6, h7, l, h1, h4, h3, by simpa using h2⟩

/-! ### C26 - C30: round trips -/

theorem C26_cont_round_trip {c : Cont} {t : Nums} (hc : c.Ok) (ht : t.Fit) (s : Text) (n : Int) :
    readCont t ⟨printCont c t ++ s, n⟩ = .ok (c, ⟨s, n + 1⟩) := readCont_printCont hc ht s n

/-- TEXT records of 66 characters. -/
theorem C27_text_round_trip {x : Text} {t : Nums} (hx : x.length = 66) (hn : '\n' ∉ x) (ht : t.Fit) (s : Text) (n : Int) :
    readText t ⟨printText x t ++ s, n⟩ = .ok (x, ⟨s, n + 1⟩) := readText_printText hx hn ht s n

theorem C27_dir_round_trip {d : Dir} {t : Nums} (hd : d.Ok) (ht : t.Fit) (s : Text) (n : Int) :
    readDir t ⟨printDir d t ++ s, n⟩ = .ok (d, ⟨s, n + 1⟩) := readDir_printDir hd ht s n

/-- TPID records, printed with their own tape number. -/
theorem C27_tpid_round_trip {p : Tpid} (hx : p.text.length = 66) (hn : '\n' ∉ p.text) (ht : fits 4 p.ntape) (s : Text) (n : Int) :
    readTpid ⟨printTpid p ⟨p.ntape, 0, 0⟩ ++ s, n⟩ = .ok (p, ⟨s, n + 1⟩) := readTpid_printTpid hx hn ht s n

/-- The constructor pads or truncates the text to 66 columns: what is kept is the first 66 characters, what is added is blank. -/
theorem C27_tpid_66 (text : Text) (tape : Int) :
    (Tpid.make text tape).text.length = 66 ∧ (Tpid.make text tape).text = (text ++ blanks 66).take 66 ∧
    (Tpid.make text tape).ntape = tape := by
  have h1 : (Tpid.make text tape).text = (text ++ blanks 66).take 66 := by
    simp only [Tpid.make, executeOrder66]
    split
    · rename_i h
      rw [List.take_append_of_le_length (by omega)]
    · rename_i h
      rw [List.take_append, List.take_of_length_le (show text.length ≤ 66 by omega)]
      simp only [blanks, List.take_replicate]
      rw [Nat.min_eq_left (by omega)]
  refine ⟨?_, h1, rfl⟩
  rw [h1]; simp

theorem C28_list_round_trip {r : LIST} {t : Nums} (hr : r.Ok) (ht : t.Fit) (s : Text) (n : Int) :
    readLIST t ⟨r.print t ++ s, n⟩ = .ok (r, ⟨s, n + (r.nc : Int)⟩) := readLIST_print hr ht s n

theorem C29_tab1_round_trip {r : TAB1} {t : Nums} (hr : r.Ok) (ht : t.Fit) (s : Text) (n : Int) :
    readTAB1 t ⟨r.print t ++ s, n⟩ = .ok (r, ⟨s, n + (r.nc : Int)⟩) := readTAB1_print hr ht s n

theorem C29_tab2_round_trip {r : TAB2} {t : Nums} (hr : r.Ok) (ht : t.Fit) (s : Text) (n : Int) :
    readTAB2 t ⟨r.print t ++ s, n⟩ = .ok (r, ⟨s, n + (r.nc : Int)⟩) := readTAB2_print hr ht s n

/-- INTG records: the K values come back without their trailing zeros. -/
theorem C30_intg_round_trip {nd : Nat} {r : INTG} {t : Nums} (hr : r.Ok nd) (ht : t.Fit) (s : Text) (n : Int) :
    ∃ k, readINTG nd (intgN nd) t ⟨r.print nd (intgN nd) t ++ s, n⟩ = .ok (⟨r.i, r.j, k⟩, ⟨s, n + 1⟩) ∧
      (∃ m, r.k = k ++ List.replicate m 0) ∧ ∀ v, k.getLast? = some v → v ≠ 0 := by
  obtain ⟨m, h1, h2⟩ := stripZeros_spec r.k
  exact ⟨stripZeros r.k, readINTG_print hr ht s n, ⟨m, h1⟩, h2⟩

/-! ### C31 -/

/-- On a line of at least 66 columns INTG reads only that line, and throws or yields what the line shows.
    Missing for the full property (see the counterexamples below): lines that end before column 66, and non positive I, J. -/
theorem C31_intg_full_line_partial {nd : Nat} (hnd : 2 ≤ nd ∧ nd ≤ 6) (e : Nums) (l t : Text) (n : Int) (hl : '\n' ∉ l)
    (ht : t = [] ∨ ∃ r, t = '\n' :: r) (hw : 66 ≤ l.length) :
    match readINTG nd (intgN nd) e ⟨l ++ t, n⟩ with
    | .ok (r, s') => s' = ⟨t.tail, n + 1⟩ ∧ HasTail e l ∧
        ∃ i j k, parseInt (cols 1 5 l) = some i ∧ parseInt (cols 6 10 l) = some j ∧
          r = ⟨i % 4294967296, j % 4294967296, stripZeros k⟩ ∧
          fieldVals (fun s => parseInt (s.take (nd + 1))) (nd + 1) (intgN nd) (l.drop (10 + if nd ≠ 6 then 1 else 0)) = k.map some
    | .error er => er.isStd = true :=
  readINTG_full_line hnd e l t n hl ht hw


/-- The constructor from integers: more than N values are refused with a `std::exception`; otherwise the object has these values
    (I and J as `unsigned int`). -/
theorem C31_intg_make_partial (n : Nat) (i j : Int) (k : List Int) :
    (k.length ≤ n → INTG.make n i j k = .ok ⟨i % 4294967296, j % 4294967296, k⟩) ∧ (n < k.length → INTG.make n i j k = .error .exc) := by
  unfold INTG.make toUnsigned
  exact ⟨fun h => if_neg (by omega), fun h => if_pos h⟩

/-! ### C32: every printed line has 80 columns and NC counts the lines

  `CanonicalText t k s` : `s` is `k` lines of exactly 80 columns, with MAT, MF, MT in columns 67-75 and blanks in 76-80. -/

theorem C32_cont {c : Cont} {t : Nums} (hc : c.Fits) (ht : t.Fit) : CanonicalText t 1 (printCont c t) := hc.canonical ht
theorem C32_text {x : Text} {t : Nums} (hx : x.length = 66) (hn : '\n' ∉ x) (ht : t.Fit) : CanonicalText t 1 (printText x t) :=
  ⟨_, (printText_lines hx hn ht).1, rfl, by simpa using (printText_lines hx hn ht).2⟩
theorem C32_dir {d : Dir} {t : Nums} (hd : d.Ok) (ht : t.Fit) : CanonicalText t 1 (printDir d t) := by
  obtain ⟨l, h1, h2⟩ := printDir_lines hd ht
  exact ⟨[l], h1, rfl, by simpa using h2⟩
theorem C32_tpid {p : Tpid} {t : Nums} (hx : p.text.length = 66) (hn : '\n' ∉ p.text) (ht : t.Fit) : CanonicalText t 1 (printTpid p t) :=
  C32_text hx hn ht
theorem C32_list {r : LIST} {t : Nums} (hr : r.Fits) (ht : t.Fit) : CanonicalText t r.nc (r.print t) := LIST.print_canonical hr ht
theorem C32_tab1 {r : TAB1} {t : Nums} (hr : r.Fits) (ht : t.Fit) : CanonicalText t r.nc (r.print t) := TAB1.print_canonical hr ht
theorem C32_tab2 {r : TAB2} {t : Nums} (hr : r.Fits) (ht : t.Fit) : CanonicalText t r.nc (r.print t) := TAB2.print_canonical hr ht
theorem C32_intg {nd : Nat} {r : INTG} {t : Nums} (hnd : 2 ≤ nd ∧ nd ≤ 6) (hr : r.Ok nd) (ht : t.Fit) :
    CanonicalText t 1 (r.print nd (intgN nd) t) := INTG.print_canonical hnd hr ht
theorem C32_division {d : Division} (hb : d.isHead = true → d.base.Fits) (ht : d.tail.Fit) : CanonicalText d.tail 1 d.print := by
  by_cases hd : d.isHead = true
  · have := (hb hd).canonical ht
    rwa [printCont, ← show d.print = contText d.base ++ tailText d.tail by rw [Division.print, if_pos hd]] at this
  · simp only [Bool.not_eq_true] at hd
    rw [Division.print_end hd ht.1]
    exact ⟨[blanks 66 ++ tailCols d.tail], by simp [tailText_eq], rfl, by
      simpa using canonical_line ht (by simp) (nl_not_mem_blanks 66)⟩

/-! ### C33 / C37 / C38: reading from any text

  On any text a record either throws a `std::exception`, or what was consumed is exactly `NC` whole lines, each carrying the
  expected MAT, MF, MT, showing the data of the record, and the line counter advanced by `NC`. -/

/-- What a user may rely on when a record of `k` lines is read. -/
def GoodRead {α : Type} (e : Nums) (nc : α → Nat) (s : St) (x : Except Err (α × St)) : Prop :=
  match x with
  | .ok (r, s') => ∃ ls, Lines ls s.rest s'.rest ∧ ls.length = nc r ∧ (∀ l ∈ ls, HasTail e l) ∧ s'.line = s.line + nc r
  | .error er => er.isStd = true

theorem goodRead_of_reads {α : Type} {e : Nums} {nc : α → Nat} {p : Parser α} {Q : α → List Text → Prop} (h : Reads StdErr Q p)
    (hQ : ∀ a ls, Q a ls → ls.length = nc a ∧ AllTail e ls) (s : St) : GoodRead e nc s (p s) := by
  have := h s
  unfold GoodRead
  cases hp : p s with
  | error er => rw [hp] at this; exact this
  | ok r =>
    obtain ⟨a, s'⟩ := r
    rw [hp] at this
    obtain ⟨ls, h1, h2, h3⟩ := this
    obtain ⟨h4, h5⟩ := hQ a ls h3
    exact ⟨ls, h1, h4, h5, by rw [h2, h4]⟩

theorem C33_cont (e : Nums) (s : St) : GoodRead e (fun _ : Cont => 1) s (readCont e s) :=
  goodRead_of_reads (readCont_reads e) (by rintro a ls ⟨l, rfl, _, h⟩; exact ⟨rfl, by simpa [AllTail] using h⟩) s
theorem C33_text (e : Nums) (s : St) : GoodRead e (fun _ : Text => 1) s (readText e s) :=
  goodRead_of_reads (readText_reads e) (by rintro a ls ⟨l, rfl, _, h⟩; exact ⟨rfl, by simpa [AllTail] using h⟩) s
theorem C33_dir (e : Nums) (s : St) : GoodRead e (fun _ : Dir => 1) s (readDir e s) :=
  goodRead_of_reads (readDir_reads e) (by rintro a ls ⟨l, rfl, _, h⟩; exact ⟨rfl, by simpa [AllTail] using h⟩) s
theorem C33_list (e : Nums) (s : St) : GoodRead e LIST.nc s (readLIST e s) :=
  goodRead_of_reads (readLIST_reads e) (by rintro a ls ⟨h, ds, rfl, h1, h2, _⟩; exact ⟨h2, h1⟩) s
theorem C33_tab2 (e : Nums) (s : St) : GoodRead e TAB2.nc s (readTAB2 e s) :=
  goodRead_of_reads (readTAB2_reads e) (by rintro a ls ⟨⟨h, ds, rfl, h1, h2, _⟩, _⟩; exact ⟨h2, h1⟩) s
theorem C33_tab1 (e : Nums) (s : St) : GoodRead e TAB1.nc s (readTAB1 e s) :=
  goodRead_of_reads (readTAB1_reads e) (by rintro a ls ⟨⟨h, ds, rfl, h1, h2, _⟩, _⟩; exact ⟨h2, h1⟩) s

/-- INTG, on lines that reach column 66 (see C31 for shorter lines). -/
theorem C33_intg_partial {nd : Nat} (hnd : 2 ≤ nd ∧ nd ≤ 6) (e : Nums) (l t : Text) (n : Int) (hl : '\n' ∉ l)
    (ht : t = [] ∨ ∃ r, t = '\n' :: r) (hw : 66 ≤ l.length) :
    GoodRead e (fun _ : INTG => 1) ⟨l ++ t, n⟩ (readINTG nd (intgN nd) e ⟨l ++ t, n⟩) := by
  have h := readINTG_full_line hnd e l t n hl ht hw
  unfold GoodRead
  cases hp : readINTG nd (intgN nd) e ⟨l ++ t, n⟩ with
  | error er => rw [hp] at h; exact h
  | ok r =>
    obtain ⟨a, s'⟩ := r
    rw [hp] at h
    obtain ⟨h1, h2, _⟩ := h
    refine ⟨[l], ?_, rfl, by simpa using h2, by rw [h1]; rfl⟩
    rw [h1]
    rcases ht with rfl | ⟨r, rfl⟩
    · simpa using Lines.last hl (by rintro rfl; simp at hw)
    · simpa using Lines.one hl r

/-- The first line of the buffer. -/
def FirstLine (l : Text) (s : Text) : Prop := ∃ rest, Lines [l] s rest

theorem Lines.head {l : Text} {ms : List Text} {s r : Text} (h : Lines (l :: ms) s r) : FirstLine l s := by
  cases h with
  | cons hn hr => exact ⟨_, Lines.one hn _⟩
  | last hn hne => exact ⟨[], Lines.last hn hne⟩

theorem firstLine_unique {l l' : Text} {ms : List Text} {s r : Text} (h1 : FirstLine l s) (h2 : Lines (l' :: ms) s r) : l = l' := by
  obtain ⟨rest, h1⟩ := h1
  obtain ⟨rest', h2⟩ := Lines.head h2
  exact (List.cons.inj (h1.unique h2 rfl).1).1

/-- In particular: a LIST record one of whose lines carries other numbers is rejected.  `h :: ds` are the lines of the record
    as announced by NPL on its first line. -/
theorem C33_list_wrong_tail {e : Nums} {s : St} {h : Text} {ds : List Text} {rest : Text} {npl : Nat}
    (hl : Lines (h :: ds) s.rest rest) (hn : parseInt (cols 45 55 h) = some (npl : Int)) (hd : ds.length = (npl + 5) / 6)
    (hw : ∃ l ∈ h :: ds, ¬ HasTail e l) : ∃ er, readLIST e s = .error er ∧ er.isStd = true := by
  cases hp : readLIST e s with
  | error er => exact ⟨er, rfl, (readLIST_reads e).err hp⟩
  | ok r =>
    obtain ⟨a, s'⟩ := r
    obtain ⟨ls, h1, _, h', ds', rfl, h3, h4, h5, _⟩ := (readLIST_reads e).ok hp
    exfalso
    have e1 : h = h' := firstLine_unique (Lines.head hl) h1
    subst e1
    have e2 : (a.data.length : Int) = npl := by
      have := h5.2.2.2.2.1
      rw [hn] at this
      exact (Option.some.inj this).symm
    have e3 : (h :: ds).length = (h :: ds').length := by
      rw [h4]; simp [hd, LIST.nc]; omega
    obtain ⟨e4, _⟩ := hl.unique h1 e3
    obtain ⟨l, hl1, hl2⟩ := hw
    exact hl2 (h3 l (e4 ▸ hl1))

/-! ### C34: unused columns must be empty -/

/-- If the fields of the announced data lines of a LIST contain, beyond the announced number of entries, one that is not empty
    (zero or blank), reading throws. -/
theorem C34_list_padding {e : Nums} {s : St} {h : Text} {ds : List Text} {rest : Text} {npl : Nat} {j : Nat} {o : Option Dbl}
    (hl : Lines (h :: ds) s.rest rest) (hn : parseInt (cols 45 55 h) = some (npl : Int)) (hd : ds.length = (npl + 5) / 6)
    (hj : npl ≤ j) (ho : (ds.flatMap (fieldVals realField 11 6))[j]? = some o)
    (hne : ∀ d, o = some d → Disco.eqD d Disco.zero = false) : ∃ er, readLIST e s = .error er ∧ er.isStd = true := by
  cases hp : readLIST e s with
  | error er => exact ⟨er, rfl, (readLIST_reads e).err hp⟩
  | ok r =>
    obtain ⟨a, s'⟩ := r
    obtain ⟨ls, h1, _, h', ds', rfl, h3, h4, h5, pad, h6, h7, h8⟩ := (readLIST_reads e).ok hp
    exfalso
    have e1 : h = h' := firstLine_unique (Lines.head hl) h1
    subst e1
    have e2 : (a.data.length : Int) = npl := by
      have := h5.2.2.2.2.1
      rw [hn] at this
      exact (Option.some.inj this).symm
    have e3 : (h :: ds).length = (h :: ds').length := by
      rw [h4]; simp [hd, LIST.nc]; omega
    obtain ⟨e4, _⟩ := hl.unique h1 e3
    obtain ⟨_, rfl⟩ := List.cons.inj e4
    rw [h6, List.getElem?_append_right (by simp; omega)] at ho
    obtain ⟨d, rfl, hd'⟩ := h8 o (List.mem_of_getElem? ho)
    have hd' : Disco.eqD d Disco.zero = true := hd'
    rw [hne d rfl] at hd'
    cases hd'

/-- For every record type with data lines: whenever reading succeeds, the fields of the data lines are exactly the entries
    followed by fewer than a line of empty fields. -/
theorem C34_list_fields {e : Nums} {s s' : St} {r : LIST} (h : readLIST e s = .ok (r, s')) :
    ∃ hd ds, Lines (hd :: ds) s.rest s'.rest ∧ ShowsCont ⟨r.c1, r.c2, r.l1, r.l2, r.data.length, r.n2⟩ hd ∧
      BlockSpec realField 11 6 (fun x => Disco.eqD x Disco.zero) ds r.data := by
  obtain ⟨ls, h1, _, hd, ds, rfl, _, _, h5, h6⟩ := (readLIST_reads e).ok h
  exact ⟨hd, ds, h1, h5, h6⟩

theorem C34_tab2_fields {e : Nums} {s s' : St} {r : TAB2} (h : readTAB2 e s = .ok (r, s')) :
    ∃ hd ds, Lines (hd :: ds) s.rest s'.rest ∧ ShowsCont ⟨r.c1, r.c2, r.l1, r.l2, r.bounds.length, r.bounds.getLastD 0⟩ hd ∧
      BlockSpec intPairField 22 3 (fun p => p.1 == 0 && p.2 == 0) ds (r.bounds.zip r.ints) := by
  obtain ⟨ls, h1, _, ⟨hd, ds, rfl, _, _, h5, h6⟩, _⟩ := (readTAB2_reads e).ok h
  exact ⟨hd, ds, h1, h5, h6⟩

theorem C34_tab1_fields {e : Nums} {s s' : St} {r : TAB1} (h : readTAB1 e s = .ok (r, s')) :
    ∃ hd ds ps, Lines (hd :: ds ++ ps) s.rest s'.rest ∧
      ShowsCont ⟨r.base.c1, r.base.c2, r.base.l1, r.base.l2, r.base.bounds.length, r.x.length⟩ hd ∧
      BlockSpec intPairField 22 3 (fun p => p.1 == 0 && p.2 == 0) ds (r.base.bounds.zip r.base.ints) ∧
      BlockSpec realPairField 22 3 (fun p => Disco.eqD p.1 Disco.zero && Disco.eqD p.2 Disco.zero) ps (r.x.zip r.y) := by
  obtain ⟨ls, h1, _, ⟨hs, ps, rfl, _, _, ⟨hd, ds, rfl, _, _, h5, h6⟩, h7⟩, hv⟩ := (readTAB1_reads e).ok h
  refine ⟨hd, ds, ps, h1, ?_, h6, h7⟩
  have := hv.2.2.2
  rw [TAB2.meta', this] at h5
  exact h5

/-! ### C35: invariants of TAB1 and TAB2 -/

/-- Every TAB1 read from text satisfies the invariants. -/
theorem C35_tab1_read {e : Nums} {s s' : St} {r : TAB1} (h : readTAB1 e s = .ok (r, s')) :
    (∀ i (hi : i + 1 < r.x.length), Disco.ltD (r.x[i + 1]'hi) (r.x[i]'(by omega)) = false) ∧
    r.x.length = r.y.length ∧ r.base.bounds.length = r.base.ints.length ∧ r.base.bounds ≠ [] ∧
    r.base.bounds.Pairwise (· ≤ ·) ∧ r.base.bounds.getLast? = some (r.x.length : Int) := by
  obtain ⟨ls, _, _, _, hv⟩ := (readTAB1_reads e).ok h
  obtain ⟨⟨v1, v2, v3⟩, h2, h3, h4⟩ := hv
  refine ⟨(isSorted_iff_chain _ _).mp h3, h2, v2, v1, v3, ?_⟩
  rw [← h4, TAB2.n2]
  cases hb : r.base.bounds with
  | nil => exact absurd hb v1
  | cons b bs => rw [List.getLastD_eq_getLast?]; simp [List.getLast?_cons]

theorem C35_tab2_read {e : Nums} {s s' : St} {r : TAB2} (h : readTAB2 e s = .ok (r, s')) :
    r.bounds.length = r.ints.length ∧ r.bounds ≠ [] ∧ r.bounds.Pairwise (· ≤ ·) ∧ 0 ≤ r.bounds.getLastD 0 := by
  obtain ⟨ls, _, _, _, ⟨v1, v2, v3⟩, h0⟩ := (readTAB2_reads e).ok h
  exact ⟨v2, v1, v3, h0⟩

/-- The TAB1 constructor from vectors: for non empty boundaries and a last boundary in the range of `unsigned int`, it succeeds exactly on
    vectors that satisfy the invariants (and throws a `std::exception` otherwise).
    Missing for the full property (see the counterexamples): empty boundaries, boundaries of 2^32 and more. -/
theorem C35_tab1_make_partial (c1 c2 : Dbl) (l1 l2 : Int) (b i : List Int) (x y : List Dbl) (hb : b ≠ [])
    (h0 : 0 ≤ b.getLastD 0) (h1 : b.getLastD 0 < 4294967296) (h2 : x.length < 4294967296) :
    ((b.length = i.length ∧ b.Pairwise (· ≤ ·) ∧ isSorted Disco.ltD x = true ∧ x.length = y.length ∧ b.getLastD 0 = x.length) ∧
      TAB1.make c1 c2 l1 l2 b i x y = .ok ⟨⟨c1, c2, l1, l2, b, i⟩, x, y⟩) ∨
    (¬ (b.length = i.length ∧ b.Pairwise (· ≤ ·) ∧ isSorted Disco.ltD x = true ∧ x.length = y.length ∧ b.getLastD 0 = x.length) ∧
      TAB1.make c1 c2 l1 l2 b i x y = .error .exc) := by
  have hnp : TAB1.npDiffer (b.getLastD 0) x.length = false ↔ b.getLastD 0 = x.length := by
    simp only [TAB1.npDiffer, bne_eq_false_iff_eq]
    omega
  by_cases hv : b.length = i.length ∧ b.Pairwise (· ≤ ·)
  · have hm : TAB2.make c1 c2 l1 l2 b i = .ok ⟨c1, c2, l1, l2, b, i⟩ := TAB2.make_ok.mpr ⟨rfl, hb, hv.1, hv.2⟩
    have e2 : (TAB2.mk c1 c2 l1 l2 b i).n2 = b.getLastD 0 := rfl
    simp only [TAB1.make, hm]
    rw [e2]
    by_cases hs : isSorted Disco.ltD x = true
    · by_cases hxy : x.length = y.length
      · by_cases hn : b.getLastD 0 = x.length
        · left
          refine ⟨⟨hv.1, hv.2, hs, hxy, hn⟩, ?_⟩
          rw [if_neg (by simp [hs]), if_neg (by simpa using hxy), if_neg (by rw [hnp.mpr hn]; simp)]
        · right
          refine ⟨fun h => hn h.2.2.2.2, ?_⟩
          have : TAB1.npDiffer (b.getLastD 0) x.length = true := by
            cases hd : TAB1.npDiffer (b.getLastD 0) x.length with
            | true => rfl
            | false => exact absurd (hnp.mp hd) hn
          rw [if_neg (by simp [hs]), if_neg (by simpa using hxy)]
          simp only [this, if_true]
      · right
        refine ⟨fun h => hxy h.2.2.2.1, ?_⟩
        rw [if_neg (by simp [hs]), if_pos (by simpa using hxy)]
    · right
      refine ⟨fun h => hs h.2.2.1, ?_⟩
      rw [if_pos (by simpa using hs)]
  · right
    refine ⟨fun h => hv ⟨h.1, h.2.1⟩, ?_⟩
    have hm : TAB2.make c1 c2 l1 l2 b i = .error .exc := by
      unfold TAB2.make
      rw [if_neg hb]
      by_cases hl : b.length = i.length
      · rw [if_neg (by simpa using hl), if_pos]
        have : ¬ b.Pairwise (· ≤ ·) := fun h => hv ⟨hl, h⟩
        rw [← isSorted_int] at this
        simpa using this
      · rw [if_pos (by simpa using hl)]
    simp only [TAB1.make, hm]


/-! ### C36: negative counts -/

theorem C36_list {e : Nums} {s : St} {l : Text} {npl : Int} (hl : FirstLine l s.rest) (hn : parseInt (cols 45 55 l) = some (npl : Int))
    (h : npl < 0) : ∃ er, readLIST e s = .error er ∧ er.isStd = true := by
  cases hp : readLIST e s with
  | error er => exact ⟨er, rfl, (readLIST_reads e).err hp⟩
  | ok r =>
    obtain ⟨a, s'⟩ := r
    obtain ⟨ls, h1, _, h', ds, rfl, _, _, h5, _⟩ := (readLIST_reads e).ok hp
    have := firstLine_unique hl h1
    subst this
    have := h5.2.2.2.2.1
    rw [hn] at this
    have := Option.some.inj this
    simp [LIST.meta', LIST.npl] at this
    omega

theorem C36_tab2 {e : Nums} {s : St} {l : Text} {nr n2 : Int} (hl : FirstLine l s.rest) (hr : parseInt (cols 45 55 l) = some nr)
    (hn : parseInt (cols 56 66 l) = some n2) (h : nr < 1 ∨ n2 < 0) : ∃ er, readTAB2 e s = .error er ∧ er.isStd = true := by
  cases hp : readTAB2 e s with
  | error er => exact ⟨er, rfl, (readTAB2_reads e).err hp⟩
  | ok r =>
    obtain ⟨a, s'⟩ := r
    obtain ⟨ls, h1, _, ⟨h', ds, rfl, _, _, h5, _⟩, hv, h0⟩ := (readTAB2_reads e).ok hp
    have := firstLine_unique hl h1
    subst this
    have e1 := h5.2.2.2.2.1
    have e2 := h5.2.2.2.2.2
    rw [hr] at e1
    rw [hn] at e2
    have e1 := Option.some.inj e1
    have e2 := Option.some.inj e2
    have := List.length_pos_iff.mpr hv.1
    simp [TAB2.meta', TAB2.nr] at e1 e2
    omega

theorem C36_tab1 {e : Nums} {s : St} {l : Text} {nr n2 : Int} (hl : FirstLine l s.rest) (hr : parseInt (cols 45 55 l) = some nr)
    (hn : parseInt (cols 56 66 l) = some n2) (h : nr < 1 ∨ n2 < 0) : ∃ er, readTAB1 e s = .error er ∧ er.isStd = true := by
  cases hp : readTAB1 e s with
  | error er => exact ⟨er, rfl, (readTAB1_reads e).err hp⟩
  | ok r =>
    obtain ⟨a, s'⟩ := r
    obtain ⟨ls, h1, _, ⟨hs, ps, rfl, _, _, ⟨h', ds, rfl, _, _, h5, _⟩, _⟩, hv⟩ := (readTAB1_reads e).ok hp
    have := firstLine_unique hl h1
    subst this
    have e1 := h5.2.2.2.2.1
    have e2 := h5.2.2.2.2.2
    rw [hr] at e1
    rw [hn] at e2
    have e1 := Option.some.inj e1
    have e2 := Option.some.inj e2
    have := List.length_pos_iff.mpr hv.1.1
    have := hv.2.2.2
    simp [TAB2.meta', TAB2.nr] at e1 e2
    omega

/-! ### C37: only std::exception escapes -/

theorem C37_std_only (e : Nums) (s : St) (er : Err) :
    (readCont e s = .error er → er.isStd = true) ∧ (readDivision s = .error er → er.isStd = true) ∧
    (readText e s = .error er → er.isStd = true) ∧ (readDir e s = .error er → er.isStd = true) ∧
    (readTpid s = .error er → er.isStd = true) ∧ (readLIST e s = .error er → er.isStd = true) ∧
    (readTAB1 e s = .error er → er.isStd = true) ∧ (readTAB2 e s = .error er → er.isStd = true) :=
  ⟨(readCont_reads e).err, readDivision_reads.err, (readText_reads e).err, (readDir_reads e).err, readTpid_reads.err,
    (readLIST_reads e).err, (readTAB1_reads e).err, (readTAB2_reads e).err⟩

/-! ### C38: the line counter counts lines -/

/-- The counter advanced by the number of lines consumed (whole lines). -/
def CountsLines {α : Type} (p : Parser α) : Prop :=
  ∀ s a s', p s = .ok (a, s') → ∃ ls, Lines ls s.rest s'.rest ∧ s'.line = s.line + ls.length

theorem countsLines_of_reads {α : Type} {E : Err → Prop} {Q : α → List Text → Prop} {p : Parser α} (h : Reads E Q p) : CountsLines p := by
  intro s a s' hp
  obtain ⟨ls, h1, h2, _⟩ := h.ok hp
  exact ⟨ls, h1, h2⟩

theorem C38_records (e : Nums) :
    CountsLines (readCont e) ∧ CountsLines readDivision ∧ CountsLines (readText e) ∧ CountsLines (readDir e) ∧ CountsLines readTpid ∧
    CountsLines (readLIST e) ∧ CountsLines (readTAB1 e) ∧ CountsLines (readTAB2 e) ∧ CountsLines skip :=
  ⟨countsLines_of_reads (readCont_reads e), countsLines_of_reads readDivision_reads, countsLines_of_reads (readText_reads e),
    countsLines_of_reads (readDir_reads e), countsLines_of_reads readTpid_reads, countsLines_of_reads (readLIST_reads e),
    countsLines_of_reads (readTAB1_reads e), countsLines_of_reads (readTAB2_reads e), countsLines_of_reads skip_reads⟩

/-! ### C39: regions cover the table -/

theorem take_drop_append {α : Type} (v : List α) {a b : Nat} (h1 : 1 ≤ a) (hab : a ≤ b) :
    v.take a ++ ((v.take b).drop (a - 1)).drop 1 = v.take b := by
  rw [List.drop_drop, show a - 1 + 1 = a by omega]
  have : (v.take b).take a = v.take a := by rw [List.take_take, Nat.min_eq_left hab]
  rw [← this, List.take_append_drop]

/-- For a table with positive boundaries every region is defined (no iterator leaves the vectors); x and y pieces correspond; each region
    starts at the point where the previous one ended; and the first region followed by the other regions without their
    first points is the whole table. -/
theorem C39_regions (r : TAB1) (hv : r.Valid) (hpos : ∀ b ∈ r.base.bounds, 0 < b) :
    ∃ ps : List (List Dbl × List Dbl), r.regions = ps.map Except.ok ∧ ps.length = r.base.bounds.length ∧
      (∀ p ∈ ps, p.1 ≠ [] ∧ p.1.length = p.2.length) ∧
      (∀ i p q, ps[i]? = some p → ps[i + 1]? = some q → p.1.getLast? = q.1.head? ∧ p.2.getLast? = q.2.head?) ∧
      ((ps.head?.map Prod.fst).getD [] ++ (ps.drop 1).flatMap (fun p => p.1.drop 1) = r.x) ∧
      ((ps.head?.map Prod.snd).getD [] ++ (ps.drop 1).flatMap (fun p => p.2.drop 1) = r.y) := by
  obtain ⟨⟨v1, v2, v3⟩, hxy, hs, hn⟩ := hv
  -- bounds as natural numbers
  let bs := r.base.bounds.map Int.toNat
  have hbs : ∀ i, i < r.base.bounds.length → r.base.bounds.getD i 0 = ((bs.getD i 0 : Nat) : Int) ∧ 1 ≤ bs.getD i 0 := by
    intro i hi
    have hmem : r.base.bounds[i] ∈ r.base.bounds := List.getElem_mem _
    have := hpos _ hmem
    have e1 : r.base.bounds.getD i 0 = r.base.bounds[i] := by simp [List.getD, hi]
    have e2 : bs.getD i 0 = r.base.bounds[i].toNat := by simp [List.getD, bs, hi]
    rw [e1, e2]; omega
  have hmono : ∀ i j, i ≤ j → j < r.base.bounds.length → bs.getD i 0 ≤ bs.getD j 0 := by
    intro i j hij hj
    rcases Nat.eq_or_lt_of_le hij with rfl | hlt
    · exact Nat.le_refl _
    have := List.pairwise_iff_getElem.mp v3 i j (by omega) hj hlt
    have e1 : bs.getD i 0 = r.base.bounds[i].toNat := by simp [List.getD, bs, show i < r.base.bounds.length by omega]
    have e2 : bs.getD j 0 = r.base.bounds[j].toNat := by simp [List.getD, bs, hj]
    rw [e1, e2]; omega
  have hlenpos : 0 < r.base.bounds.length := List.length_pos_iff.mpr v1
  have hlast : bs.getD (r.base.bounds.length - 1) 0 = r.x.length := by
    have h1 := (hbs (r.base.bounds.length - 1) (by omega)).1
    have e1 : r.base.bounds.getD (r.base.bounds.length - 1) 0 = r.base.n2 := by
      rw [TAB2.n2, List.getLastD_eq_getLast?, List.getLast?_eq_getElem?, List.getD]
    rw [e1, hn] at h1
    omega
  have hle : ∀ i, i < r.base.bounds.length → bs.getD i 0 ≤ r.x.length := by
    intro i hi
    rw [← hlast]; exact hmono i _ (by omega) (by omega)
  let left : Nat → Nat := fun i => if i = 0 then 0 else bs.getD (i - 1) 0 - 1
  let piece : Nat → List Dbl × List Dbl := fun i => ((r.x.take (bs.getD i 0)).drop (left i), (r.y.take (bs.getD i 0)).drop (left i))
  have hleft : ∀ i, i < r.base.bounds.length → left i < bs.getD i 0 := by
    intro i hi
    show (if i = 0 then 0 else bs.getD (i - 1) 0 - 1) < bs.getD i 0
    have h1 := (hbs i hi).2
    split
    · omega
    · have h2 := (hbs (i - 1) (by omega)).2
      have := hmono (i - 1) i (by omega) hi
      omega
  have hregion : ∀ i, i < r.base.bounds.length → r.region i = .ok (piece i) := by
    intro i hi
    have e1 : (if i = 0 then 0 else r.base.bounds.getD (i - 1) 0 - 1 : Int) = ((left i : Nat) : Int) := by
      show _ = ((if i = 0 then 0 else bs.getD (i - 1) 0 - 1 : Nat) : Int)
      split
      · rfl
      · obtain ⟨h2, h3⟩ := hbs (i - 1) (by omega)
        rw [h2]; omega
    have h3 := hleft i hi
    have h4 := hle i hi
    simp only [TAB1.region, e1, (hbs i hi).1]
    rw [TAB1.subrange, if_pos ⟨by omega, by omega, by omega⟩, TAB1.subrange, if_pos ⟨by omega, by omega, by omega⟩]
    simp [piece]
  have hfirst : ∀ (v : List Dbl), v.length = r.x.length → ∀ k, k < r.base.bounds.length →
      v.take (bs.getD 0 0) ++ ((List.range k).map (fun i => ((v.take (bs.getD (i + 1) 0)).drop (left (i + 1))).drop 1)).flatten =
        v.take (bs.getD k 0) := by
    intro v hvl k hk
    induction k with
    | zero => simp
    | succ k ih =>
      rw [List.range_succ, List.map_append, List.flatten_append, ← List.append_assoc, ih (by omega)]
      simp only [List.map_cons, List.map_nil, List.flatten_cons, List.flatten_nil, List.append_nil]
      have : left (k + 1) = bs.getD k 0 - 1 := by show (if k + 1 = 0 then 0 else bs.getD (k + 1 - 1) 0 - 1) = _; simp
      rw [this]
      exact take_drop_append v (hbs k (by omega)).2 (hmono k (k + 1) (by omega) hk)
  refine ⟨(List.range r.base.bounds.length).map piece, ?_, by simp, ?_, ?_, ?_, ?_⟩
  · rw [TAB1.regions, List.map_map]
    apply List.map_congr_left
    intro i hi
    exact hregion i (by simpa using hi)
  · intro p hp
    simp only [List.mem_map, List.mem_range] at hp
    obtain ⟨i, hi, rfl⟩ := hp
    have h3 := hleft i hi
    have h4 := hle i hi
    refine ⟨?_, by simp [piece, hxy]⟩
    rw [← List.length_pos_iff]
    simp only [piece, List.length_drop, List.length_take]; omega
  · intro i p q hp hq
    have hi : i + 1 < r.base.bounds.length := by
      have := List.getElem?_eq_some_iff.mp hq
      obtain ⟨h, _⟩ := this
      simpa using h
    simp [show i < r.base.bounds.length by omega] at hp
    simp [hi] at hq
    subst hp hq
    have hl1 := hleft i (by omega)
    have hl2 := hleft (i + 1) hi
    have hle1 := hle i (by omega)
    have hle2 := hle (i + 1) hi
    have hm := hmono i (i + 1) (by omega) hi
    have hb := (hbs i (by omega)).2
    have hlf : left (i + 1) = bs.getD i 0 - 1 := by show (if i + 1 = 0 then 0 else bs.getD (i + 1 - 1) 0 - 1) = _; simp
    have gen : ∀ v : List Dbl, v.length = r.x.length →
        ((v.take (bs.getD i 0)).drop (left i)).getLast? = ((v.take (bs.getD (i + 1) 0)).drop (left (i + 1))).head? := by
      intro v hvl
      rw [List.getLast?_eq_getElem?, List.head?_eq_getElem?, List.getElem?_drop, List.getElem?_drop, hlf]
      rw [List.getElem?_take_of_lt (by simp only [List.length_drop, List.length_take]; omega), List.getElem?_take_of_lt (by omega)]
      congr 1
      simp only [List.length_drop, List.length_take]; omega
    exact ⟨gen r.x rfl, gen r.y hxy.symm⟩
  · have := hfirst r.x rfl (r.base.bounds.length - 1) (by omega)
    rw [hlast, List.take_length] at this
    obtain ⟨m, hm⟩ := Nat.exists_eq_succ_of_ne_zero (show r.base.bounds.length ≠ 0 by omega)
    rw [hm, List.range_succ_eq_map]
    rw [hm] at this
    simp only [List.map_cons, List.head?_cons, Option.map_some, Option.getD_some, List.drop_succ_cons, List.drop_zero, List.map_map]
    rw [List.flatMap_def, List.map_map]
    have e0 : piece 0 = (r.x.take (bs.getD 0 0), r.y.take (bs.getD 0 0)) := rfl
    rw [e0]
    exact this
  · have := hfirst r.y hxy.symm (r.base.bounds.length - 1) (by omega)
    rw [hlast, hxy, List.take_length] at this
    obtain ⟨m, hm⟩ := Nat.exists_eq_succ_of_ne_zero (show r.base.bounds.length ≠ 0 by omega)
    rw [hm, List.range_succ_eq_map]
    rw [hm] at this
    simp only [List.map_cons, List.head?_cons, Option.map_some, Option.getD_some, List.drop_succ_cons, List.drop_zero, List.map_map]
    rw [List.flatMap_def, List.map_map]
    have e0 : piece 0 = (r.x.take (bs.getD 0 0), r.y.take (bs.getD 0 0)) := rfl
    rw [e0]
    exact this

/-! ### C40: interpolation sequences -/

/-- From text: at least one record, and as many as the last boundary if that is below 2^31.
    Missing for the full property (see the counterexample): larger boundaries, which are narrowed to 32 bits. -/
theorem C40_read_partial {α : Type} {Q : α → List Text → Prop} {p : Nums → Parser α} {e : Nums} (hp : Reads StdErr Q (p e))
    {s s' : St} {r : ISeq α} (h : readISeq p e s = .ok (r, s')) :
    r.seq ≠ [] ∧ (r.tab2.bounds.getLastD 0 < 2147483648 → r.seq.length < 2147483648 → r.tab2.bounds.getLastD 0 = r.seq.length) := by
  refine ⟨?_, ?_⟩
  · obtain ⟨ls, _, _, hv, _⟩ := (readISeq_reads e hp).ok h
    exact hv.1
  · intro h1 h2
    rw [readISeq] at h
    obtain ⟨tab2, s1, h3, h4⟩ := Parser.bind_eq_ok.mp h
    obtain ⟨seq, s2, h5, h6⟩ := Parser.bind_eq_ok.mp h4
    obtain ⟨_, _, _, _, _, h0⟩ := (readTAB2_reads e).ok h3
    have hr : r = ⟨tab2, seq⟩ := by
      unfold liftE ISeq.make at h6
      split at h6
      · rename_i h7
        split at h7
        · cases h7
        split at h7
        · cases h7
        cases h7
        cases h6
        rfl
      · cases h6
    subst hr
    obtain ⟨_, _, _, h7, _⟩ := (readSequence_reads (E := StdErr) rfl hp _).ok h5
    simp only [TAB2.n2] at h7 h0
    simp only at h1
    rw [toInt32_id (by omega) h1] at h7
    exact h7.symm

/-- Constructor from a table and records: a sequence without records or with another number of records than the last boundary is rejected
    (numbers below 2^32). -/
theorem C40_make_partial {α : Type} (tab2 : TAB2) (seq : List α) (h0 : 0 ≤ tab2.n2) (h1 : tab2.n2 < 4294967296) (h2 : seq.length < 4294967296) :
    ((seq ≠ [] ∧ tab2.n2 = seq.length) ∧ ISeq.make tab2 seq = .ok ⟨tab2, seq⟩) ∨
    (¬ (seq ≠ [] ∧ tab2.n2 = seq.length) ∧ ISeq.make tab2 seq = .error .exc) := by
  unfold ISeq.make TAB1.npDiffer
  by_cases hs : seq = []
  · right; simp [hs]
  · have : 0 < seq.length := List.length_pos_iff.mpr hs
    rw [if_neg (by omega)]
    by_cases hn : tab2.n2 = seq.length
    · left
      exact ⟨⟨hs, hn⟩, by rw [if_neg (by rw [hn]; simp)]⟩
    · right
      refine ⟨fun h => hn h.2, ?_⟩
      rw [if_pos]
      simp only [bne_iff_ne, ne_eq]; omega

/-- Printing and reading back, for any component that is itself read back. -/
theorem C40_round_trip {α : Type} {p : Nums → Parser α} {pr : α → Nums → Text} {nc : α → Nat} {r : ISeq α} {t : Nums}
    (hr : r.tab2.Ok) (hne : r.seq ≠ []) (hn : r.tab2.bounds.getLastD 0 = r.seq.length) (hlt : r.seq.length < 2147483648) (ht : t.Fit)
    (h : ∀ x ∈ r.seq, ∀ s n, p t ⟨pr x t ++ s, n⟩ = .ok (x, ⟨s, n + (nc x : Int)⟩)) (s : Text) (n : Int) :
    readISeq p t ⟨r.print pr t ++ s, n⟩ = .ok (r, ⟨s, n + (r.nc nc : Int)⟩) := readISeq_print hr hne hn hlt ht h s n

/-- With any numbers: the numbers are converted to a type of 32 bits before they are compared, and the number of records must not become zero. -/
theorem C40_make_exact {α : Type} (tab2 : TAB2) (seq : List α) :
    ISeq.make tab2 seq =
      if (seq.length : Int) % 2 ^ 32 ≠ 0 ∧ tab2.n2 % 2 ^ 32 = (seq.length : Int) % 2 ^ 32 then .ok ⟨tab2, seq⟩ else .error .exc := by
  unfold ISeq.make TAB1.npDiffer
  rw [show (2 : Int) ^ 32 = 4294967296 from rfl]
  by_cases h0 : (seq.length : Int) % 4294967296 = 0
  · rw [if_pos h0, if_neg (fun h => h.1 h0)]
  · rw [if_neg h0]
    by_cases h1 : tab2.n2 % 4294967296 = (seq.length : Int) % 4294967296
    · rw [if_neg (by simp only [bne_iff_ne, ne_eq]; omega), if_pos ⟨h0, h1⟩]
    · rw [if_pos (by simp only [bne_iff_ne, ne_eq]; omega), if_neg (fun h => h1 h.2)]

end ENDFtk.Props

import Verif.Tree.IndexLemmas
/-
  Printed end records, `content()`, `clean()`, `NC()` of the tree.
-/
set_option linter.unusedVariables false
set_option linter.unusedSectionVars false
set_option linter.unusedSimpArgs false
namespace ENDFtk
variable [Disco]

/-! ### specification: the lines ENDFtk writes itself -/

/-- MAT, MF and MT right justified in 4, 2 and 3 columns, 5 blanks. -/
def numCols (t : Nums) : Text := NumText 4 t.mat ++ NumText 2 t.mf ++ NumText 3 t.mt ++ blanks 5

/-- An end record: 66 blanks and the numbers. -/
def endRecord (t : Nums) : Text := blanks 66 ++ numCols t

/-- The line with the first 66 columns kept (blanks added on the right if it is shorter), the numbers and no sequence number. -/
def cleanLine (t : Nums) (l : Text) : Text := l.take 66 ++ blanks (66 - (l.take 66).length) ++ numCols t

theorem tailCols_eq {t : Nums} (h : t.Fit) : tailCols t = numCols t := by
  simp only [tailCols, numCols, NumText, Disco.writeInt_fits _ _ h.1, Disco.writeInt_fits _ _ h.2.1, Disco.writeInt_fits _ _ h.2.2]

theorem cleanLine_eq {t : Nums} (h : t.Fit) (l : Text) : cleanLine t l = padded 66 l ++ tailCols t := by
  rw [tailCols_eq h]; rfl

theorem printEnd_eq {t : Nums} (h : t.Fit) (hh : (Division.mk zeroCont t).isHead = false) :
    (Division.mk zeroCont t).print = unlines [endRecord t] := by
  rw [Division.print_end hh h.1, tailText_eq, tailCols_eq h]
  simp [endRecord]

theorem endRecord_line {t : Nums} (h : t.Fit) (h1 : -1 ≤ t.mat) (h2 : 0 ≤ t.mf) (h3 : 0 ≤ t.mt) :
    DivLine ⟨zeroCont, t⟩ (endRecord t) := by
  rw [endRecord, ← tailCols_eq h]
  have hn : '\n' ∉ blanks 66 ++ tailCols t := by simp [nl_not_mem_blanks, tailCols_nl h]
  refine (divLine_iff hn).mp ?_
  rw [contOpt_blanks, drop_append_of_length (by simp), tailOpt_tailCols h]
  simp only [opt, Except.bind, divCheck]
  rw [if_neg (by omega), if_neg (by omega), if_neg (by omega)]

theorem endRecord_canonical {t : Nums} (h : t.Fit) : CanonicalLine t (endRecord t) := by
  rw [endRecord, ← tailCols_eq h]
  exact canonical_line h (by simp) (nl_not_mem_blanks _)

theorem cleanLine_canonical {t : Nums} (h : t.Fit) {l : Text} (hl : '\n' ∉ l) : CanonicalLine t (cleanLine t l) := by
  rw [cleanLine_eq h]
  exact canonical_line h (padded_length _ _) (padded_nl _ hl)

theorem TextLine.fit {t : Nums} {l : Text} (h : TextLine t l) : t.Fit := by
  obtain ⟨_, ⟨h1, h2, h3⟩, _⟩ := h
  refine ⟨fits_mono ?_ (Disco.parseInt_fits _ _ h1), fits_mono ?_ (Disco.parseInt_fits _ _ h2), fits_mono ?_ (Disco.parseInt_fits _ _ h3)⟩ <;>
    simp [cols] <;> omega

omit [Disco] in
theorem unlines_count (ls : List Text) (h : ∀ l ∈ ls, '\n' ∉ l) : (unlines ls).count '\n' = ls.length := by
  induction ls with
  | nil => rfl
  | cons l ls ih =>
    have hl := h l (by simp)
    simp [List.count_append, List.count_eq_zero.mpr hl, ih (fun x hx => h x (by simp [hx]))]

/-! ### clean -/

theorem readText_line (t : Nums) : ∀ {l : Text}, TextLine t l → ∀ r n, readText t ⟨l ++ '\n' :: r, n⟩ = .ok (padded 66 l, ⟨r, n + 1⟩) := by
  intro l hl r n
  rw [readText, Parser.mapErr_ok, (colsTail_line (readChars_cols 66) t).run_nl hl.1]
  have : tailCheck t (l.drop 66) = .ok () := by
    simp [tailCheck, tailOpt_iff.mpr hl.2, opt, Except.bind]
  rw [this]
  rfl

theorem readText_bad (t : Nums) {l : Text} (hn : '\n' ∉ l) (hl : ¬ TextLine t l) (r : Text) (n : Int) :
    readText t ⟨l ++ '\n' :: r, n⟩ = .error .exc := by
  cases h : readText t ⟨l ++ '\n' :: r, n⟩ with
  | ok x =>
    exfalso
    rw [readText, Parser.mapErr_ok, (colsTail_line (readChars_cols 66) t).run_nl hn] at h
    refine hl ⟨hn, tailOpt_iff.mp ?_⟩
    cases hc : tailCheck t (l.drop 66) with
    | ok _ => exact tailCheck_ok hc
    | error e => rw [hc] at h; simp [opt, Except.bind] at h
  | error e =>
    have := (readText_reads t).err h
    have h' : ∃ e', catchInt e' = e := by
      rw [readText, Parser.mapErr_error] at h
      obtain ⟨e', _, h⟩ := h
      exact ⟨e', h⟩
    obtain ⟨e', rfl⟩ := h'
    cases e' <;> simp_all [catchInt, StdErr, Err.isStd]

theorem cleanLoop_run {t : Nums} (ht : t.Fit) : ∀ (ls : List Text) (r : Text) (n : Int) (out : Text), (∀ l ∈ ls, TextLine t l) →
    ∀ k, TSection.cleanLoop t (ls.length + k) ⟨unlines ls ++ r, n⟩ out =
      TSection.cleanLoop t k ⟨r, n + ls.length⟩ (out ++ unlines (ls.map (cleanLine t))) := by
  intro ls
  induction ls with
  | nil => intro r n out _ k; simp
  | cons l ls ih =>
    intro r n out h k
    rw [show (l :: ls).length + k = (ls.length + k) + 1 by simp; omega, TSection.cleanLoop]
    rw [unlines_cons, List.append_assoc, List.cons_append, readText_line t (h l (by simp))]
    simp only
    rw [ih _ _ _ (fun x hx => h x (by simp [hx]))]
    have hpt : printText (padded 66 l) t = cleanLine t l ++ ['\n'] := by
      rw [printText, writeChars_full (padded_length _ _), tailText_eq, cleanLine_eq ht, List.append_assoc]
    rw [hpt]
    simp only [List.map_cons, unlines_cons, List.append_assoc, List.length_cons, List.singleton_append]
    congr 1
    simp; omega

theorem toInt32_small {n : Nat} (h : n < 2 ^ 31) : toInt32 (n : Int) = n := by
  unfold toInt32; omega

/-- The section has these lines before its last line, the lines carry its numbers, and it has a SEND record. -/
structure CleanReady (s : TSection) (ls : List Text) (last : Text) : Prop where
  text : s.content = unlines (ls ++ [last])
  ne : ls ≠ []
  nums : ∀ l ∈ ls, TextLine ⟨s.mat, s.mf, s.mt⟩ l
  last_nl : '\n' ∉ last
  mat : 1 ≤ s.mat
  mf : 1 ≤ s.mf
  few : ls.length < 2 ^ 31

theorem nc_unlines {s : TSection} {ls : List Text} {last : Text} (h : s.content = unlines (ls ++ [last])) (hl : ∀ l ∈ ls, '\n' ∉ l)
    (hlast : '\n' ∉ last) (hfew : ls.length < 2 ^ 32) : s.nc = ls.length := by
  unfold TSection.nc
  rw [h, unlines_count _ (by
    intro l hl'
    rcases List.mem_append.mp hl' with h | h
    · exact hl l h
    · simp at h; rw [h]; exact hlast)]
  simp only [List.length_append, List.length_cons, List.length_nil]
  have : ((ls.length + (0 + 1) : Nat) : Int) - 1 = ls.length := by omega
  rw [this]
  omega

theorem clean_run {s : TSection} {ls : List Text} {last : Text} (h : CleanReady s ls last) :
    s.clean = (.ok (), { s with content := unlines (ls.map (cleanLine ⟨s.mat, s.mf, s.mt⟩) ++ [endRecord ⟨s.mat, s.mf, 0⟩]) }) := by
  obtain ⟨l0, hl0⟩ := List.exists_mem_of_ne_nil _ h.ne
  have hfit : (⟨s.mat, s.mf, s.mt⟩ : Nums).Fit := (h.nums l0 hl0).fit
  have hfew := h.few
  have hnc : s.nc = ls.length := nc_unlines h.text (fun l hl => (h.nums l hl).1) h.last_nl (by omega)
  unfold TSection.clean
  rw [hnc, toInt32_small h.few, h.text, unlines_append]
  have := cleanLoop_run hfit ls (unlines [last]) 0 [] h.nums 0
  simp only [Nat.add_zero] at this
  rw [Int.toNat_natCast, this]
  simp only [TSection.cleanLoop, SEND]
  have h1 := h.mat
  have h2 := h.mf
  rw [if_neg (by omega), if_neg (by omega)]
  simp only
  rw [printEnd_eq (t := ⟨s.mat, s.mf, 0⟩) ⟨hfit.1, hfit.2.1, fits_zero 2⟩ (by simp [Division.isHead])]
  simp

theorem cleanLine_idem {t : Nums} (h : t.Fit) (l : Text) : cleanLine t (cleanLine t l) = cleanLine t l := by
  have : (cleanLine t l).take 66 = padded 66 l := by
    rw [cleanLine_eq h, take_append_of_length (padded_length _ _)]
  rw [cleanLine, this, padded_length]
  simp [blanks, cleanLine, padded]

theorem cleanLine_text {t : Nums} (h : t.Fit) {l : Text} (hl : '\n' ∉ l) : TextLine t (cleanLine t l) := by
  have hc := cleanLine_canonical h hl
  refine ⟨hc.2.1, hc.2.2.1, 0, ?_⟩
  rw [hc.2.2.2]
  exact Disco.parseInt_blank 5

/-! ### content -/

theorem concat_ok {l : List (Except Err Text)} {c : List Text} (h : l = c.map .ok) : TMaterial.concat l = .ok c.flatten := by
  subst h
  induction c with
  | nil => rfl
  | cons a c ih => simp [TMaterial.concat, ih]

theorem concat_insert (a b : List (Except Err Text)) : TMaterial.concat (a ++ .ok [] :: b) = TMaterial.concat (a ++ b) := by
  induction a with
  | nil =>
    simp only [List.nil_append, TMaterial.concat]
    cases TMaterial.concat b <;> rfl
  | cons x a ih =>
    cases x with
    | error e => rfl
    | ok t => simp only [List.cons_append, TMaterial.concat, ih]

omit [Disco] in
theorem SMap.emplaceMulti_split {α : Type} (k : Int) (v : α) (m : SMap α) : ∃ a b, m = a ++ b ∧ SMap.emplaceMulti k v m = a ++ (k, v) :: b := by
  induction m with
  | nil => exact ⟨[], [], rfl, rfl⟩
  | cons e m ih =>
    unfold SMap.emplaceMulti
    split
    · exact ⟨[], e :: m, rfl, rfl⟩
    · obtain ⟨a, b, h1, h2⟩ := ih
      exact ⟨e :: a, b, by rw [h1]; rfl, by rw [h2]; rfl⟩

theorem FEND_ok {mat : Int} (h : 1 ≤ mat) : FEND mat = .ok ⟨zeroCont, ⟨mat, 0, 0⟩⟩ := by
  unfold FEND; rw [if_neg (by omega)]

theorem fend_print {mat : Int} (hf : fits 4 mat) : (Division.mk zeroCont ⟨mat, 0, 0⟩).print = unlines [endRecord ⟨mat, 0, 0⟩] :=
  printEnd_eq ⟨hf, fits_zero 1, fits_zero 2⟩ (by simp [Division.isHead])

theorem mend_print : MEND.print = unlines [endRecord ⟨0, 0, 0⟩] :=
  printEnd_eq (t := ⟨0, 0, 0⟩) ⟨fits_zero 3, fits_zero 1, fits_zero 2⟩ (by simp [Division.isHead])

theorem tend_print : TEND.print = unlines [endRecord ⟨-1, 0, 0⟩] :=
  printEnd_eq (t := ⟨-1, 0, 0⟩) ⟨by decide, fits_zero 1, fits_zero 2⟩ (by simp [Division.isHead])

end ENDFtk

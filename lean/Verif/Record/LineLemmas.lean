import Verif.Record.ControlLemmas
/-
  Structure divisions, TEXT, DIR, TPID, skip: as functions of the line, and reading back of what is printed.
-/
set_option linter.unusedVariables false
set_option linter.unusedSimpArgs false
set_option linter.unusedSectionVars false
namespace ENDFtk
variable [Disco]

/-! ### structure divisions -/

def divCheck (base : Cont) (tail : Nums) : Except Err Division :=
  if tail.mat < -1 then .error .exc
  else if tail.mf < 0 then .error .exc
  else if tail.mt < 0 then .error .exc
  else .ok ⟨base, tail⟩

theorem readDivision_line : LineF 80
    (fun l => (opt (contOpt l)).bind fun b => (opt (tailOpt (l.drop 66))).bind fun t => divCheck b t) readDivision := by
  unfold readDivision
  refine (LineF.mapErr (w := 80) (LineF.bindCols readContBase_cols fun b => LineF.bindPure readTail_line
    (h := fun t => divCheck b t) ?_) rfl).congr rfl ?_
  · intro t s
    simp only [divCheck]
    split
    · simp
    split
    · simp
    split
    · simp
    · simp
  · intro l
    cases h1 : contOpt l with
    | none => simp [opt, Except.bind, catchInt]
    | some b =>
      cases h2 : tailOpt (l.drop 66) with
      | none => simp [opt, Except.bind, catchInt, h2]
      | some t =>
        simp only [opt, Except.bind, h2, divCheck]
        split
        · rename_i h; rw [← h]
        · rename_i er h
          split at h
          · cases h; simp_all [catchInt]
          split at h
          · cases h; simp_all [catchInt]
          split at h
          · cases h; simp_all [catchInt]
          · cases h

theorem readDivision_reads : Reads StdErr
    (fun d ls => ∃ l, ls = [l] ∧ ShowsCont d.base l ∧ HasTail d.tail l ∧
      -1 ≤ d.tail.mat ∧ 0 ≤ d.tail.mf ∧ 0 ≤ d.tail.mt) readDivision := by
  refine readDivision_line.reads rfl ?_ ?_
  · intro l d h
    cases h1 : contOpt l with
    | none => simp [h1, opt, Except.bind] at h
    | some b =>
      cases h2 : tailOpt (l.drop 66) with
      | none => simp [h1, opt, Except.bind, h2] at h
      | some t =>
        simp only [h1, h2, opt, Except.bind, divCheck] at h
        split at h
        · cases h
        split at h
        · cases h
        split at h
        · cases h
        cases h
        refine ⟨l, rfl, contOpt_eq_some.mp h1, tailOpt_eq_some h2, ?_, ?_, ?_⟩ <;> simp only <;> omega
  · intro l er h
    cases h1 : contOpt l with
    | none => simp [h1, opt, Except.bind] at h; subst h; rfl
    | some b =>
      cases h2 : tailOpt (l.drop 66) with
      | none => simp [h1, opt, Except.bind, h2] at h; subst h; rfl
      | some t =>
        simp only [h1, h2, opt, Except.bind, divCheck] at h
        split at h
        · cases h; rfl
        split at h
        · cases h; rfl
        split at h
        · cases h; rfl
        · cases h

theorem parse_take_blanks_real (k w : Nat) (s : Text) (h : w ≤ k) : parseReal ((blanks k ++ s).take w) = some Disco.zero := by
  have : (blanks k ++ s).take w = blanks w := by
    rw [List.take_append_of_le_length (by simpa using h)]
    simp [blanks, Nat.min_eq_left h]
  rw [this, Disco.parseReal_blank]

omit [Disco] in
theorem blanks_drop (k w : Nat) (s : Text) (h : w ≤ k) : (blanks k ++ s).drop w = blanks (k - w) ++ s := by
  obtain ⟨m, rfl⟩ := Nat.exists_eq_add_of_le h
  rw [blanks_add, List.append_assoc, drop_append_of_length (by simp)]
  simp

omit [Disco] in
theorem blanks_take (k w : Nat) (s : Text) (h : w ≤ k) : (blanks k ++ s).take w = blanks w := by
  obtain ⟨m, rfl⟩ := Nat.exists_eq_add_of_le h
  rw [blanks_add, List.append_assoc, take_append_of_length (by simp)]

theorem contOpt_blanks (s : Text) : contOpt (blanks 66 ++ s) = some zeroCont := by
  simp [contOpt, blanks_drop, blanks_take, Disco.parseReal_blank, Disco.parseInt_blank, zeroCont]

/-- What is printed for a division that is not a HEAD: 66 blanks and the tail. -/
theorem Division.print_end {d : Division} (h : d.isHead = false) (ht : fits 4 d.tail.mat) :
    d.print = blanks 66 ++ tailText d.tail := by
  rw [Division.print, if_neg (by simp [h])]
  rw [show 70 = 66 + 4 from rfl, writeInt_wide 66 (by omega) ht]
  simp [tailText, List.append_assoc]

theorem readDivision_text {b : Text} {c : Cont} {t : Nums} (hb : b.length = 66) (hn : '\n' ∉ b)
    (hc : contOpt (b ++ tailCols t) = some c) (ht : t.Fit) (h1 : -1 ≤ t.mat) (h2 : 0 ≤ t.mf) (h3 : 0 ≤ t.mt) (s : Text) (n : Int) :
    readDivision ⟨b ++ tailText t ++ s, n⟩ = .ok (⟨c, t⟩, ⟨s, n + 1⟩) := by
  have e : b ++ tailText t ++ s = (b ++ tailCols t) ++ '\n' :: s := by simp [tailText_eq]
  rw [e, readDivision_line.run_nl (by simp [hn, tailCols_nl ht])]
  simp only [hc, drop_append_of_length hb, tailOpt_tailCols ht, opt, Except.bind, divCheck]
  rw [if_neg (by omega), if_neg (by omega), if_neg (by omega)]

/-- Reading back an end record. -/
theorem readDivision_end {t : Nums} (ht : t.Fit) (h1 : -1 ≤ t.mat) (h2 : 0 ≤ t.mf) (h3 : 0 ≤ t.mt) (s : Text) (n : Int) :
    readDivision ⟨blanks 66 ++ tailText t ++ s, n⟩ = .ok (⟨zeroCont, t⟩, ⟨s, n + 1⟩) :=
  readDivision_text (by simp) (nl_not_mem_blanks 66) (contOpt_blanks _) ht h1 h2 h3 s n

theorem contOpt_contText {c : Cont} (h : c.Ok) (s : Text) : contOpt (contText c ++ s) = some c := by
  rcases h with ⟨h1, h2, h3, h4, h5, h6⟩
  have r1 := Disco.writeReal_length c.c1
  have r2 := Disco.writeReal_length c.c2
  have i1 := writeInt_length (show 0 < 11 by omega) h3
  have i2 := writeInt_length (show 0 < 11 by omega) h4
  have i3 := writeInt_length (show 0 < 11 by omega) h5
  have i4 := writeInt_length (show 0 < 11 by omega) h6
  have d0 : contText c ++ s = writeReal c.c1 ++ (writeReal c.c2 ++ (writeInt 11 c.l1 ++ (writeInt 11 c.l2 ++
    (writeInt 11 c.n1 ++ (writeInt 11 c.n2 ++ s))))) := by simp [contText]
  have e1 : (contText c ++ s).drop 11 = writeReal c.c2 ++ (writeInt 11 c.l1 ++ (writeInt 11 c.l2 ++
    (writeInt 11 c.n1 ++ (writeInt 11 c.n2 ++ s)))) := by rw [d0, drop_append_of_length r1]
  have e2 : (contText c ++ s).drop 22 = writeInt 11 c.l1 ++ (writeInt 11 c.l2 ++
    (writeInt 11 c.n1 ++ (writeInt 11 c.n2 ++ s))) := by
    rw [show 22 = 11 + 11 from rfl, ← List.drop_drop, e1, drop_append_of_length r2]
  have e3 : (contText c ++ s).drop 33 = writeInt 11 c.l2 ++ (writeInt 11 c.n1 ++ (writeInt 11 c.n2 ++ s)) := by
    rw [show 33 = 22 + 11 from rfl, ← List.drop_drop, e2, drop_append_of_length i1]
  have e4 : (contText c ++ s).drop 44 = writeInt 11 c.n1 ++ (writeInt 11 c.n2 ++ s) := by
    rw [show 44 = 33 + 11 from rfl, ← List.drop_drop, e3, drop_append_of_length i2]
  have e5 : (contText c ++ s).drop 55 = writeInt 11 c.n2 ++ s := by
    rw [show 55 = 44 + 11 from rfl, ← List.drop_drop, e4, drop_append_of_length i3]
  simp only [contOpt, e1, e2, e3, e4, e5]
  rw [d0]
  simp only [take_append_of_length r1, take_append_of_length r2, take_append_of_length i1, take_append_of_length i2,
    take_append_of_length i3, take_append_of_length i4, parseInt_writeInt h3, parseInt_writeInt h4, parseInt_writeInt h5,
    parseInt_writeInt h6]
  rw [show parseReal (writeReal c.c1) = some c.c1 from h1, show parseReal (writeReal c.c2) = some c.c2 from h2]
  rfl

/-- Reading back a printed division (HEAD or end record). -/
theorem readDivision_print {d : Division} (hb : d.isHead = true → d.base.Ok) (hz : d.isHead = false → d.base = zeroCont)
    (ht : d.tail.Fit) (h1 : -1 ≤ d.tail.mat) (h2 : 0 ≤ d.tail.mf) (h3 : 0 ≤ d.tail.mt) (s : Text) (n : Int) :
    readDivision ⟨d.print ++ s, n⟩ = .ok (d, ⟨s, n + 1⟩) := by
  by_cases hd : d.isHead = true
  · rw [Division.print, if_pos hd]
    obtain ⟨b1, b2, b3, b4, b5, b6⟩ := hb hd
    exact readDivision_text (contText_length b3 b4 b5 b6) (contText_nl b3 b4 b5 b6) (contOpt_contText (hb hd) _) ht h1 h2 h3 s n
  · simp only [Bool.not_eq_true] at hd
    rw [Division.print_end hd ht.1]
    have := readDivision_end ht h1 h2 h3 s n
    rw [this, ← hz hd]

omit [Disco] in
theorem fits_zero (w : Nat) : fits (w + 1) 0 := by
  have h : (0 : Int) < 10 ^ w := Int.pow_pos (by omega)
  have h' : (0 : Int) < 10 ^ (w + 1) := Int.pow_pos (by omega)
  refine ⟨h', ?_⟩
  simp only [Nat.add_sub_cancel]; omega

theorem zeroCont_ok (hz : Rep (Disco.zero : Dbl)) : (zeroCont : Cont).Ok := by
  refine ⟨hz, hz, ?_, ?_, ?_, ?_⟩ <;> exact fits_zero 10

/-! ### text fields -/

theorem skip_line : LineF 80 (fun l => opt (tailOpt (l.drop 66))) skip :=
  (LineF.bindCols (readChars_cols 66) fun _ => readTail_line).congr rfl (fun l => rfl)

/-- The first `w` columns of a line, blanks added on the right. -/
def padded (w : Nat) (l : Text) : Text := l.take w ++ blanks (w - (l.take w).length)

omit [Disco] in
theorem padded_length (w : Nat) (l : Text) : (padded w l).length = w := by
  simp [padded]; omega

omit [Disco] in
theorem padded_nl {l : Text} (w : Nat) (h : '\n' ∉ l) : '\n' ∉ padded w l := by
  simp only [padded, List.mem_append, not_or]
  exact ⟨fun h' => h (List.mem_of_mem_take h'), nl_not_mem_blanks _⟩

theorem skip_reads : Reads StdErr (fun t ls => ∃ l, ls = [l] ∧ HasTail t l) skip := by
  refine skip_line.reads rfl ?_ ?_
  · intro l t h
    refine ⟨l, rfl, ?_⟩
    cases h1 : tailOpt (l.drop 66) with
    | none => simp [h1, opt] at h
    | some t' => simp [h1, opt] at h; subst h; exact tailOpt_eq_some h1
  · intro l e h
    cases h1 : tailOpt (l.drop 66) with
    | none => simp [h1, opt] at h; subst h; rfl
    | some t' => simp [h1, opt] at h

theorem readText_reads (e : Nums) :
    Reads StdErr (fun t ls => ∃ l, ls = [l] ∧ t = padded 66 l ∧ HasTail e l) (readText e) := by
  refine ((colsTail_reads (readChars_cols 66) e).mapErr (fun e h => catchInt_raw h)).post ?_
  rintro t ls ⟨l, rfl, h1, h2⟩
  simp only [Option.some.injEq] at h1
  exact ⟨l, rfl, h1.symm, h2⟩

omit [Disco] in
theorem writeChars_full {w : Nat} {t : Text} (h : t.length = w) : writeChars w t = t := by
  simp [writeChars, h, blanks]

theorem readText_printText {x : Text} {t : Nums} (hx : x.length = 66) (hn : '\n' ∉ x) (ht : t.Fit) (s : Text) (n : Int) :
    readText t ⟨printText x t ++ s, n⟩ = .ok (x, ⟨s, n + 1⟩) := by
  rw [readText, Parser.mapErr_ok, printText, writeChars_full hx, List.append_assoc,
    Parser.bind_ok (readChars_append _ n hx hn), Parser.bind_ok (verifyTail_tailText ht s n)]
  rfl

theorem printText_lines {x : Text} {t : Nums} (hx : x.length = 66) (hn : '\n' ∉ x) (ht : t.Fit) :
    printText x t = unlines [x ++ tailCols t] ∧ CanonicalLine t (x ++ tailCols t) := by
  exact ⟨by simp [printText, writeChars_full hx, tailText_eq], canonical_line ht hx hn⟩

/-! ### directory records -/

def dirOpt (l : Text) : Option Dir :=
  (parseInt (l.take 33)).bind fun mf =>
  (parseInt ((l.drop 33).take 11)).bind fun mt =>
  (parseInt ((l.drop 44).take 11)).bind fun nc =>
  (parseInt ((l.drop 55).take 11)).bind fun mod => some ⟨mf, mt, nc, mod⟩

theorem readDirBase_cols : ColsF 66 dirOpt (do
    let mf ← readInt 33
    let mt ← readInt 11
    let nc ← readInt 11
    let mod ← readInt 11
    pure (Dir.mk mf mt nc mod)) := by
  refine (ColsF.bind (readInt_cols 33) fun mf => ColsF.bind (readInt_cols 11) fun mt =>
    ColsF.bind (readInt_cols 11) fun nc => ColsF.bind (readInt_cols 11) fun mod =>
    ColsF.pure (Dir.mk mf mt nc mod)).congr rfl ?_
  intro l
  simp only [dirOpt, List.drop_drop]

/-- A directory entry as shown on its line: columns 23-33 (with 1-22 blank or not, all read as one integer), 34-44, 45-55, 56-66. -/
def ShowsDir (d : Dir) (l : Text) : Prop :=
  parseInt (cols 1 33 l) = some d.mf ∧ parseInt (cols 34 44 l) = some d.mt ∧
  parseInt (cols 45 55 l) = some d.nc ∧ parseInt (cols 56 66 l) = some d.mod

theorem dirOpt_eq_some {l : Text} {d : Dir} : dirOpt l = some d ↔ ShowsDir d l := by
  simp only [dirOpt, Option.bind_eq_some_iff, Option.some.injEq, ShowsDir, cols]
  constructor
  · rintro ⟨mf, h1, mt, h2, nc, h3, mod, h4, rfl⟩
    exact ⟨h1, h2, h3, h4⟩
  · rintro ⟨h1, h2, h3, h4⟩
    exact ⟨_, h1, _, h2, _, h3, _, h4, rfl⟩

theorem readDir_eq (e : Nums) : readDir e = Parser.mapErr catchInt (do
    let d ← (do
      let mf ← readInt 33
      let mt ← readInt 11
      let nc ← readInt 11
      let mod ← readInt 11
      pure (Dir.mk mf mt nc mod))
    verifyTail e
    pure d) := by
  unfold readDir
  congr 1
  funext s
  simp only [Parser.bind_run]
  cases readInt 33 s with
  | error e => rfl
  | ok r =>
    obtain ⟨a, s⟩ := r
    simp only []
    cases readInt 11 s with
    | error e => rfl
    | ok r =>
      obtain ⟨b, s⟩ := r
      simp only []
      cases readInt 11 s with
      | error e => rfl
      | ok r =>
        obtain ⟨c, s⟩ := r
        simp only []
        cases readInt 11 s with
        | error e => rfl
        | ok r =>
          obtain ⟨d, s⟩ := r
          simp only []
          rfl

theorem readDir_reads (e : Nums) :
    Reads StdErr (fun d ls => ∃ l, ls = [l] ∧ ShowsDir d l ∧ HasTail e l) (readDir e) := by
  rw [readDir_eq]
  refine ((colsTail_reads readDirBase_cols e).mapErr (fun e h => catchInt_raw h)).post ?_
  rintro d ls ⟨l, rfl, h1, h2⟩
  exact ⟨l, rfl, dirOpt_eq_some.mp h1, h2⟩

/-- The entry fits its columns. -/
def Dir.Ok (d : Dir) : Prop := fits 33 d.mf ∧ fits 11 d.mt ∧ fits 11 d.nc ∧ fits 11 d.mod

instance (d : Dir) : Decidable d.Ok := by unfold Dir.Ok; exact inferInstance

theorem readDir_printDir {d : Dir} {t : Nums} (hd : d.Ok) (ht : t.Fit) (s : Text) (n : Int) :
    readDir t ⟨printDir d t ++ s, n⟩ = .ok (d, ⟨s, n + 1⟩) := by
  obtain ⟨h1, h2, h3, h4⟩ := hd
  rw [readDir, Parser.mapErr_ok]
  simp only [printDir, List.append_assoc, Parser.bind_run,
    readInt_writeInt _ _ (show 0 < 33 by omega) h1,
    readInt_writeInt _ _ (show 0 < 11 by omega) h2,
    readInt_writeInt _ _ (show 0 < 11 by omega) h3, readInt_writeInt _ _ (show 0 < 11 by omega) h4,
    verifyTail_tailText ht]
  rfl

theorem printDir_lines {d : Dir} {t : Nums} (hd : d.Ok) (ht : t.Fit) :
    ∃ l, printDir d t = unlines [l] ∧ CanonicalLine t l := by
  obtain ⟨h1, h2, h3, h4⟩ := hd
  refine ⟨writeInt 33 d.mf ++ writeInt 11 d.mt ++ writeInt 11 d.nc ++ writeInt 11 d.mod ++ tailCols t,
    by simp [printDir, tailText_eq], canonical_line ht ?_ ?_⟩
  · simp [writeInt_length (show 0 < 33 by omega) h1, writeInt_length (show 0 < 11 by omega) h2,
      writeInt_length (show 0 < 11 by omega) h3, writeInt_length (show 0 < 11 by omega) h4]
  · simp [writeInt_nl h1, writeInt_nl h2, writeInt_nl h3, writeInt_nl h4]

/-! ### tape identification -/

theorem readTpid_line : LineF 80 (fun l => (opt (tailOpt (l.drop 66))).bind fun t =>
    if t.mt ≠ 0 then .error .exc else if t.mf ≠ 0 then .error .exc else .ok ⟨padded 66 l, t.mat⟩) readTpid := by
  unfold readTpid
  refine (LineF.mapErr (w := 80) (LineF.bindCols (readChars_cols 66) fun x => LineF.bindPure
    (LineF.bindPure readTail_line (h := fun t =>
      if t.mt ≠ 0 then .error (.int 8) else if t.mf ≠ 0 then .error (.int 7) else .ok t) ?_)
      (h := fun t => .ok ⟨x, t.mat⟩) ?_) rfl).congr rfl ?_
  · intro t s
    by_cases h1 : t.mt = 0 <;> by_cases h2 : t.mf = 0 <;> simp [h1, h2]
  · intro t s; rfl
  · intro l
    cases h2 : tailOpt (l.drop 66) with
    | none => simp [opt, Except.bind, catchInt, h2]
    | some t =>
      simp only [opt, Except.bind, h2]
      by_cases h1 : t.mt = 0 <;> by_cases h2 : t.mf = 0 <;> simp [h1, h2, catchInt, padded]

theorem readTpid_reads : Reads StdErr
    (fun p ls => ∃ l, ls = [l] ∧ p.text = padded 66 l ∧ HasTail ⟨p.ntape, 0, 0⟩ l) readTpid := by
  refine readTpid_line.reads rfl ?_ ?_
  · intro l p h
    cases h1 : tailOpt (l.drop 66) with
    | none => simp [h1, opt, Except.bind] at h
    | some t =>
      simp only [h1, opt, Except.bind] at h
      split at h
      · cases h
      split at h
      · cases h
      cases h
      refine ⟨l, rfl, rfl, ?_⟩
      have := tailOpt_eq_some h1
      simp_all [HasTail]
  · intro l e h
    cases h1 : tailOpt (l.drop 66) with
    | none => simp [h1, opt, Except.bind] at h; subst h; rfl
    | some t =>
      simp only [h1, opt, Except.bind] at h
      split at h
      · cases h; rfl
      split at h
      · cases h; rfl
      · cases h

theorem verifyTailMFMT_tailText {t : Nums} (h : t.Fit) (s : Text) (n : Int) :
    verifyTailMFMT t.mf t.mt ⟨tailText t ++ s, n⟩ = .ok (t, ⟨s, n + 1⟩) := by
  rw [verifyTailMFMT, Parser.bind_ok (readTail_tailText h s n)]
  simp

theorem readTpid_printTpid {p : Tpid} (hx : p.text.length = 66) (hn : '\n' ∉ p.text) (ht : fits 4 p.ntape) (s : Text) (n : Int) :
    readTpid ⟨printTpid p ⟨p.ntape, 0, 0⟩ ++ s, n⟩ = .ok (p, ⟨s, n + 1⟩) := by
  have hf : (Nums.mk p.ntape 0 0).Fit := ⟨ht, fits_zero 1, fits_zero 2⟩
  rw [readTpid, Parser.mapErr_ok, printTpid, writeChars_full hx, List.append_assoc,
    Parser.bind_ok (readChars_append _ n hx hn), Parser.bind_ok (verifyTailMFMT_tailText hf s n)]
  rfl

end ENDFtk

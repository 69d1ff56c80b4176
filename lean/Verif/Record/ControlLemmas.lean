import Verif.Lines
import Verif.Spec
/-
  The single line readers as functions of the line, and reading back of what is printed.
-/
set_option linter.unusedVariables false
set_option linter.unusedSectionVars false
namespace ENDFtk
variable [Disco]

theorem unlines_lines {ls : List Text} (h : ∀ l ∈ ls, '\n' ∉ l) (r : Text) : Lines ls (unlines ls ++ r) r := by
  induction ls with
  | nil => simpa using Lines.nil r
  | cons l ls ih =>
    simp at h
    simpa using Lines.cons h.1 (ih h.2)

/-! ### tails -/

/-- The tail of a line whose first 66 columns are gone. -/
def tailOpt (l : Text) : Option Nums :=
  (parseInt (l.take 4)).bind fun mat =>
  (parseInt ((l.drop 4).take 2)).bind fun mf =>
  (parseInt ((l.drop 6).take 3)).bind fun mt =>
  (parseInt ((l.drop 9).take 5)).bind fun _ => some ⟨mat, mf, mt⟩

theorem endTail_line (t : Nums) : LineF 0 (fun _ => .ok t) (do
    readEndLine
    let s ← Parser.get
    Parser.set { s with line := s.line + 1 }
    pure t) := by
  intro l u n hl hu
  simp [Parser.bind_run, readEndLine, endLine_line hl hu]

omit [Disco] in
theorem opt_bind {α β : Type} (o : Option α) (f : α → Option β) : opt (o.bind f) = (opt o).bind (fun a => opt (f a)) := by
  cases o <;> rfl

theorem readTail_line : LineF 14 (fun l => opt (tailOpt l)) readTail := by
  refine (LineF.bindCols (readInt_cols 4) fun mat => LineF.bindCols (readInt_cols 2) fun mf =>
    LineF.bindCols (readInt_cols 3) fun mt => LineF.bindCols (readInt_cols 5) fun _ =>
    endTail_line ⟨mat, mf, mt⟩).congr rfl ?_
  intro l
  simp only [tailOpt, opt_bind, List.drop_drop]
  rfl

/-- `verifyTail` as a function of the end of the line. -/
def tailCheck (e : Nums) (l : Text) : Except Err Unit :=
  (opt (tailOpt l)).bind fun t =>
    if t.mt ≠ e.mt then .error (.int 8)
    else if t.mf ≠ e.mf then .error (.int 7)
    else if t.mat ≠ e.mat then .error (.int 6)
    else .ok ()

theorem verifyTail_line (e : Nums) : LineF 14 (tailCheck e) (verifyTail e) := by
  refine (LineF.bindPure readTail_line (h := fun t =>
    if t.mt ≠ e.mt then .error (.int 8)
    else if t.mf ≠ e.mf then .error (.int 7)
    else if t.mat ≠ e.mat then .error (.int 6)
    else .ok ()) ?_).congr rfl (fun _ => rfl)
  intro t s
  by_cases h1 : t.mt = e.mt <;> by_cases h2 : t.mf = e.mf <;> by_cases h3 : t.mat = e.mat <;> simp [h1, h2, h3]

theorem tailOpt_eq_some {l : Text} {t : Nums} (h : tailOpt (l.drop 66) = some t) : HasTail t l := by
  simp only [tailOpt, Option.bind_eq_some_iff, List.drop_drop, Option.some.injEq] at h
  obtain ⟨mat, h1, mf, h2, mt, h3, ns, h4, rfl⟩ := h
  exact ⟨h1, h2, h3⟩

theorem tailCheck_ok {e : Nums} {l : Text} (h : tailCheck e l = .ok ()) : tailOpt l = some e := by
  unfold tailCheck at h
  cases ht : tailOpt l with
  | none => rw [ht] at h; simp [opt, Except.bind] at h
  | some t =>
    rw [ht] at h
    simp only [opt, Except.bind] at h
    split at h
    · cases h
    split at h
    · cases h
    split at h
    · cases h
    cases t; cases e; simp_all

theorem tailCheck_err {e : Nums} {l : Text} {er : Err} (h : tailCheck e l = .error er) : er = .exc ∨ ∃ n, er = .int n := by
  unfold tailCheck at h
  cases ht : tailOpt l with
  | none => rw [ht] at h; simp [opt, Except.bind] at h; exact .inl h.symm
  | some t =>
    rw [ht] at h
    simp only [opt, Except.bind] at h
    split at h
    · cases h; exact .inr ⟨_, rfl⟩
    split at h
    · cases h; exact .inr ⟨_, rfl⟩
    split at h
    · cases h; exact .inr ⟨_, rfl⟩
    · cases h

theorem tailCheck_wrong {e t : Nums} {l : Text} (h : tailOpt l = some t) (hne : t ≠ e) :
    ∃ n, tailCheck e l = .error (.int n) := by
  unfold tailCheck
  rw [h]
  simp only [opt, Except.bind]
  by_cases h1 : t.mt = e.mt
  · by_cases h2 : t.mf = e.mf
    · by_cases h3 : t.mat = e.mat
      · exact absurd (by cases t; cases e; simp_all) hne
      · exact ⟨6, by simp [h1, h2, h3]⟩
    · exact ⟨7, by simp [h1, h2]⟩
  · exact ⟨8, by simp [h1]⟩

/-! ### control records -/

/-- The six fields of a control line. -/
def contOpt (l : Text) : Option Cont :=
  (parseReal (l.take 11)).bind fun c1 =>
  (parseReal ((l.drop 11).take 11)).bind fun c2 =>
  (parseInt ((l.drop 22).take 11)).bind fun l1 =>
  (parseInt ((l.drop 33).take 11)).bind fun l2 =>
  (parseInt ((l.drop 44).take 11)).bind fun n1 =>
  (parseInt ((l.drop 55).take 11)).bind fun n2 => some ⟨c1, c2, l1, l2, n1, n2⟩

theorem readContBase_cols : ColsF 66 contOpt readContBase := by
  refine (ColsF.bind readReal_cols fun c1 => ColsF.bind readReal_cols fun c2 =>
    ColsF.bind (readInt_cols 11) fun l1 => ColsF.bind (readInt_cols 11) fun l2 =>
    ColsF.bind (readInt_cols 11) fun n1 => ColsF.bind (readInt_cols 11) fun n2 =>
    ColsF.pure (Cont.mk c1 c2 l1 l2 n1 n2)).congr rfl ?_
  intro l
  simp only [contOpt, List.drop_drop]

theorem contOpt_eq_some {l : Text} {c : Cont} : contOpt l = some c ↔ ShowsCont c l := by
  simp only [contOpt, Option.bind_eq_some_iff, Option.some.injEq, ShowsCont, cols]
  constructor
  · rintro ⟨c1, h1, c2, h2, l1, h3, l2, h4, n1, h5, n2, h6, rfl⟩
    exact ⟨h1, h2, h3, h4, h5, h6⟩
  · rintro ⟨h1, h2, h3, h4, h5, h6⟩
    exact ⟨_, h1, _, h2, _, h3, _, h4, _, h5, _, h6, rfl⟩

/-- Reading 66 columns and then the verified tail. -/
theorem colsTail_line {α : Type} {g : Text → Option α} {p : Parser α} (hp : ColsF 66 g p) (e : Nums) :
    LineF 80 (fun l => (opt (g l)).bind fun a => (tailCheck e (l.drop 66)).bind fun _ => .ok a)
      (do let a ← p; verifyTail e; pure a) := by
  refine (LineF.bindCols hp fun a => LineF.bindPure (verifyTail_line e) (h := fun _ => .ok a) ?_).congr rfl ?_
  · intro _ s; rfl
  · intro l; rfl

/-- Errors of a raw read: a `std::exception` or the `int` of a wrong tail. -/
def RawErr (e : Err) : Prop := e = .exc ∨ ∃ n, e = .int n

omit [Disco] in
theorem RawErr.exc : RawErr .exc := .inl rfl

omit [Disco] in
theorem catchInt_raw {e : Err} (h : RawErr e) : StdErr (catchInt e) := by
  rcases h with rfl | ⟨n, rfl⟩ <;> rfl

theorem colsTail_ok {α : Type} {o : Option α} {e : Nums} {l : Text} {a : α}
    (h : ((opt o).bind fun a => (tailCheck e (l.drop 66)).bind fun _ => .ok a) = Except.ok a) :
    o = some a ∧ HasTail e l := by
  cases ho : o with
  | none => simp [ho, opt, Except.bind] at h
  | some b =>
    cases ht : tailCheck e (l.drop 66) with
    | error er => simp [ho, ht, opt, Except.bind] at h
    | ok u =>
      simp [ho, ht, opt, Except.bind] at h
      exact ⟨by rw [h], tailOpt_eq_some (tailCheck_ok ht)⟩

theorem colsTail_err {α : Type} {o : Option α} {e : Nums} {l : Text} {er : Err}
    (h : ((opt o).bind fun a => (tailCheck e l).bind fun _ => .ok a) = Except.error er) : RawErr er := by
  cases ho : o with
  | none => simp [ho, opt, Except.bind] at h; exact .inl h.symm
  | some b =>
    cases ht : tailCheck e l with
    | ok u => simp [ho, ht, opt, Except.bind] at h
    | error er' =>
      simp [ho, ht, opt, Except.bind] at h
      subst h
      exact tailCheck_err ht

theorem colsTail_reads {α : Type} {g : Text → Option α} {p : Parser α} (hp : ColsF 66 g p) (e : Nums) :
    Reads RawErr (fun a ls => ∃ l, ls = [l] ∧ g l = some a ∧ HasTail e l) (do let a ← p; verifyTail e; pure a) :=
  (colsTail_line hp e).reads RawErr.exc
    (fun l a h => ⟨l, rfl, colsTail_ok h⟩) (fun l er h => colsTail_err h)

/-- C26/C33/C37 core: reading a control record. -/
theorem readCont_reads (e : Nums) :
    Reads StdErr (fun c ls => ∃ l, ls = [l] ∧ ShowsCont c l ∧ HasTail e l) (readCont e) := by
  refine ((colsTail_reads readContBase_cols e).mapErr (fun e h => catchInt_raw h)).post ?_
  rintro c ls ⟨l, rfl, h1, h2⟩
  exact ⟨l, rfl, contOpt_eq_some.mp h1, h2⟩

/-! ### printing -/

/-- `tailText` without its newline -/
def tailCols (t : Nums) : Text := writeInt 4 t.mat ++ writeInt 2 t.mf ++ writeInt 3 t.mt ++ blanks 5

theorem tailText_eq (t : Nums) : tailText t = tailCols t ++ ['\n'] := by simp [tailText, tailCols]

theorem tailCols_length {t : Nums} (h : t.Fit) : (tailCols t).length = 14 := by
  simp [tailCols, writeInt_length (by omega) h.1, writeInt_length (by omega) h.2.1, writeInt_length (by omega) h.2.2]

theorem tailCols_nl {t : Nums} (h : t.Fit) : '\n' ∉ tailCols t := by
  simp only [tailCols, List.mem_append, not_or]
  exact ⟨⟨⟨writeInt_nl h.1, writeInt_nl h.2.1⟩, writeInt_nl h.2.2⟩, nl_not_mem_blanks 5⟩

omit [Disco] in
theorem take_append_of_length {α : Type} {a b : List α} {n : Nat} (h : a.length = n) : (a ++ b).take n = a := by
  subst h; simp
omit [Disco] in
theorem drop_append_of_length {α : Type} {a b : List α} {n : Nat} (h : a.length = n) : (a ++ b).drop n = b := by
  subst h; simp

theorem tailOpt_tailCols {t : Nums} (h : t.Fit) : tailOpt (tailCols t) = some t := by
  have l1 := writeInt_length (w := 4) (by omega) h.1
  have l2 := writeInt_length (w := 2) (by omega) h.2.1
  have l3 := writeInt_length (w := 3) (by omega) h.2.2
  have e1 : (tailCols t).take 4 = writeInt 4 t.mat := by
    simp only [tailCols, List.append_assoc]; exact take_append_of_length l1
  have d1 : (tailCols t).drop 4 = writeInt 2 t.mf ++ (writeInt 3 t.mt ++ blanks 5) := by
    simp only [tailCols, List.append_assoc]; exact drop_append_of_length l1
  have d2 : (tailCols t).drop 6 = writeInt 3 t.mt ++ blanks 5 := by
    rw [show 6 = 4 + 2 from rfl, ← List.drop_drop, d1]; exact drop_append_of_length l2
  have d3 : (tailCols t).drop 9 = blanks 5 := by
    rw [show 9 = 6 + 3 from rfl, ← List.drop_drop, d2]; exact drop_append_of_length l3
  simp only [tailOpt, e1, d1, d2, d3, take_append_of_length l2, take_append_of_length l3,
    parseInt_writeInt h.1, parseInt_writeInt h.2.1, parseInt_writeInt h.2.2]
  rw [List.take_of_length_le (by simp), Disco.parseInt_blank]
  rfl

theorem tailCheck_tailCols {t : Nums} (h : t.Fit) : tailCheck t (tailCols t) = .ok () := by
  simp [tailCheck, tailOpt_tailCols h, opt, Except.bind]

/-- 66 columns followed by the printed tail are a canonical line. -/
theorem canonical_line {t : Nums} (h : t.Fit) {b : Text} (hb : b.length = 66) (hn : '\n' ∉ b) :
    CanonicalLine t (b ++ tailCols t) := by
  refine ⟨by simp [hb, tailCols_length h], by simp [hn, tailCols_nl h], ?_, ?_⟩
  · apply tailOpt_eq_some
    rw [drop_append_of_length hb, tailOpt_tailCols h]
  · have d1 : (b ++ tailCols t).drop 66 = tailCols t := drop_append_of_length hb
    simp only [cols]
    rw [show 76 - 1 = 66 + 9 from rfl, ← List.drop_drop, d1]
    have l1 := writeInt_length (w := 4) (by omega) h.1
    have l2 := writeInt_length (w := 2) (by omega) h.2.1
    have l3 := writeInt_length (w := 3) (by omega) h.2.2
    rw [tailCols, drop_append_of_length (by simp [l1, l2, l3]), List.take_of_length_le (by simp)]

/-- Integer columns of a control record fit. -/
def Cont.Ok (c : Cont) : Prop :=
  Rep c.c1 ∧ Rep c.c2 ∧ fits 11 c.l1 ∧ fits 11 c.l2 ∧ fits 11 c.n1 ∧ fits 11 c.n2

instance (c : Cont) : Decidable c.Ok := by unfold Cont.Ok; exact inferInstance

theorem contText_length {c : Cont} (h1 : fits 11 c.l1) (h2 : fits 11 c.l2) (h3 : fits 11 c.n1) (h4 : fits 11 c.n2) :
    (contText c).length = 66 := by
  simp [contText, Disco.writeReal_length, writeInt_length (by omega) h1, writeInt_length (by omega) h2,
    writeInt_length (by omega) h3, writeInt_length (by omega) h4]

theorem contText_nl {c : Cont} (h1 : fits 11 c.l1) (h2 : fits 11 c.l2) (h3 : fits 11 c.n1) (h4 : fits 11 c.n2) :
    '\n' ∉ contText c := by
  simp only [contText, List.mem_append, not_or]
  exact ⟨⟨⟨⟨⟨Disco.writeReal_nl _, Disco.writeReal_nl _⟩, writeInt_nl h1⟩, writeInt_nl h2⟩, writeInt_nl h3⟩, writeInt_nl h4⟩

theorem readContBase_contText {c : Cont} (h : c.Ok) (s : Text) (n : Int) :
    readContBase ⟨contText c ++ s, n⟩ = .ok (c, ⟨s, n⟩) := by
  obtain ⟨h1, h2, h3, h4, h5, h6⟩ := h
  simp only [readContBase, contText, List.append_assoc, Parser.bind_run,
    readReal_writeReal _ _ h1, readReal_writeReal _ _ h2,
    readInt_writeInt _ _ (show 0 < 11 by omega) h3, readInt_writeInt _ _ (show 0 < 11 by omega) h4,
    readInt_writeInt _ _ (show 0 < 11 by omega) h5, readInt_writeInt _ _ (show 0 < 11 by omega) h6]
  rfl

theorem verifyTail_tailText {t : Nums} (h : t.Fit) (s : Text) (n : Int) :
    verifyTail t ⟨tailText t ++ s, n⟩ = .ok ((), ⟨s, n + 1⟩) := by
  rw [tailText_eq, List.append_assoc, List.singleton_append, (verifyTail_line t).run_nl (tailCols_nl h),
    tailCheck_tailCols h]

theorem readTail_tailText {t : Nums} (h : t.Fit) (s : Text) (n : Int) :
    readTail ⟨tailText t ++ s, n⟩ = .ok (t, ⟨s, n + 1⟩) := by
  rw [tailText_eq, List.append_assoc, List.singleton_append, readTail_line.run_nl (tailCols_nl h),
    tailOpt_tailCols h]
  rfl

theorem readCont_printCont {c : Cont} {t : Nums} (hc : c.Ok) (ht : t.Fit) (s : Text) (n : Int) :
    readCont t ⟨printCont c t ++ s, n⟩ = .ok (c, ⟨s, n + 1⟩) := by
  rw [readCont, Parser.mapErr_ok, printCont, List.append_assoc, Parser.bind_ok (readContBase_contText hc _ n),
    Parser.bind_ok (verifyTail_tailText ht s n)]
  rfl

theorem printCont_lines {c : Cont} {t : Nums} (h1 : fits 11 c.l1) (h2 : fits 11 c.l2) (h3 : fits 11 c.n1) (h4 : fits 11 c.n2)
    (ht : t.Fit) : ∃ l, printCont c t = unlines [l] ∧ CanonicalLine t l :=
  ⟨contText c ++ tailCols t, by simp [printCont, tailText_eq],
    canonical_line ht (contText_length h1 h2 h3 h4) (contText_nl h1 h2 h3 h4)⟩

end ENDFtk

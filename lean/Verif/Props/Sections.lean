import Verif.Section.All
import Verif.Props.Records
/-
  C38, C41 - C44, C49: properties of all section types (`SectionType`: the alternatives of Material.hpp 53-87).
  `T.defn.parse` is `tree::Section::parse< MF, MT >`, `T.defn.readSect head mat` is `Type( head, it, end, lineNumber, MAT )`,
  `T.defn.print x mat mf` is `print( it, MAT, MF )`, `T.defn.NC x` is `NC()`.
-/
set_option linter.unusedVariables false
set_option linter.unusedSectionVars false
set_option linter.unusedSimpArgs false
namespace ENDFtk.Props
variable [Disco]

/-! ### C38: the line counter counts lines -/

theorem C38_sections (T : SectionType) (head : Division) (hf : head.base.Fits) (ht : fits 3 head.tail.mt) (mat : Int) :
    CountsLines T.defn.parse ∧ CountsLines (T.defn.readSect head mat) :=
  ⟨countsLines_of_reads (parse_reads T.lawUb), countsLines_of_reads (readSect_reads T.lawUb head hf ht mat)⟩

/-! ### C41: sections round trip -/

/-- A section that was parsed and whose reals survive 11 columns can be printed with any material number; parsing that text (wherever it
    stands) gives the same section and consumes exactly the printed text.  Holds for every section type, except that for 2/151 it needs the
    extra hypothesis of `C41_mf2mt151_partial`. -/
theorem C41_parsed_round_trip (T : SectionType) (hT : T ≠ .mf2mt151) {s s' : St} {x : Sect T.Data} (h : T.defn.parse s = .ok (x, s'))
    (hr : Reps (T.defn.realsSect x)) {mat : Int} (h1 : 1 ≤ mat) (h2 : mat ≤ 9999) :
    ∃ txt, T.defn.print x mat T.defn.mf = .ok txt ∧ ∀ r n, ∃ k, T.defn.parse ⟨txt ++ r, n⟩ = .ok (x, ⟨r, k⟩) := by
  obtain ⟨_, _, _, _, hv, _⟩ := (parse_reads T.lawUb).ok h
  have hs : T.defn.strict = true := by cases T <;> first | rfl | exact absurd rfl hT
  obtain ⟨txt, e1, e2⟩ := sect_round T.lawUb (hv hs) hr h1 (by simp [fits]; omega)
  exact ⟨txt, e1, fun r n => ⟨_, e2 r n⟩⟩

/-- The same for 2/151, provided that each unresolved resonance region is of the case that the isotope's LFW flag announces.  (Missing: the
    code converts L2 of the isotope to `bool` for the flag and to `int` for the case, so that with L2 = 2^32 they disagree:
    `C41_mf2mt151_counterexample`.) -/
theorem C41_mf2mt151_partial {s s' : St} {x : Sect (List Isotope)} (h : mf2mt151.parse s = .ok (x, s'))
    (hl : ∀ i ∈ x.data, ∀ r ∈ i.ranges, r.parameters.lfwOk (ofBool i.lfw))
    (hr : Reps (mf2mt151.realsSect x)) {mat : Int} (h1 : 1 ≤ mat) (h2 : mat ≤ 9999) :
    ∃ txt, mf2mt151.print x mat 2 = .ok txt ∧ ∀ r n, ∃ k, mf2mt151.parse ⟨txt ++ r, n⟩ = .ok (x, ⟨r, k⟩) := by
  obtain ⟨_, _, _, hv, _, _⟩ := (parse_reads mf2mt151_law).ok h
  obtain ⟨txt, e1, e2⟩ := sect_round mf2mt151_law ⟨hv, hl⟩ hr h1 (by simp [fits]; omega)
  exact ⟨txt, e1, fun r n => ⟨_, e2 r n⟩⟩

/-- Any section that satisfies the invariants of its class (`ValidSect`: what the constructors check, and integers that fit their columns)
    round trips, whether it was parsed or made from data. -/
theorem C41_valid_round_trip (T : SectionType) {x : Sect T.Data} (hv : T.defn.ValidSect x)
    (hr : Reps (T.defn.realsSect x)) {mat : Int} (h1 : 1 ≤ mat) (h2 : mat ≤ 9999) :
    ∃ txt, T.defn.print x mat T.defn.mf = .ok txt ∧ ∀ r n, ∃ k, T.defn.parse ⟨txt ++ r, n⟩ = .ok (x, ⟨r, k⟩) := by
  obtain ⟨txt, e1, e2⟩ := sect_round T.lawUb hv hr h1 (by simp [fits]; omega)
  exact ⟨txt, e1, fun r n => ⟨_, e2 r n⟩⟩

/-- Different sections print differently. -/
theorem C41_print_injective (T : SectionType) {x y : Sect T.Data} (hx : T.defn.ValidSect x) (hy : T.defn.ValidSect y)
    (rx : Reps (T.defn.realsSect x)) (ry : Reps (T.defn.realsSect y)) {mat : Int} (h1 : 1 ≤ mat) (h2 : mat ≤ 9999)
    (h : T.defn.print x mat T.defn.mf = T.defn.print y mat T.defn.mf) : x = y := by
  obtain ⟨t1, e1, f1⟩ := C41_valid_round_trip T hx rx h1 h2
  obtain ⟨t2, e2, f2⟩ := C41_valid_round_trip T hy ry h1 h2
  rw [e1, e2] at h
  cases h
  obtain ⟨k1, g1⟩ := f1 [] 0
  obtain ⟨k2, g2⟩ := f2 [] 0
  rw [g1] at g2
  cases g2; rfl

/-- Printing needs a positive MAT and MF: otherwise SEND throws. -/
theorem C41_print_throws (T : SectionType) (x : Sect T.Data) {mat mf : Int} (h : mat < 1 ∨ mf < 1) : T.defn.print x mat mf = .error .exc := by
  unfold SecDef.print SEND
  rcases h with h | h
  · simp [h]
  · by_cases h' : mat < 1 <;> simp [h, h']

/-! ### C42: NC() is the number of lines before SEND -/

/-- A parsed section prints `NC()` lines of 80 columns, each with MAT, MF and MT in columns 67-75, followed by the SEND line. -/
theorem C42_printed_lines (T : SectionType) {s s' : St} {x : Sect T.Data} (h : T.defn.parse s = .ok (x, s'))
    {mat : Int} (h1 : 1 ≤ mat) (h2 : mat ≤ 9999) :
    ∃ ls, T.defn.print x mat T.defn.mf = .ok (unlines (ls ++ [endRecord ⟨mat, T.defn.mf, 0⟩])) ∧ ls.length = T.defn.NC x ∧
      ∀ l ∈ ls, CanonicalLine ⟨mat, T.defn.mf, x.mt⟩ l := by
  obtain ⟨_, _, _, hv, _, _⟩ := (parse_reads T.lawUb).ok h
  exact sect_canon T.lawUb hv h1 (by simp [fits]; omega)

/-- The same for every section that satisfies the invariants of its class. -/
theorem C42_valid_printed_lines (T : SectionType) {x : Sect T.Data} (hv : T.defn.WellFormed x) {mat : Int} (h1 : 1 ≤ mat) (h2 : mat ≤ 9999) :
    ∃ ls, T.defn.print x mat T.defn.mf = .ok (unlines (ls ++ [endRecord ⟨mat, T.defn.mf, 0⟩])) ∧ ls.length = T.defn.NC x ∧
      ∀ l ∈ ls, CanonicalLine ⟨mat, T.defn.mf, x.mt⟩ l :=
  sect_canon T.lawUb hv h1 (by simp [fits]; omega)

/-- Parsing consumes `NC()` lines and SEND. -/
theorem C42_consumed_lines (T : SectionType) {s s' : St} {x : Sect T.Data} (h : T.defn.parse s = .ok (x, s')) :
    ∃ ls, Lines ls s.rest s'.rest ∧ ls.length = T.defn.NC x + 1 ∧ s'.line = s.line + (T.defn.NC x : Int) + 1 := by
  obtain ⟨ls, h1, h2, _, _, hl, rest, _, _, _, _, rfl, _, _, _, _, _, _, mid, e, rfl, _, h3, _⟩ := (parse_reads T.lawUb).ok h
  refine ⟨_, h1, by simp [SecDef.NC, h3], ?_⟩
  rw [h2]; simp [SecDef.NC, h3]; omega

/-! ### C43: the section's own SEND -/

/-- Parsing a section succeeds only if the last line it consumes is a SEND line: six zeros, MT = 0, the MF of the type and the MAT of the HEAD
    line; all lines in between carry that MAT and MF, and the MT of the section (of the HEAD line for 1/452, 1/456 and 7/451). -/
theorem C43_own_send (T : SectionType) {s s' : St} {x : Sect T.Data} (h : T.defn.parse s = .ok (x, s')) :
    ∃ hl mid e mat mf mt, Lines (hl :: mid ++ [e]) s.rest s'.rest ∧ HasTail ⟨mat, mf, mt⟩ hl ∧
      SendLine mat T.defn.mf e ∧ ∀ l ∈ mid, HasTail ⟨mat, T.defn.mf, if T.defn.recHeadMT then mt else x.mt⟩ l := by
  obtain ⟨ls, h1, h2, _, _, hl, rest, hd, mat, mf, mt, rfl, _, k2, _, _, _, _, mid, e, rfl, k3, h3, k4⟩ := (parse_reads T.lawUb).ok h
  exact ⟨hl, mid, e, mat, mf, mt, by simpa using h1, k2, k4, k3⟩

/-- `Type( head, it, end, lineNumber, MAT )` succeeds only if the data are followed by SEND with the given MAT and the MF of the type. -/
theorem C43_own_send_ctor (T : SectionType) {head : Division} {mat : Int} (hf : head.base.Fits) (ht : fits 3 head.tail.mt) {s s' : St}
    {x : Sect T.Data} (h : T.defn.readSect head mat s = .ok (x, s')) :
    ∃ mid e, Lines (mid ++ [e]) s.rest s'.rest ∧ mid.length + 1 = T.defn.NC x ∧ SendLine mat T.defn.mf e := by
  obtain ⟨ls, h1, h2, _, _, _, _, _, _, _, mid, e, rfl, _, h3, k4⟩ := (readSect_reads T.lawUb head hf ht mat).ok h
  exact ⟨mid, e, h1, by simp [SecDef.NC, h3], k4⟩

/-- If the line that should be SEND is not, the text is not accepted: for a section that is correctly printed up to there, `std::exception`
    is thrown. -/
theorem C43_missing_send (T : SectionType) {x : Sect T.Data} (hv : T.defn.ValidSect x) (hr : Reps (T.defn.realsSect x)) {mat : Int} (h1 : 1 ≤ mat)
    (h2 : mat ≤ 9999) {r : Text} (hs : ∀ l, FirstLine l r → ¬ SendLine mat T.defn.mf l) (n : Int) :
    ∃ er, T.defn.parse ⟨T.defn.lines x mat T.defn.mf ++ r, n⟩ = .error er ∧ er.isStd = true := by
  have hf : fits 4 mat := by simp [fits]; omega
  have hD := T.lawUb
  have hm : T.defn.mtOf (T.defn.headDiv x mat) = x.mt := by
    have := hv.1.2.2.2.1
    cases hf : T.defn.fixedMT <;> simp [hf, SecDef.mtOf, SecDef.headDiv] at this ⊢
    exact this.symm
  have hn : T.defn.recNums (T.defn.headDiv x mat) mat = ⟨mat, T.defn.mf, x.mt⟩ := by
    simp [SecDef.recNums, hm]
    simp [SecDef.headDiv]
  have hsend : ∃ er, readSEND mat T.defn.mf ⟨r, n + 1 + (T.defn.nc x.data : Int)⟩ = .error er ∧ StdErr er := by
    cases hp : readSEND mat T.defn.mf ⟨r, n + 1 + (T.defn.nc x.data : Int)⟩ with
    | error er => exact ⟨er, rfl, (readSEND_reads _ _).err hp⟩
    | ok q =>
      obtain ⟨ls, k1, _, l, rfl, k2⟩ := (readSEND_reads _ _).ok hp
      exact absurd k2 (hs l ⟨_, k1⟩)
  obtain ⟨er, e1, e2⟩ := hsend
  refine ⟨catchStd er, ?_, catchStd_std e2⟩
  rw [SecDef.parse, SecDef.lines, List.append_assoc, Parser.bind_ok (readDivision_head hD hv.1 hr h1 hf _ n)]
  show SecDef.readSect _ _ mat _ = _
  unfold SecDef.readSect
  have : ∀ {p : Parser (Sect T.Data)} {s : St}, p s = .error er → Parser.mapErr catchStd p s = .error (catchStd er) := by
    intro p s h; simp [Parser.mapErr, h]
  apply this
  rw [checkHead_headDiv hD hv.1 mat, hn]
  show ((T.defn.read _ _ >>= _) : Parser _) _ = _
  rw [Parser.bind_ok (hD.round (T.defn.headDiv x mat) hv.1.2.2.2.2.2 (hr x.awr (by simp [SecDef.realsSect])) (fun y hy => hr y (by simp [SecDef.realsSect, hy]))
    (t := ⟨mat, T.defn.mf, x.mt⟩) ⟨hf, mf_fits hD, hv.1.2.2.2.2.1⟩ rfl hv.2 _ (n + 1))]
  exact Parser.bind_err e1

/-! ### C44: the identity of a section is checked -/

/-- The types whose constructor compares MAT and MF of the HEAD record with the expected numbers. -/
def headIsChecked : SectionType → Bool
  | .mf1mt455 | .mf2mt151 | .mf2mt152 | .mf7mt2 | .mf7mt4 | .mf7mt451 | .mf8mt454 | .mf8mt457 | .mf8mt459 | .mf9 | .mf10 | .mf12 | .mf13
  | .mf14 | .mf28 => false
  | _ => true

theorem headIsChecked_iff (T : SectionType) : T.defn.checksHead = headIsChecked T := by cases T <;> rfl

/-- A HEAD record with ZA < 1 or AWR < 0 or, for types that store MT, MT < 1 is rejected. -/
theorem C44_bad_values (T : SectionType) {head : Division} {mat : Int} (s : St)
    (h : headZA head < 1 ∨ Disco.ltD head.base.c2 Disco.zero = true ∨ (T.defn.fixedMT = none ∧ head.tail.mt < 1)) :
    T.defn.readSect head mat s = .error .exc := by
  have hb : checkBase (headZA head) head.base.c2 (T.defn.mtCheck head) = .error .exc := by
    unfold checkBase
    split
    · rfl
    · split
      · rfl
      · rcases h with h | h | ⟨h1, h2⟩
        · omega
        · contradiction
        · simp [SecDef.mtCheck, h1]; omega
  have hc : (if T.defn.checksHead then checkHead head mat T.defn.mf (T.defn.mtCheck head) else checkBase (headZA head) head.base.c2 (T.defn.mtCheck head)) = .error .exc := by
    split
    · simp [checkHead, hb]
    · exact hb
  unfold SecDef.readSect
  rw [hc]
  rfl

/-- A HEAD record with another MAT or MF than expected is rejected by the types that compare them. -/
theorem C44_wrong_head_partial (T : SectionType) (hT : headIsChecked T = true) {head : Division} {mat : Int} (s : St)
    (h : head.tail.mat ≠ mat ∨ head.tail.mf ≠ T.defn.mf) : T.defn.readSect head mat s = .error .exc := by
  have hc : (if T.defn.checksHead then checkHead head mat T.defn.mf (T.defn.mtCheck head) else checkBase (headZA head) head.base.c2 (T.defn.mtCheck head)) = .error .exc := by
    rw [headIsChecked_iff, hT, if_pos rfl]
    unfold checkHead
    cases hb : checkBase (headZA head) head.base.c2 (T.defn.mtCheck head) with
    | error e =>
      unfold checkBase at hb
      split at hb
      · cases hb; rfl
      split at hb
      · cases hb; rfl
      split at hb
      · split at hb
        · cases hb; rfl
        · cases hb
      · cases hb
    | ok _ =>
      simp only
      split
      · rfl
      split
      · rfl
      · rcases h with h | h
        · simp_all
        · simp_all
  unfold SecDef.readSect
  rw [hc]
  rfl

/-- What is missing in `C44_wrong_head_partial`: all other types accept a HEAD line with any MF number. -/
theorem C44_head_mf_ignored (T : SectionType) (hT : headIsChecked T = false) {x : Sect T.Data} (hv : T.defn.ValidSect x)
    (hr : Reps (T.defn.realsSect x)) {mat mf : Int} (h1 : 1 ≤ mat) (h2 : mat ≤ 9999) (s : Text) (n : Int) :
    T.defn.readSect ⟨T.defn.headCont x, ⟨mat, mf, x.mt⟩⟩ mat ⟨T.defn.body x.awr x.data ⟨mat, T.defn.mf, x.mt⟩ ++ unlines [endRecord ⟨mat, T.defn.mf, 0⟩] ++ s, n⟩
      = .ok (x, ⟨s, n + (T.defn.NC x : Int)⟩) := by
  rw [← sect_readSect T.lawUb hv hr h1 (by simp [fits]; omega) s n]
  have hr : ∀ mf', T.defn.read ⟨T.defn.headCont x, ⟨mat, mf', x.mt⟩⟩ ⟨mat, T.defn.mf, x.mt⟩
      ⟨T.defn.body x.awr x.data ⟨mat, T.defn.mf, x.mt⟩ ++ unlines [endRecord ⟨mat, T.defn.mf, 0⟩] ++ s, n⟩ =
      .ok (x.data, ⟨unlines [endRecord ⟨mat, T.defn.mf, 0⟩] ++ s, n + (T.defn.nc x.data : Int)⟩) := by
    intro mf'
    rw [List.append_assoc]
    exact T.lawUb.round ⟨T.defn.headCont x, ⟨mat, mf', x.mt⟩⟩ hv.1.2.2.2.2.2 (hr x.awr (by simp [SecDef.realsSect])) (fun y hy => hr y (by simp [SecDef.realsSect, hy]))
      (t := ⟨mat, T.defn.mf, x.mt⟩) ⟨by simp [fits]; omega, mf_fits T.lawUb, hv.1.2.2.2.2.1⟩ rfl hv.2 _ n
  have hm : T.defn.fixedMT.getD x.mt = x.mt := by
    have := hv.1.2.2.2.1
    cases hf : T.defn.fixedMT <;> simp [hf] at this ⊢
    exact this.symm
  have hn : ∀ mf', T.defn.recNums ⟨T.defn.headCont x, ⟨mat, mf', x.mt⟩⟩ mat = ⟨mat, T.defn.mf, x.mt⟩ := by
    intro mf'
    simp [SecDef.recNums, SecDef.mtOf, hm]
  unfold SecDef.readSect SecDef.headDiv
  rw [headIsChecked_iff, hT, hn, hn]
  simp only [Parser.mapErr, SecDef.mtOf, SecDef.mtCheck, headZA, hm]
  congr 1
  cases hb : checkBase (toInt32 (Disco.round (T.defn.headCont x).c1)) (T.defn.headCont x).c2 (if T.defn.fixedMT.isSome then none else some x.mt) with
  | error e => rfl
  | ok u =>
    show ((T.defn.read _ _ >>= _) : Parser _) _ = ((T.defn.read _ _ >>= _) : Parser _) _
    rw [Parser.bind_ok (hr mf), Parser.bind_ok (hr T.defn.mf)]

/-- Also missing: 1/452 and 1/456 accept each other's text. -/
theorem C44_nubar_mt_ignored {s s' : St} {x : Sect Nubar} (h : (mf1nubar 456).parse s = .ok (x, s')) :
    (mf1nubar 452).parse s = .ok ({ x with mt := 452 }, s') := by
  have key : ∀ (mt : Int) (head : Division) (st : St), (mf1nubar mt).readSect head head.tail.mat st =
      (Parser.mapErr catchStd (do
        liftE (checkHead head head.tail.mat 1 none)
        let b ← Nubar.read head.base.l2 ⟨head.tail.mat, 1, head.tail.mt⟩
        readSEND head.tail.mat 1
        pure b) st).map (fun r => (⟨headZA head, head.base.c2, mt, r.1⟩, r.2)) := by
    intro mt head st
    simp only [SecDef.readSect, mf1nubar, SecDef.mtCheck, SecDef.recNums, SecDef.mtOf, Parser.mapErr]
    simp only [Option.isSome_some, if_true, Option.getD_some, Bool.false_eq_true, if_false]
    cases checkHead head head.tail.mat 1 none with
    | error e => rfl
    | ok u =>
      simp only [liftE, Parser.bind_run, Parser.pure_run]
      cases Nubar.read head.base.l2 ⟨head.tail.mat, 1, head.tail.mt⟩ st with
      | error e => rfl
      | ok q =>
        obtain ⟨b, s2⟩ := q
        simp only
        cases readSEND head.tail.mat 1 s2 with
        | error e => rfl
        | ok q => rfl
  unfold SecDef.parse at h ⊢
  simp only [Parser.bind_run] at h ⊢
  cases hd : readDivision s with
  | error e => rw [hd] at h; cases h
  | ok q =>
    obtain ⟨head, s1⟩ := q
    rw [hd] at h
    simp only at h ⊢
    rw [key] at h ⊢
    revert h
    generalize Parser.mapErr catchStd _ s1 = z
    intro h
    cases z with
    | error e => cases h
    | ok q => simp only [Except.map, Except.ok.injEq, Prod.mk.injEq] at h ⊢; obtain ⟨rfl, rfl⟩ := h; exact ⟨rfl, rfl⟩

omit [Disco] in
/-- The first lines of a text. -/
theorem linesSplit {ls ms : List Text} {s r : Text} (h : Lines (ls ++ ms) s r) : ∃ q, Lines ls s q := by
  induction ls generalizing s with
  | nil => exact ⟨s, .nil s⟩
  | cons a ls ih =>
    generalize e : a :: ls ++ ms = k at h
    cases h with
    | nil => simp at e
    | cons hl h' =>
      simp only [List.cons_append, List.cons.injEq] at e
      obtain ⟨rfl, rfl⟩ := e
      obtain ⟨q, hq⟩ := ih h'
      exact ⟨q, .cons hl hq⟩
    | last hl hne =>
      simp only [List.cons_append, List.cons.injEq, List.append_eq_nil_iff] at e
      obtain ⟨rfl, rfl, rfl⟩ := e
      exact ⟨[], .last hl hne⟩

/-! ### C36: negative counts in MT451 -/

/-- NWD and NXC stand in columns 45-55 and 56-66 of the fourth line of the section. -/
theorem C36_mt451 {s : St} {l0 l1 l2 l3 r : Text} {nwd nxc : Int} (hl : Lines [l0, l1, l2, l3] s.rest r)
    (hw : parseInt (cols 45 55 l3) = some nwd) (hx : parseInt (cols 56 66 l3) = some nxc) (h : nwd < 0 ∨ nxc < 1) :
    ∃ er, mf1mt451.parse s = .error er ∧ er.isStd = true := by
  cases hp : mf1mt451.parse s with
  | error er => exact ⟨er, rfl, (parse_reads mf1mt451_law).err hp⟩
  | ok q =>
    exfalso
    have key : Reads StdErr (fun (_ : Sect Info451) ls => ∃ a b c d rest cont, ls = a :: b :: c :: d :: rest ∧ ShowsCont cont d ∧ 0 ≤ cont.n1 ∧ 1 ≤ cont.n2)
        mf1mt451.parse := by
      refine Reads.bind readDivision_reads ?_
      rintro d ls ⟨l, rfl, -⟩
      unfold SecDef.readSect
      refine Reads.mapErr (E := StdErr) ?_ (fun e => catchStd_std)
      refine Reads.bind (Q := fun _ ls => ls = []) (Reads.liftE (fun a h => rfl) ?_) ?_
      · intro e h
        have : e = .exc := by
          unfold checkHead checkBase at h
          grind
        rw [this]; rfl
      · rintro _ _ rfl
        refine Reads.bind (Q := fun _ ls => ∃ b c d rest cont, ls = b :: c :: d :: rest ∧ ShowsCont cont d ∧ 0 ≤ cont.n1 ∧ 1 ≤ cont.n2) ?_ ?_
        · show Reads _ _ (Info451.read _ _)
          unfold Info451.read Info451.readParameters
          refine Reads.bind (Q := fun p ls => ∃ b c d, ls = [b, c, d] ∧ ShowsCont p.2.2 d ∧ 0 ≤ p.2.2.n1 ∧ 1 ≤ p.2.2.n2) ?_ ?_
          · refine Reads.bind (readCont_reads _) ?_
            rintro c1 _ ⟨k1, rfl, -⟩
            refine Reads.bind (readCont_reads _) ?_
            rintro c2 _ ⟨k2, rfl, -⟩
            refine Reads.bind (readCont_reads _) ?_
            rintro c3 _ ⟨k3, rfl, hs, -⟩
            refine Reads.ite (fun _ => Reads.fail rfl) fun g1 => Reads.ite (fun _ => Reads.fail rfl) fun g2 => Reads.pure ?_
            exact ⟨k1, k2, k3, by simp, hs, by simpa using g1, by simp only; omega⟩
          · rintro p _ ⟨b, c, d, rfl, hs, g1, g2⟩
            refine Reads.bind (Q := fun _ _ => True) ?_ ?_
            · exact (readSequence_reads (E := StdErr) rfl (readText_reads _) _).post (fun _ _ _ => trivial)
            rintro _ ls1 -
            refine Reads.bind (Q := fun _ _ => True) ?_ ?_
            · exact (readSequence_reads (E := StdErr) rfl (readDir_reads _) _).post (fun _ _ _ => trivial)
            rintro _ ls2 -
            exact Reads.pure ⟨b, c, d, ls1 ++ (ls2 ++ []), p.2.2, by simp, hs, g1, g2⟩
        · rintro b _ ⟨l1, l2, l3, rest, cont, rfl, hs, g1, g2⟩
          refine Reads.bind (readSEND_reads _ _) ?_
          rintro _ ls -
          exact Reads.pure ⟨l, l1, l2, l3, rest ++ (ls ++ []), cont, by simp, hs, g1, g2⟩
    obtain ⟨ls, k1, -, a, b, c, d, rest, cont, rfl, hs, g1, g2⟩ := key.ok hp
    obtain ⟨q, k2⟩ : ∃ q, Lines [a, b, c, d] s.rest q := linesSplit (ls := [a, b, c, d]) (ms := rest) k1
    have := hl.unique k2 rfl
    obtain ⟨e, -⟩ := this
    simp only [List.cons.injEq] at e
    obtain ⟨-, -, -, rfl, -⟩ := e
    rw [hs.2.2.2.2.1] at hw
    rw [hs.2.2.2.2.2] at hx
    cases hw; cases hx
    omega

/-! ### C49: sections fail cleanly -/

/-- For all types but 2/151, 2/152, 6, 7/4, 7/451, 8/454, 8/457, 8/459, 12, 26, 28, 31, 33, 34, 35 and 40 every text is either parsed or `std::exception` is thrown. -/
theorem C49_std_only_partial (T : SectionType) (hT : T.clean = true) {s : St} {er : Err} (h : T.defn.parse s = .error er) : er.isStd = true :=
  (parse_reads (T.lawStd hT)).err h

/-- For those the only other possibility is that the precondition of a library function is violated (undefined behaviour in C++); none of the
    internal exceptions (`int`, IllegalN2, InconsistentN2) escapes. -/
theorem C49_std_or_ub (T : SectionType) {s : St} {er : Err} (h : T.defn.parse s = .error er) : er.isStd = true ∨ er = .ub :=
  (parse_reads T.lawUb).err h

end ENDFtk.Props

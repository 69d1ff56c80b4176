import Verif.Format.Echo2
import Verif.Props.Sections
/-
  C51, C52: which texts are sections.  `Fmt.body` (Verif/Format/Spec.lean) describes the formats of all section types as sequences of records,
  `Fmt.printed` (Verif/Format/Print.lean) what is printed.
-/
set_option linter.unusedVariables false
set_option linter.unusedSectionVars false
set_option linter.unusedSimpArgs false
namespace ENDFtk.Props
variable [Disco]

/-! ### C51: the format of a section -/

/-- After the HEAD record `head`, `Type( head, it, end, lineNumber, MAT )` succeeds exactly if the HEAD record is accepted and there is a sequence of records
    that have the numbers of the section, has the format of the section type and is followed by SEND; the members of the object are the fields of these records. -/
theorem C51_accepts (T : SectionType) (head : Division) (mat : Int) (s : St) (x : Sect T.Data) (s' : St) :
    T.defn.readSect head mat s = .ok (x, s') ↔
      Fmt.headOk T head mat ∧ x.za = headZA head ∧ x.awr = head.base.c2 ∧ x.mt = Fmt.mt T head ∧
      ∃ rs s1, Recs (Fmt.recNums T head mat) rs s s1 ∧ Fmt.body T head.base (Fmt.recNums T head mat).mt x.data rs ∧
        Fmt.sendAt mat (Fmt.numbers T).1 s1 s' :=
  readSect_iff T head mat s x s'

/-- The same for a section from its first line on (`tree::Section::parse`): the MAT number is the one of the HEAD record. -/
theorem C51_parse (T : SectionType) (s : St) (x : Sect T.Data) (s' : St) :
    T.defn.parse s = .ok (x, s') ↔ ∃ head s0, readDivision s = .ok (head, s0) ∧
      Fmt.headOk T head head.tail.mat ∧ x.za = headZA head ∧ x.awr = head.base.c2 ∧ x.mt = Fmt.mt T head ∧
      ∃ rs s1, Recs (Fmt.recNums T head head.tail.mat) rs s0 s1 ∧ Fmt.body T head.base (Fmt.recNums T head head.tail.mat).mt x.data rs ∧
        Fmt.sendAt head.tail.mat (Fmt.numbers T).1 s1 s' := by
  unfold SecDef.parse
  rw [Parser.bind_eq_ok]
  constructor
  · rintro ⟨head, s0, h1, h2⟩; exact ⟨head, s0, h1, (readSect_iff T head _ s0 x s').mp h2⟩
  · rintro ⟨head, s0, h1, h2⟩; exact ⟨head, s0, h1, (readSect_iff T head _ s0 x s').mpr h2⟩

/-- What `print( it, MAT, MF )` writes: the HEAD record with the flags and counts, the records, SEND. -/
theorem C51_prints (T : SectionType) (x : Sect T.Data) (h : T.defn.Valid x.data) {mat mf : Int} (h1 : 1 ≤ mat) (h2 : mat ≤ 9999) (h3 : 1 ≤ mf) (h4 : mf ≤ 99) :
    T.defn.print x mat mf = .ok (printRecs (Fmt.printed T x) ⟨mat, mf, x.mt⟩ ++ unlines [endRecord ⟨mat, mf, 0⟩]) := by
  have ht : Nums.Fit ⟨mat, mf, 0⟩ := ⟨by simp [fits]; omega, by simp [fits]; omega, fits_zero 2⟩
  unfold SecDef.print SEND
  rw [if_neg (by omega), if_neg (by omega), lines_eq T x h, ← printEnd_eq ht (by simp [Division.isHead])]

/-- In particular everything that was parsed is printed that way. -/
theorem C51_prints_parsed (T : SectionType) {s s' : St} {x : Sect T.Data} (h : T.defn.parse s = .ok (x, s'))
    {mat mf : Int} (h1 : 1 ≤ mat) (h2 : mat ≤ 9999) (h3 : 1 ≤ mf) (h4 : mf ≤ 99) :
    T.defn.print x mat mf = .ok (printRecs (Fmt.printed T x) ⟨mat, mf, x.mt⟩ ++ unlines [endRecord ⟨mat, mf, 0⟩]) := by
  obtain ⟨_, _, _, hv, _, _⟩ := (parse_reads T.lawUb).ok h
  exact C51_prints T x hv.2.2.2.2.2 h1 h2 h3 h4

/-! ### C52: the records that are printed are those that were read -/

/-- For most of the section types the records printed between HEAD and SEND are exactly the ones that were read. -/
theorem C52_same_records (T : SectionType) (hT : Fmt.exact T) {s s' : St} {x : Sect T.Data} (h : T.defn.parse s = .ok (x, s')) :
    ∃ head s0 s1, readDivision s = .ok (head, s0) ∧ Recs (Fmt.recNums T head head.tail.mat) (Fmt.records T x.awr x.data) s0 s1 ∧
      Fmt.sendAt head.tail.mat (Fmt.numbers T).1 s1 s' := by
  obtain ⟨head, s0, h0, -, -, -, -, rs, s1, hr, hb, hs⟩ := (C51_parse T s x s').mp h
  rw [records_exact T hT x.awr _ _ _ _ hb] at hr
  exact ⟨head, s0, s1, h0, hr, hs⟩

/-- Except for 1/458 (where the order can change) and 2/151 (where it can change as well), all records but CONT records are printed as they were read, CONT
    records are printed in the same places. -/
theorem C52_same_data_records (T : SectionType) (hT : Fmt.exactUpToCont T) {s s' : St} {x : Sect T.Data} (h : T.defn.parse s = .ok (x, s')) :
    ∃ head s0 s1 rs, readDivision s = .ok (head, s0) ∧ Recs (Fmt.recNums T head head.tail.mat) rs s0 s1 ∧
      Fmt.sendAt head.tail.mat (Fmt.numbers T).1 s1 s' ∧ Fmt.Same rs (Fmt.records T x.awr x.data) := by
  obtain ⟨head, s0, h0, -, -, -, -, rs, s1, hr, hb, hs⟩ := (C51_parse T s x s').mp h
  exact ⟨head, s0, s1, rs, h0, hr, hs, records_same T hT x.awr _ _ _ _ hb⟩

/-- 1/458: the records printed are those that were read, in the order of IFC. -/
theorem C52_same_records_458 {s s' : St} {x : Sect Release} (h : mf1mt458.parse s = .ok (x, s')) :
    ∃ head s0 s1 rs, readDivision s = .ok (head, s0) ∧ Recs (Fmt.recNums .mf1mt458 head head.tail.mat) rs s0 s1 ∧
      Fmt.sendAt head.tail.mat 1 s1 s' ∧ rs.Perm (Fmt.records .mf1mt458 x.awr x.data) := by
  obtain ⟨head, s0, h0, -, -, -, -, rs, s1, hr, hb, hs⟩ := (C51_parse .mf1mt458 s x s').mp h
  exact ⟨head, s0, s1, rs, h0, hr, hs, release_perm hb⟩

/-- For every section type: as many records are printed as were read, none is lost and none is added; they are the same up to their order, apart from CONT
    records, and LIST records may be printed with L1, L2 and N2 equal to zero. -/
theorem C52_no_record_lost (T : SectionType) {s s' : St} {x : Sect T.Data} (h : T.defn.parse s = .ok (x, s')) :
    ∃ head s0 s1 rs, readDivision s = .ok (head, s0) ∧ Recs (Fmt.recNums T head head.tail.mat) rs s0 s1 ∧
      Fmt.sendAt head.tail.mat (Fmt.numbers T).1 s1 s' ∧ Fmt.Rearranged rs (Fmt.records T x.awr x.data) ∧
      rs.length = (Fmt.records T x.awr x.data).length := by
  obtain ⟨head, s0, h0, -, -, -, -, rs, s1, hr, hb, hs⟩ := (C51_parse T s x s').mp h
  have hre := records_rearranged T x.awr _ _ _ _ hb
  exact ⟨head, s0, s1, rs, h0, hr, hs, hre, hre.length⟩

/-- An instance of the theorem: a section of file 3 is HEAD, a TAB1 record, SEND. -/
example (s s' : St) (x : Sect TAB1) : mf3.parse s = .ok (x, s') ↔ ∃ head s0, readDivision s = .ok (head, s0) ∧
    (1 ≤ headZA head ∧ Disco.ltD head.base.c2 Disco.zero = false ∧ 1 ≤ head.tail.mt ∧ head.tail.mf = 3) ∧
    x.za = headZA head ∧ x.awr = head.base.c2 ∧ x.mt = head.tail.mt ∧
    ∃ s1, readTAB1 ⟨head.tail.mat, 3, head.tail.mt⟩ s0 = .ok (x.data, s1) ∧ Fmt.sendAt head.tail.mat 3 s1 s' := by
  rw [show mf3.parse s = .ok (x, s') ↔ _ from C51_parse .mf3 s x s']
  constructor
  · rintro ⟨head, s0, h0, ⟨a, b, c, d⟩, h2, h3, h4, rs, s1, hr, hb, hs⟩
    cases (hb : rs = [.tab1 x.data])
    exact ⟨head, s0, h0, ⟨a, b, c rfl, (d trivial).2⟩, h2, h3, h4, s1, recs_singleton.mp hr, hs⟩
  · rintro ⟨head, s0, h0, ⟨a, b, c, d⟩, h2, h3, h4, s1, hr, hs⟩
    exact ⟨head, s0, h0, ⟨a, b, fun _ => c, fun _ => ⟨rfl, d⟩⟩, h2, h3, h4, [.tab1 x.data], s1, recs_singleton.mpr hr, rfl, hs⟩

end ENDFtk.Props

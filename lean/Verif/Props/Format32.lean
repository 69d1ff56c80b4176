import Verif.Format.Print32
import Verif.Props.ResCovExamples
/-
  C58: which texts are sections 32/151.  `Fmt32.body` (Verif/Format/Spec32.lean) describes the format as a sequence of records, `Fmt32.printed` what is printed.
-/
set_option linter.unusedVariables false
set_option linter.unusedSectionVars false
set_option linter.unusedSimpArgs false
set_option maxRecDepth 100000
namespace ENDFtk.Props
section
variable [Disco] [CorrOps]

/-- After the HEAD record `head`, `Type< 32, 151 >( head, it, end, lineNumber, MAT )` succeeds exactly if ZA >= 1 and AWR is not negative, and there is a sequence
    of records with the numbers of the section that has the format and is followed by SEND; the members of the object are the fields of these records.
    (The MAT, MF and MT numbers of the HEAD record are not looked at.) -/
theorem C58_accepts (head : Division) (mat : Int) (s : St) (x : Sect (List CovIsotope)) (s' : St) :
    mf32mt151.readSect head mat s = .ok (x, s') ↔
      (1 ≤ headZA head ∧ Disco.ltD head.base.c2 Disco.zero = false) ∧ x.za = headZA head ∧ x.awr = head.base.c2 ∧ x.mt = 151 ∧
      ∃ rs s1, Recs32 ⟨mat, 32, 151⟩ rs s s1 ∧ Fmt32.body head.base x.data rs ∧ Fmt.sendAt mat 32 s1 s' :=
  readSect32_iff head mat s x s'

/-- The same for a section from its first line on (`tree::Section::parse< 32, 151 >`): the MAT number is the one of the HEAD record. -/
theorem C58_parse (s : St) (x : Sect (List CovIsotope)) (s' : St) :
    mf32mt151.parse s = .ok (x, s') ↔ ∃ head s0, readDivision s = .ok (head, s0) ∧
      (1 ≤ headZA head ∧ Disco.ltD head.base.c2 Disco.zero = false) ∧ x.za = headZA head ∧ x.awr = head.base.c2 ∧ x.mt = 151 ∧
      ∃ rs s1, Recs32 ⟨head.tail.mat, 32, 151⟩ rs s0 s1 ∧ Fmt32.body head.base x.data rs ∧ Fmt.sendAt head.tail.mat 32 s1 s' := by
  unfold SecDef.parse
  rw [Parser.bind_eq_ok]
  constructor
  · rintro ⟨head, s0, h1, h2⟩; exact ⟨head, s0, h1, (readSect32_iff head _ s0 x s').mp h2⟩
  · rintro ⟨head, s0, h1, h2⟩; exact ⟨head, s0, h1, (readSect32_iff head _ s0 x s').mpr h2⟩

/-- What `print( it, MAT, MF )` writes, for every object: the HEAD record with NIS, the records, SEND. -/
theorem C58_prints (x : Sect (List CovIsotope)) {mat mf : Int} (h1 : 1 ≤ mat) (h2 : mat ≤ 9999) (h3 : 1 ≤ mf) (h4 : mf ≤ 99) :
    mf32mt151.print x mat mf = .ok (Fmt32.printRecs (Fmt32.printed x) ⟨mat, mf, x.mt⟩ ++ unlines [endRecord ⟨mat, mf, 0⟩]) := by
  have ht : Nums.Fit ⟨mat, mf, 0⟩ := ⟨by simp [fits]; omega, by simp [fits]; omega, fits_zero 2⟩
  unfold SecDef.print SEND
  rw [if_neg (by omega), if_neg (by omega), lines32_eq, ← printEnd_eq ht (by simp [Division.isHead])]

/-- The matrices, LIST records and so on that are printed for a section that was read are those that were read, in the same order, with CONT records in the same
    places. -/
theorem C58_same_data_records {s s' : St} {x : Sect (List CovIsotope)} (h : mf32mt151.parse s = .ok (x, s')) :
    ∃ head s0 s1 rs, readDivision s = .ok (head, s0) ∧ Recs32 ⟨head.tail.mat, 32, 151⟩ rs s0 s1 ∧ Fmt.sendAt head.tail.mat 32 s1 s' ∧
      Fmt32.Same (.plain (.cont head.base) :: rs) (Fmt32.printed x) := by
  obtain ⟨head, s0, h0, -, -, -, -, rs, s1, hr, hb, hs⟩ := (C58_parse s x s').mp h
  exact ⟨head, s0, s1, rs, h0, hr, hs, .cont (body32_same hb)⟩

end

/-! ### The statements are not vacuous: texts of all types of parameters have the format -/
section
attribute [local instance] concDisco concCorr

theorem roundTrips32_format {mat : Int} {k : Nat} {s : Text} (h : RoundTrips32 mat k s) :
    ∃ x s' head s0 rs s1, readDivision ⟨s, 0⟩ = .ok (head, s0) ∧ 1 ≤ headZA head ∧ Recs32 ⟨head.tail.mat, 32, 151⟩ rs s0 s1 ∧
      Fmt32.body head.base x rs ∧ Fmt.sendAt head.tail.mat 32 s1 s' ∧ s'.rest = [] := by
  unfold RoundTrips32 at h
  cases hp : mf32mt151.parse ⟨s, 0⟩ with
  | error e => rw [hp] at h; exact h.elim
  | ok r =>
    obtain ⟨x, s'⟩ := r
    rw [hp] at h
    obtain ⟨head, s0, h0, h1, -, -, -, rs, s1, hr, hb, hs⟩ := (C58_parse _ x s').mp hp
    exact ⟨x.data, s', head, s0, rs, s1, h0, h1.1, hr, hb, hs, h.1⟩

example := roundTrips32_format LimitedSingleLevelBreitWigner_section
example := roundTrips32_format GeneralSingleLevelBreitWigner_section

/-- A text that is rejected does not have the format. -/
theorem rejected32_format {s : Text} (h : Rejected32 s) : ¬ ∃ x s' head s0 rs s1, readDivision ⟨s, 0⟩ = .ok (head, s0) ∧
    (1 ≤ headZA head ∧ Disco.ltD head.base.c2 Disco.zero = false) ∧ Recs32 ⟨head.tail.mat, 32, 151⟩ rs s0 s1 ∧
      Fmt32.body head.base x rs ∧ Fmt.sendAt head.tail.mat 32 s1 s' := by
  rintro ⟨x, s', head, s0, rs, s1, h0, h1, hr, hb, hs⟩
  have := (C58_parse ⟨s, 0⟩ ⟨headZA head, head.base.c2, 151, x⟩ s').mpr ⟨head, s0, h0, h1, rfl, rfl, rfl, rs, s1, hr, hb, hs⟩
  unfold Rejected32 at h
  rw [this] at h
  exact h

example := rejected32_format wrong_size

end
end ENDFtk.Props

import Verif.Props.Format
import Verif.Props.SectionExamples
/-
  C51, C52 for the texts of the unit tests.
-/
set_option linter.unusedVariables false
set_option maxRecDepth 100000
namespace ENDFtk.Props
attribute [local instance] concDisco

/-- The texts of the unit tests (`RoundTrips`, all section types) have the format: the statements are not vacuous. -/
theorem roundTrips_format {T : SectionType} {mat : Int} {s : Text} (h : RoundTrips T mat s) :
    ∃ x s' head s0 rs s1, readDivision ⟨s, 0⟩ = .ok (head, s0) ∧ Fmt.headOk T head head.tail.mat ∧ Recs (Fmt.recNums T head head.tail.mat) rs s0 s1 ∧
      Fmt.body T head.base (Fmt.recNums T head head.tail.mat).mt x rs ∧ Fmt.sendAt head.tail.mat (Fmt.numbers T).1 s1 s' ∧ s'.rest = [] := by
  unfold RoundTrips at h
  cases hp : T.defn.parse ⟨s, 0⟩ with
  | error e => rw [hp] at h; exact h.elim
  | ok r =>
    obtain ⟨x, s'⟩ := r
    rw [hp] at h
    obtain ⟨head, s0, h0, h1, -, -, -, rs, s1, hr, hb, hs⟩ := (C51_parse T _ x s').mp hp
    exact ⟨x.data, s', head, s0, rs, s1, h0, h1, hr, hb, hs, h.1⟩

example := roundTrips_format mf1mt458_chunkLFC1

example := roundTrips_format mf2mt151_chunkResolvedRM

/-- A text that the unit tests expect to be rejected does not have the format. -/
theorem rejected_format {T : SectionType} {s : Text} (h : Rejected T s) : ¬ ∃ x s' head s0 rs s1, readDivision ⟨s, 0⟩ = .ok (head, s0) ∧
    Fmt.headOk T head head.tail.mat ∧ Recs (Fmt.recNums T head head.tail.mat) rs s0 s1 ∧
      Fmt.body T head.base (Fmt.recNums T head head.tail.mat).mt x rs ∧ Fmt.sendAt head.tail.mat (Fmt.numbers T).1 s1 s' := by
  rintro ⟨x, s', head, s0, rs, s1, h0, h1, hr, hb, hs⟩
  have := (C51_parse T ⟨s, 0⟩ ⟨headZA head, head.base.c2, Fmt.mt T head, x⟩ s').mpr ⟨head, s0, h0, h1, rfl, rfl, rfl, rs, s1, hr, hb, hs⟩
  unfold Rejected at h
  rw [this] at h
  exact h

example := rejected_format mf1mt458_invalidNFC

/-- 2/151: two background R-matrices are printed in the order of the channels, whatever the order in which they were read: the records read and those printed
    differ in their order. -/
example (a b : LIST) : Fmt.spinGroupP ((a, b), [some .none, some .none]) =
    [.list a, .list b, .cont ⟨Disco.zero, Disco.zero, 1, 0, 0, 0⟩, .cont ⟨Disco.zero, Disco.zero, 2, 0, 0, 0⟩] := rfl

/-- Accepted as a section, and printed as another text. -/
def PrintsAs (T : SectionType) (mat : Int) (s s' : Text) : Prop :=
  match T.defn.parse ⟨s, 0⟩ with
  | .ok (x, _) => T.defn.print x mat T.defn.mf = .ok s'
  | .error _ => False

instance (T : SectionType) (mat : Int) (s s' : Text) : Decidable (PrintsAs T mat s s') := by
  unfold PrintsAs; split <;> exact inferInstance

/-- The claim that a parsed section is printed with its records in the order in which they were read is false for 1/458: components of the energy release
    given for IFC = 9 and IFC = 1 are printed in the other order. -/
theorem C52_order_changes : PrintsAs .mf1mt458 9228
    (txt
    " 9.223500+4 2.330248+2          0          1          0          29228 1458     \n"
    " 0.000000+0 0.000000+0          0          0         18          99228 1458     \n"
    " 1.691300+8 4.900000+5 4.838000+6 7.000000+4 7.400000+3 1.110000+39228 1458     \n"
    " 6.600000+6 5.000000+5 6.330000+6 5.000000+4 6.500000+6 5.100000+49228 1458     \n"
    " 8.750000+6 7.000000+4 1.934054+8 1.500000+5 2.021554+8 1.300000+59228 1458     \n"
    " 0.000000+0 0.000000+0          2          9          1          49228 1458     \n"
    "          4          2                                            9228 1458     \n"
    " 1.000000-5 2.021554+8 2.530000-2 3.000000+8 1.000000+6 2.500000+89228 1458     \n"
    " 2.000000+7 1.500000+8                                            9228 1458     \n"
    " 0.000000+0 0.000000+0          1          1          1          39228 1458     \n"
    "          3          2                                            9228 1458     \n"
    " 1.000000-5 1.691300+8 2.530000-2 1.691000+8 2.000000+7 1.690000+89228 1458     \n"
    "                                                                  9228 1  0     \n")
    (txt
    " 9.223500+4 2.330248+2          0          1          0          29228 1458     \n"
    " 0.000000+0 0.000000+0          0          0         18          99228 1458     \n"
    " 1.691300+8 4.900000+5 4.838000+6 7.000000+4 7.400000+3 1.110000+39228 1458     \n"
    " 6.600000+6 5.000000+5 6.330000+6 5.000000+4 6.500000+6 5.100000+49228 1458     \n"
    " 8.750000+6 7.000000+4 1.934054+8 1.500000+5 2.021554+8 1.300000+59228 1458     \n"
    " 0.000000+0 0.000000+0          1          1          1          39228 1458     \n"
    "          3          2                                            9228 1458     \n"
    " 1.000000-5 1.691300+8 2.530000-2 1.691000+8 2.000000+7 1.690000+89228 1458     \n"
    " 0.000000+0 0.000000+0          2          9          1          49228 1458     \n"
    "          4          2                                            9228 1458     \n"
    " 1.000000-5 2.021554+8 2.530000-2 3.000000+8 1.000000+6 2.500000+89228 1458     \n"
    " 2.000000+7 1.500000+8                                            9228 1458     \n"
    "                                                                  9228 1  0     \n") := by decide +kernel

end ENDFtk.Props

import Verif.Props.Sections
import Verif.Props.RecordsExamples
import Verif.Txt
/-
  Concrete sections: the texts used by the unit tests in /repo/src/ENDFtk/section/*/test are parsed by the model, completely consumed, have
  reals that survive 11 columns, and are printed as the same text; the texts the unit tests expect to be rejected are rejected.  They show that the
  hypotheses of the theorems in `Verif/Props/Sections.lean` are met for every section type.  (Generated from the test files.)
-/
set_option linter.unusedVariables false
set_option maxRecDepth 100000
namespace ENDFtk.Props
attribute [local instance] concDisco

/-- Parsed, completely consumed, the line counter counts, the reals survive, printed as the same text. -/
def RoundTrips (T : SectionType) (mat : Int) (s : Text) : Prop :=
  match T.defn.parse ⟨s, 0⟩ with
  | .ok (x, st) => st.rest = [] ∧ st.line = T.defn.NC x + 1 ∧ Reps (T.defn.realsSect x) ∧ T.defn.print x mat T.defn.mf = .ok s
  | .error _ => False

instance (T : SectionType) (mat : Int) (s : Text) : Decidable (RoundTrips T mat s) := by
  unfold RoundTrips; split <;> exact inferInstance

/-- Rejected with `std::exception`. -/
def Rejected (T : SectionType) (s : Text) : Prop :=
  match T.defn.parse ⟨s, 0⟩ with
  | .ok _ => False
  | .error e => e.isStd = true

instance (T : SectionType) (s : Text) : Decidable (Rejected T s) := by
  unfold Rejected; split <;> exact inferInstance

theorem mf1mt451_chunk : RoundTrips .mf1mt451 125 (txt
    " 1.001000+3 9.991673-1          1          2          3          4 125 1451     \n"
    " 5.000000+0 6.000000+0          7          8          0         12 125 1451     \n"
    " 1.300000+1 1.400000+1         15          0         17         18 125 1451     \n"
    " 1.900000+1 0.000000+0         21          0          9         10 125 1451     \n"
    "  1-H -  1 LANL       EVAL-JUL16 G.M.Hale                          125 1451     \n"
    "                      DIST-JAN17                       20170124    125 1451     \n"
    "----ENDF/B-VIII.0     MATERIAL  125                                125 1451     \n"
    "-----INCIDENT NEUTRON DATA                                         125 1451     \n"
    "------ENDF-6 FORMAT                                                125 1451     \n"
    "                                                                   125 1451     \n"
    " ****************************************************************  125 1451     \n"
    "                                                                   125 1451     \n"
    " ****************************************************************  125 1451     \n"
    "                                1        451        101          5 125 1451     \n"
    "                                2        151          4          0 125 1451     \n"
    "                                3          1         54          4 125 1451     \n"
    "                                3          2         54          4 125 1451     \n"
    "                                3        102         54          5 125 1451     \n"
    "                                4          2        310          4 125 1451     \n"
    "                                6        102        315          4 125 1451     \n"
    "                               33          1          5          5 125 1451     \n"
    "                               33          2         21          5 125 1451     \n"
    "                               33        102         21          5 125 1451     \n"
    "                                                                   125 1  0     \n") := by decide +kernel

theorem mf1mt451_chunk_wrongSEND : Rejected .mf1mt451 (txt
    " 1.001000+3 9.991673-1          1          2          3          4 125 1451     \n"
    " 5.000000+0 6.000000+0          7          8          0         12 125 1451     \n"
    " 1.300000+1 1.400000+1         15          0         17         18 125 1451     \n"
    " 1.900000+1 0.000000+0         21          0          9         10 125 1451     \n"
    "  1-H -  1 LANL       EVAL-JUL16 G.M.Hale                          125 1451     \n"
    "                      DIST-JAN17                       20170124    125 1451     \n"
    "----ENDF/B-VIII.0     MATERIAL  125                                125 1451     \n"
    "-----INCIDENT NEUTRON DATA                                         125 1451     \n"
    "------ENDF-6 FORMAT                                                125 1451     \n"
    "                                                                   125 1451     \n"
    " ****************************************************************  125 1451     \n"
    "                                                                   125 1451     \n"
    " ****************************************************************  125 1451     \n"
    "                                1        451        101          5 125 1451     \n"
    "                                2        151          4          0 125 1451     \n"
    "                                3          1         54          4 125 1451     \n"
    "                                3          2         54          4 125 1451     \n"
    "                                3        102         54          5 125 1451     \n"
    "                                4          2        310          4 125 1451     \n"
    "                                6        102        315          4 125 1451     \n"
    "                               33          1          5          5 125 1451     \n"
    "                               33          2         21          5 125 1451     \n"
    "                               33        102         21          5 125 1451     \n"
    "                                                                   125 1  1     \n") := by decide +kernel

theorem mf1mt451_invalidNWD : Rejected .mf1mt451 (txt
    " 1.001000+3 9.991673-1          0          0          0          5 125 1451     \n"
    " 0.000000+0 0.000000+0          0          0          0          6 125 1451     \n"
    " 1.000000+0 2.000000+7          0          0         10          8 125 1451     \n"
    " 0.000000+0 0.000000+0          0          0         -1         10 125 1451     \n"
    "  1-H -  1 LANL       EVAL-JUL16 G.M.Hale                          125 1451     \n"
    "                      DIST-JAN17                       20170124    125 1451     \n"
    "----ENDF/B-VIII.0     MATERIAL  125                                125 1451     \n"
    "-----INCIDENT NEUTRON DATA                                         125 1451     \n"
    "------ENDF-6 FORMAT                                                125 1451     \n"
    "                                                                   125 1451     \n"
    " ****************************************************************  125 1451     \n"
    "                                                                   125 1451     \n"
    " ****************************************************************  125 1451     \n"
    "                                1        451        101          5 125 1451     \n"
    "                                2        151          4          0 125 1451     \n"
    "                                3          1         54          4 125 1451     \n"
    "                                3          2         54          4 125 1451     \n"
    "                                3        102         54          5 125 1451     \n"
    "                                4          2        310          4 125 1451     \n"
    "                                6        102        315          4 125 1451     \n"
    "                               33          1          5          5 125 1451     \n"
    "                               33          2         21          5 125 1451     \n"
    "                               33        102         21          5 125 1451     \n"
    "                                                                   125 1  0     \n") := by decide +kernel

theorem mf1mt451_invalidNXC : Rejected .mf1mt451 (txt
    " 1.001000+3 9.991673-1          0          0          0          5 125 1451     \n"
    " 0.000000+0 0.000000+0          0          0          0          6 125 1451     \n"
    " 1.000000+0 2.000000+7          0          0         10          8 125 1451     \n"
    " 0.000000+0 0.000000+0          0          0          9          0 125 1451     \n"
    "  1-H -  1 LANL       EVAL-JUL16 G.M.Hale                          125 1451     \n"
    "                      DIST-JAN17                       20170124    125 1451     \n"
    "----ENDF/B-VIII.0     MATERIAL  125                                125 1451     \n"
    "-----INCIDENT NEUTRON DATA                                         125 1451     \n"
    "------ENDF-6 FORMAT                                                125 1451     \n"
    "                                                                   125 1451     \n"
    " ****************************************************************  125 1451     \n"
    "                                                                   125 1451     \n"
    " ****************************************************************  125 1451     \n"
    "                                1        451        101          5 125 1451     \n"
    "                                2        151          4          0 125 1451     \n"
    "                                3          1         54          4 125 1451     \n"
    "                                3          2         54          4 125 1451     \n"
    "                                3        102         54          5 125 1451     \n"
    "                                4          2        310          4 125 1451     \n"
    "                                6        102        315          4 125 1451     \n"
    "                               33          1          5          5 125 1451     \n"
    "                               33          2         21          5 125 1451     \n"
    "                               33        102         21          5 125 1451     \n"
    "                                                                   125 1  0     \n") := by decide +kernel

theorem mf1mt452_chunkLNU1 : RoundTrips .mf1mt452 9228 (txt
    " 9.223500+4 2.330248+2          0          1          0          09228 1452     \n"
    " 0.000000+0 0.000000+0          0          0          2          09228 1452     \n"
    " 2.436700+0 5.000000-2                                            9228 1452     \n"
    "                                                                  9228 1  0     \n") := by decide +kernel

theorem mf1mt452_chunkLNU1_wrongSEND : Rejected .mf1mt452 (txt
    " 9.223500+4 2.330248+2          0          1          0          09228 1452     \n"
    " 0.000000+0 0.000000+0          0          0          2          09228 1452     \n"
    " 2.436700+0 5.000000-2                                            9228 1452     \n"
    "                                                                  9228 1  1     \n") := by decide +kernel

theorem mf1mt452_chunkLNU2 : RoundTrips .mf1mt452 9228 (txt
    " 9.223500+4 2.330248+2          0          2          0          09228 1452     \n"
    " 0.000000+0 0.000000+0          0          0          1          49228 1452     \n"
    "          4          2                                            9228 1452     \n"
    " 1.000000-5 2.436700+0 2.530000-2 2.436700+0 5.000000-2 2.436700+09228 1452     \n"
    " 2.000000+7 5.209845+0                                            9228 1452     \n"
    "                                                                  9228 1  0     \n") := by decide +kernel

theorem mf1mt452_invalidLNU : Rejected .mf1mt452 (txt
    " 9.223500+4 2.330248+2          0          3          0          09228 1452     \n"
    " 0.000000+0 0.000000+0          0          0          2          09228 1452     \n"
    " 2.436700+0 5.000000-2                                            9228 1452     \n"
    "                                                                  9228 1  0     \n") := by decide +kernel

theorem mf1mt455_chunkWithLDG0LNU1 : RoundTrips .mf1mt455 9228 (txt
    " 9.223500+4 2.330248+2          0          1          0          09228 1455     \n"
    " 0.000000+0 0.000000+0          0          0          6          09228 1455     \n"
    " 1.333600-2 3.273900-2 1.207800-1 3.027800-1 8.494900-1 2.853000+09228 1455     \n"
    " 0.000000+0 0.000000+0          0          0          2          09228 1455     \n"
    " 2.436700+0 5.000000-2                                            9228 1455     \n"
    "                                                                  9228 1  0     \n") := by decide +kernel

theorem mf1mt455_chunkWithLDG0LNU1_wrongSEND : Rejected .mf1mt455 (txt
    " 9.223500+4 2.330248+2          0          1          0          09228 1455     \n"
    " 0.000000+0 0.000000+0          0          0          6          09228 1455     \n"
    " 1.333600-2 3.273900-2 1.207800-1 3.027800-1 8.494900-1 2.853000+09228 1455     \n"
    " 0.000000+0 0.000000+0          0          0          2          09228 1455     \n"
    " 2.436700+0 5.000000-2                                            9228 1455     \n"
    "                                                                  9228 1  1     \n") := by decide +kernel

theorem mf1mt455_chunkWithLDG0LNU2 : RoundTrips .mf1mt455 9228 (txt
    " 9.223500+4 2.330248+2          0          2          0          09228 1455     \n"
    " 0.000000+0 0.000000+0          0          0          6          09228 1455     \n"
    " 1.333600-2 3.273900-2 1.207800-1 3.027800-1 8.494900-1 2.853000+09228 1455     \n"
    " 0.000000+0 0.000000+0          0          0          1          49228 1455     \n"
    "          4          2                                            9228 1455     \n"
    " 1.000000-5 2.436700+0 2.530000-2 2.436700+0 5.000000-2 2.436700+09228 1455     \n"
    " 2.000000+7 5.209845+0                                            9228 1455     \n"
    "                                                                  9228 1  0     \n") := by decide +kernel

theorem mf1mt455_chunkWithLDG1LNU1 : RoundTrips .mf1mt455 9228 (txt
    " 9.223500+4 2.330248+2          1          1          0          09228 1455     \n"
    " 0.000000+0 0.000000+0          0          0          1          29228 1455     \n"
    "          2          4                                            9228 1455     \n"
    " 0.000000+0 1.000000-5          0          0         12          09228 1455     \n"
    " 1.000000+0 1.100000+0 2.000000+0 2.100000+0 3.000000+0 3.100000+09228 1455     \n"
    " 4.000000+0 4.100000+0 5.000000+0 5.100000+0 6.000000+0 6.100000+09228 1455     \n"
    " 0.000000+0 2.000000+7          0          0         12          09228 1455     \n"
    " 6.000000+0 6.100000+0 5.000000+0 5.100000+0 4.000000+0 4.100000+09228 1455     \n"
    " 3.000000+0 3.100000+0 2.000000+0 2.100000+0 1.000000+0 1.100000+09228 1455     \n"
    " 0.000000+0 0.000000+0          0          0          2          09228 1455     \n"
    " 2.436700+0 5.000000-2                                            9228 1455     \n"
    "                                                                  9228 1  0     \n") := by decide +kernel

theorem mf1mt455_chunkWithLDG1LNU1_wrongSEND : Rejected .mf1mt455 (txt
    " 9.223500+4 2.330248+2          1          1          0          09228 1455     \n"
    " 0.000000+0 0.000000+0          0          0          1          29228 1455     \n"
    "          2          4                                            9228 1455     \n"
    " 0.000000+0 1.000000-5          0          0         12          09228 1455     \n"
    " 1.000000+0 1.100000+0 2.000000+0 2.100000+0 3.000000+0 3.100000+09228 1455     \n"
    " 4.000000+0 4.100000+0 5.000000+0 5.100000+0 6.000000+0 6.100000+09228 1455     \n"
    " 0.000000+0 2.000000+7          0          0         12          09228 1455     \n"
    " 6.000000+0 6.100000+0 5.000000+0 5.100000+0 4.000000+0 4.100000+09228 1455     \n"
    " 3.000000+0 3.100000+0 2.000000+0 2.100000+0 1.000000+0 1.100000+09228 1455     \n"
    " 0.000000+0 0.000000+0          0          0          2          09228 1455     \n"
    " 2.436700+0 5.000000-2                                            9228 1455     \n"
    "                                                                  9228 1  1     \n") := by decide +kernel

theorem mf1mt455_chunkWithLDG1LNU2 : RoundTrips .mf1mt455 9228 (txt
    " 9.223500+4 2.330248+2          1          2          0          09228 1455     \n"
    " 0.000000+0 0.000000+0          0          0          1          29228 1455     \n"
    "          2          4                                            9228 1455     \n"
    " 0.000000+0 1.000000-5          0          0         12          09228 1455     \n"
    " 1.000000+0 1.100000+0 2.000000+0 2.100000+0 3.000000+0 3.100000+09228 1455     \n"
    " 4.000000+0 4.100000+0 5.000000+0 5.100000+0 6.000000+0 6.100000+09228 1455     \n"
    " 0.000000+0 2.000000+7          0          0         12          09228 1455     \n"
    " 6.000000+0 6.100000+0 5.000000+0 5.100000+0 4.000000+0 4.100000+09228 1455     \n"
    " 3.000000+0 3.100000+0 2.000000+0 2.100000+0 1.000000+0 1.100000+09228 1455     \n"
    " 0.000000+0 0.000000+0          0          0          1          49228 1455     \n"
    "          4          2                                            9228 1455     \n"
    " 1.000000-5 2.436700+0 2.530000-2 2.436700+0 5.000000-2 2.436700+09228 1455     \n"
    " 2.000000+7 5.209845+0                                            9228 1455     \n"
    "                                                                  9228 1  0     \n") := by decide +kernel

theorem mf1mt455_invalidLDG : Rejected .mf1mt455 (txt
    " 9.223500+4 2.330248+2          2          2          0          09228 1455     \n"
    " 0.000000+0 0.000000+0          0          0          6          09228 1455     \n"
    " 1.333600-2 3.273900-2 1.207800-1 3.027800-1 8.494900-1 2.853000+09228 1455     \n"
    " 0.000000+0 0.000000+0          0          0          1          49228 1455     \n"
    "          4          2                                            9228 1455     \n"
    " 1.000000-5 2.436700+0 2.530000-2 2.436700+0 5.000000-2 2.436700+09228 1455     \n"
    " 2.000000+7 5.209845+0                                            9228 1455     \n"
    "                                                                  9228 1  0     \n") := by decide +kernel

theorem mf1mt455_invalidLNU : Rejected .mf1mt455 (txt
    " 9.223500+4 2.330248+2          0          3          0          09228 1455     \n"
    " 0.000000+0 0.000000+0          0          0          6          09228 1455     \n"
    " 1.333600-2 3.273900-2 1.207800-1 3.027800-1 8.494900-1 2.853000+09228 1455     \n"
    " 0.000000+0 0.000000+0          0          0          1          49228 1455     \n"
    "          4          2                                            9228 1455     \n"
    " 1.000000-5 2.436700+0 2.530000-2 2.436700+0 5.000000-2 2.436700+09228 1455     \n"
    " 2.000000+7 5.209845+0                                            9228 1455     \n"
    "                                                                  9228 1  0     \n") := by decide +kernel

theorem mf1mt455_oddNPL : Rejected .mf1mt455 (txt
    " 9.223500+4 2.330248+2          1          1          0          09228 1455     \n"
    " 0.000000+0 0.000000+0          0          0          1          29228 1455     \n"
    "          2          4                                            9228 1455     \n"
    " 0.000000+0 1.000000-5          0          0         11          09228 1455     \n"
    " 1.000000+0 1.100000+0 2.000000+0 2.100000+0 3.000000+0 3.100000+09228 1455     \n"
    " 4.000000+0 4.100000+0 5.000000+0 5.100000+0 6.000000+0           9228 1455     \n"
    " 0.000000+0 2.000000+7          0          0         11          09228 1455     \n"
    " 6.000000+0 6.100000+0 5.000000+0 5.100000+0 4.000000+0 4.100000+09228 1455     \n"
    " 3.000000+0 3.100000+0 2.000000+0 2.100000+0 1.000000+0           9228 1455     \n"
    " 0.000000+0 0.000000+0          0          0          2          09228 1455     \n"
    " 2.436700+0 5.000000-2                                            9228 1455     \n"
    "                                                                  9228 1  0     \n") := by decide +kernel

theorem mf1mt455_inconsistentNNF : Rejected .mf1mt455 (txt
    " 9.223500+4 2.330248+2          1          1          0          09228 1455     \n"
    " 0.000000+0 0.000000+0          0          0          1          29228 1455     \n"
    "          2          4                                            9228 1455     \n"
    " 0.000000+0 1.000000-5          0          0         12          09228 1455     \n"
    " 1.000000+0 1.100000+0 2.000000+0 2.100000+0 3.000000+0 3.100000+09228 1455     \n"
    " 4.000000+0 4.100000+0 5.000000+0 5.100000+0 6.000000+0 6.100000+09228 1455     \n"
    " 0.000000+0 2.000000+7          0          0         11          09228 1455     \n"
    " 6.000000+0 6.100000+0 5.000000+0 5.100000+0 4.000000+0 4.100000+09228 1455     \n"
    " 3.000000+0 3.100000+0 2.000000+0 2.100000+0 1.000000+0           9228 1455     \n"
    " 0.000000+0 0.000000+0          0          0          2          09228 1455     \n"
    " 2.436700+0 5.000000-2                                            9228 1455     \n"
    "                                                                  9228 1  0     \n") := by decide +kernel

theorem mf1mt456_chunkLNU1 : RoundTrips .mf1mt456 9228 (txt
    " 9.223500+4 2.330248+2          0          1          0          09228 1456     \n"
    " 0.000000+0 0.000000+0          0          0          2          09228 1456     \n"
    " 2.436700+0 5.000000-2                                            9228 1456     \n"
    "                                                                  9228 1  0     \n") := by decide +kernel

theorem mf1mt456_chunkLNU1_wrongSEND : Rejected .mf1mt456 (txt
    " 9.223500+4 2.330248+2          0          1          0          09228 1456     \n"
    " 0.000000+0 0.000000+0          0          0          2          09228 1456     \n"
    " 2.436700+0 5.000000-2                                            9228 1456     \n"
    "                                                                  9228 1  1     \n") := by decide +kernel

theorem mf1mt456_chunkLNU2 : RoundTrips .mf1mt456 9228 (txt
    " 9.223500+4 2.330248+2          0          2          0          09228 1456     \n"
    " 0.000000+0 0.000000+0          0          0          1          49228 1456     \n"
    "          4          2                                            9228 1456     \n"
    " 1.000000-5 2.436700+0 2.530000-2 2.436700+0 5.000000-2 2.436700+09228 1456     \n"
    " 2.000000+7 5.209845+0                                            9228 1456     \n"
    "                                                                  9228 1  0     \n") := by decide +kernel

theorem mf1mt456_invalidLNU : Rejected .mf1mt456 (txt
    " 9.223500+4 2.330248+2          0          3          0          09228 1456     \n"
    " 0.000000+0 0.000000+0          0          0          2          09228 1456     \n"
    " 2.436700+0 5.000000-2                                            9228 1456     \n"
    "                                                                  9228 1  0     \n") := by decide +kernel

theorem mf1mt458_chunkLFC0NPLY0 : RoundTrips .mf1mt458 9228 (txt
    " 9.223500+4 2.330248+2          0          0          0          09228 1458     \n"
    " 0.000000+0 0.000000+0          0          0         18          99228 1458     \n"
    " 1.691300+8 4.900000+5 4.838000+6 7.000000+4 7.400000+3 1.110000+39228 1458     \n"
    " 6.600000+6 5.000000+5 6.330000+6 5.000000+4 6.500000+6 5.100000+49228 1458     \n"
    " 8.750000+6 7.000000+4 1.934054+8 1.500000+5 2.021554+8 1.300000+59228 1458     \n"
    "                                                                  9228 1  0     \n") := by decide +kernel

theorem mf1mt458_chunkLFC0NPLY1 : RoundTrips .mf1mt458 9228 (txt
    " 9.223500+4 2.330248+2          0          0          0          09228 1458     \n"
    " 0.000000+0 0.000000+0          0          1         36         189228 1458     \n"
    " 1.691300+8 4.900000+5 4.838000+6 7.000000+4 7.400000+3 1.110000+39228 1458     \n"
    " 6.600000+6 5.000000+5 6.330000+6 5.000000+4 6.500000+6 5.100000+49228 1458     \n"
    " 8.750000+6 7.000000+4 1.934054+8 1.500000+5 2.021554+8 1.300000+59228 1458     \n"
    "-2.660000-1 2.660000-2 3.004000-1 3.004000-2 0.000000+0 0.000000+09228 1458     \n"
    " 7.770000-2 7.770000-3-7.500000-2 7.600000-3-7.700000-2 7.800000-39228 1458     \n"
    "-1.000000-1 1.000000-2-3.790000-2 3.790000-3-1.379000-1 1.379000-29228 1458     \n"
    "                                                                  9228 1  0     \n") := by decide +kernel

theorem mf1mt458_chunkLFC1 : RoundTrips .mf1mt458 9228 (txt
    " 9.223500+4 2.330248+2          0          1          0          29228 1458     \n"
    " 0.000000+0 0.000000+0          0          0         18          99228 1458     \n"
    " 1.691300+8 4.900000+5 4.838000+6 7.000000+4 7.400000+3 1.110000+39228 1458     \n"
    " 6.600000+6 5.000000+5 6.330000+6 5.000000+4 6.500000+6 5.100000+49228 1458     \n"
    " 8.750000+6 7.000000+4 1.934054+8 1.500000+5 2.021554+8 1.300000+59228 1458     \n"
    " 0.000000+0 0.000000+0          1          1          1          39228 1458     \n"
    "          3          2                                            9228 1458     \n"
    " 1.000000-5 1.691300+8 2.530000-2 1.691000+8 2.000000+7 1.690000+89228 1458     \n"
    " 0.000000+0 0.000000+0          2          9          1          49228 1458     \n"
    "          4          2                                            9228 1458     \n"
    " 1.000000-5 2.021554+8 2.530000-2 3.000000+8 1.000000+6 2.500000+89228 1458     \n"
    " 2.000000+7 1.500000+8                                            9228 1458     \n"
    "                                                                  9228 1  0     \n") := by decide +kernel

theorem mf1mt458_invalidLFC : Rejected .mf1mt458 (txt
    " 9.223500+4 2.330248+2          0          3          0          09228 1458     \n"
    " 0.000000+0 0.000000+0          0          0         18          99228 1458     \n"
    " 1.691300+8 4.900000+5 4.838000+6 7.000000+4 7.400000+3 1.110000+39228 1458     \n"
    " 6.600000+6 5.000000+5 6.330000+6 5.000000+4 6.500000+6 5.000000+49228 1458     \n"
    " 8.750000+6 7.000000+4 1.934054+8 1.500000+5 2.021554+8 1.300000+59228 1458     \n"
    "                                                                  9228 1  0     \n") := by decide +kernel

theorem mf1mt458_invalidNFC : Rejected .mf1mt458 (txt
    " 9.223500+4 2.330248+2          0          1          0         -19228 1458     \n"
    " 0.000000+0 0.000000+0          0          0         18          99228 1458     \n"
    " 1.691300+8 4.900000+5 4.838000+6 7.000000+4 7.400000+3 1.110000+39228 1458     \n"
    " 6.600000+6 5.000000+5 6.330000+6 5.000000+4 6.500000+6 5.000000+49228 1458     \n"
    " 8.750000+6 7.000000+4 1.934054+8 1.500000+5 2.021554+8 1.300000+59228 1458     \n"
    "                                                                  9228 1  0     \n") := by decide +kernel

theorem mf1mt460_chunkLO1 : RoundTrips .mf1mt460 9228 (txt
    " 9.223500+4 2.330248+2          1          0          2          09228 1460     \n"
    " 1.000000-1 0.000000+0          1          0          1          29228 1460     \n"
    "          2          4                                            9228 1460     \n"
    " 0.000000+0 4.877451-1 4.000000+0 1.715686-1                      9228 1460     \n"
    " 2.000000-1 0.000000+0          2          0          1          39228 1460     \n"
    "          3          2                                            9228 1460     \n"
    " 0.000000+0 1.691176-1 5.000000+0 2.450980-3 9.000000+0 1.691176-19228 1460     \n"
    "                                                                  9228 1  0     \n") := by decide +kernel

theorem mf1mt460_chunkLO2 : RoundTrips .mf1mt460 9228 (txt
    " 9.223500+4 2.330248+2          2          0          0          09228 1460     \n"
    " 0.000000+0 0.000000+0          0          0          6          09228 1460     \n"
    " 1.333600-2 3.273900-2 1.207800-1 3.027800-1 8.494900-1 2.853000+09228 1460     \n"
    "                                                                  9228 1  0     \n") := by decide +kernel

theorem mf1mt460_invalidLO : Rejected .mf1mt460 (txt
    " 9.223500+4 2.330248+2          0          0          2          09228 1460     \n"
    " 1.000000-1 0.000000+0          1          0          1          29228 1460     \n"
    "          2          4                                            9228 1460     \n"
    " 0.000000+0 4.877451-1 4.000000+0 1.715686-1                      9228 1460     \n"
    " 2.000000-1 0.000000+0          2          0          1          39228 1460     \n"
    "          3          2                                            9228 1460     \n"
    " 0.000000+0 1.691176-1 5.000000+0 2.450980-3 9.000000+0 1.691176-19228 1460     \n"
    "                                                                  9228 1  0     \n") := by decide +kernel

theorem mf1mt460_invalidNG : Rejected .mf1mt460 (txt
    " 9.223500+4 2.330248+2          1          0          0          09228 1460     \n"
    " 1.000000-1 0.000000+0          1          0          1          29228 1460     \n"
    "          2          4                                            9228 1460     \n"
    " 0.000000+0 4.877451-1 4.000000+0 1.715686-1                      9228 1460     \n"
    " 2.000000-1 0.000000+0          2          0          1          29228 1460     \n"
    "          2          4                                            9228 1460     \n"
    " 0.000000+0 1.691176-1 5.000000+0 2.450980-3 9.000000+0 1.691176-19228 1460     \n"
    "                                                                  9228 1  0     \n") := by decide +kernel

theorem mf10_chunk : RoundTrips .mf10 9543 (txt
    " 9.524100+4 2.389860+2          0          0          2          0954310102     \n"
    " 5.537755+6 5.537755+6      95242          0          1          2954310102     \n"
    "          2          3                                            954310102     \n"
    " 1.000000-5 9.000000-1 3.000000+7 5.200000-1                      954310102     \n"
    " 5.537755+6 5.489125+6      95242          2          1          2954310102     \n"
    "          2          3                                            954310102     \n"
    " 1.000000-5 1.000000-1 3.000000+7 4.800000-1                      954310102     \n"
    "                                                                  954310  0     \n") := by decide +kernel

theorem mf10_chunk_wrongSEND : Rejected .mf10 (txt
    " 9.524100+4 2.389860+2          0          0          2          0954310102     \n"
    " 5.537755+6 5.537755+6      95242          0          1          2954310102     \n"
    "          2          3                                            954310102     \n"
    " 1.000000-5 9.000000-1 3.000000+7 5.200000-1                      954310102     \n"
    " 5.537755+6 5.489125+6      95242          2          1          2954310102     \n"
    "          2          3                                            954310102     \n"
    " 1.000000-5 1.000000-1 3.000000+7 4.800000-1                      954310102     \n"
    "                                                                  954310  1     \n") := by decide +kernel

theorem mf12_chunkWithLO1 : RoundTrips .mf12 9228 (txt
    " 9.223500+4 2.330250+2          1          0          1          0922812 18     \n"
    " 0.000000+0 0.000000+0          0          1          1          2922812 18     \n"
    "          2          2                                            922812 18     \n"
    " 1.000000-5 8.579050+0 3.000000+7 1.487778+1                      922812 18     \n"
    "                                                                  922812  0     \n") := by decide +kernel

theorem mf12_chunkWithLO2LG1 : RoundTrips .mf12 9228 (txt
    " 9.223500+4 2.330250+2          2          1          4          0922812 51     \n"
    " 5.170900+4 0.000000+0          0          0          4          2922812 51     \n"
    " 1.304000+4 2.709000-1 7.700000+1 7.291000-1                      922812 51     \n"
    "                                                                  922812  0     \n") := by decide +kernel

theorem mf12_chunkWithLO2LG2 : RoundTrips .mf12 9228 (txt
    " 9.223500+4 2.330250+2          2          2          4          0922812 51     \n"
    " 5.170900+4 0.000000+0          0          0          6          2922812 51     \n"
    " 1.304000+4 2.709000-1 3.215434-3 7.700000+1 7.291000-1 3.144654-3922812 51     \n"
    "                                                                  922812  0     \n") := by decide +kernel

theorem mf12_invalidChunk : Rejected .mf12 (txt
    " 9.223500+4 2.330250+2          3          0          1          0922812 18     \n"
    " 0.000000+0 0.000000+0          0          1          1          2922812 18     \n"
    "          2          2                                            922812 18     \n"
    " 1.000000-5 8.579050+0 3.000000+7 1.487778+1                      922812 18     \n"
    "                                                                  922812  0     \n") := by decide +kernel

theorem mf13_chunk : RoundTrips .mf13 9228 (txt
    " 9.223500+4 2.330250+2          0          0          1          0922813 18     \n"
    " 0.000000+0 0.000000+0          0          1          1          2922813 18     \n"
    "          2          2                                            922813 18     \n"
    " 1.000000-5 8.579050+0 3.000000+7 1.487778+1                      922813 18     \n"
    "                                                                  922813  0     \n") := by decide +kernel

theorem mf13_chunk_wrongSEND : Rejected .mf13 (txt
    " 9.223500+4 2.330250+2          0          0          1          0922813 18     \n"
    " 0.000000+0 0.000000+0          0          1          1          2922813 18     \n"
    "          2          2                                            922813 18     \n"
    " 1.000000-5 8.579050+0 3.000000+7 1.487778+1                      922813 18     \n"
    "                                                                  922813  4     \n") := by decide +kernel

theorem mf13_invalidChunk : Rejected .mf13 (txt
    " 9.223500+4 2.330250+2          0          0          1          0922813 18     \n"
    " 0.000000+0 0.000000+0          0          1          2          2922813 18     \n"
    "          2          2                                            922813 18     \n"
    " 1.000000-5 8.579050+0 3.000000+7 1.487778+1                      922813 18     \n"
    "                                                                  922813  0     \n") := by decide +kernel

theorem mf14_chunkWithLTT0 : RoundTrips .mf14 9228 (txt
    " 9.223500+4 2.330248+2          1          0          2          0922814  2     \n"
    "                                                                  922814  0     \n") := by decide +kernel

theorem mf14_chunkWithLTT0_wrongSEND : Rejected .mf14 (txt
    " 9.223500+4 2.330248+2          1          0          2          0922814  2     \n"
    "                                                                  922814  4     \n") := by decide +kernel

theorem mf14_chunkWithLTT1 : RoundTrips .mf14 9228 (txt
    " 9.223500+4 2.330248+2          0          1          2          1922814  2     \n"
    " 1.500000+6 2.000000+6          0          0          0          0922814  2     \n"
    " 4.438900+6 4.438900+6          0          0          1          2922814  2     \n"
    "          2          3                                            922814  2     \n"
    " 0.000000+0 4.812998+6          0          0          2          0922814  2     \n"
    " 0.000000+0 4.076000-2                                            922814  2     \n"
    " 0.000000+0 1.500000+8          0          0          2          0922814  2     \n"
    " 0.000000+0 0.000000+0                                            922814  2     \n"
    "                                                                  922814  0     \n") := by decide +kernel

theorem mf14_chunkWithInvalidLTT : Rejected .mf14 (txt
    " 9.223500+4 2.330250+2          0          4          1          0922814  2     \n"
    "                                                                  922814  0     \n") := by decide +kernel

theorem mf15_chunk : RoundTrips .mf15 9228 (txt
    " 9.223500+4 2.330250+2          0          0          1          0922815 18     \n"
    " 0.000000+0 0.000000+0          0          1          1          2922815 18     \n"
    "          2          2                                            922815 18     \n"
    " 1.000000-5 1.000000+0 3.000000+7 1.000000+0                      922815 18     \n"
    " 0.000000+0 0.000000+0          0          0          1          2922815 18     \n"
    "          2          4                                            922815 18     \n"
    " 0.000000+0 1.000000-5          0          0          1          3922815 18     \n"
    "          3          2                                            922815 18     \n"
    " 0.000000+0 0.000000+0 1.000000+5 1.757570-9 3.000000+7 1.843350-9922815 18     \n"
    " 0.000000+0 3.000000+7          0          0          1          4922815 18     \n"
    "          4          2                                            922815 18     \n"
    " 0.000000+0 0.000000+0 1.000000+1 1.733405-9 1.100000+1 1.818010-9922815 18     \n"
    " 3.000000+7 1.898849-9                                            922815 18     \n"
    "                                                                  922815  0     \n") := by decide +kernel

theorem mf15_chunk_wrongSEND : Rejected .mf15 (txt
    " 9.223500+4 2.330250+2          0          0          1          0922815 18     \n"
    " 0.000000+0 0.000000+0          0          1          1          2922815 18     \n"
    "          2          2                                            922815 18     \n"
    " 1.000000-5 1.000000+0 3.000000+7 1.000000+0                      922815 18     \n"
    " 0.000000+0 0.000000+0          0          0          1          2922815 18     \n"
    "          2          4                                            922815 18     \n"
    " 0.000000+0 1.000000-5          0          0          1          3922815 18     \n"
    "          3          2                                            922815 18     \n"
    " 0.000000+0 0.000000+0 1.000000+5 1.757570-9 3.000000+7 1.843350-9922815 18     \n"
    " 0.000000+0 3.000000+7          0          0          1          4922815 18     \n"
    "          4          2                                            922815 18     \n"
    " 0.000000+0 0.000000+0 1.000000+1 1.733405-9 1.100000+1 1.818010-9922815 18     \n"
    " 3.000000+7 1.898849-9                                            922815 18     \n"
    "                                                                  922815  4     \n") := by decide +kernel

theorem mf15_chunkWithNK0 : Rejected .mf15 (txt
    " 9.223500+4 2.330250+2          0          0          0          0922815 18     \n"
    "-3.000000+7 0.000000+0          0          1          1          2922815 18     \n"
    "          2          2                                            922815 18     \n"
    " 1.000000-5 1.000000+0 3.000000+7 1.000000+0                      922815 18     \n"
    " 0.000000+0 0.000000+0          0          0          1          2943715 18     \n"
    "          2          4                                            943715 18     \n"
    " 0.000000+0 1.000000-5          0          0          1          3943715 18     \n"
    "          3          2                                            943715 18     \n"
    " 0.000000+0 0.000000+0 1.000000+5 1.757570-9 3.000000+7 1.843350-9943715 18     \n"
    " 0.000000+0 3.000000+7          0          0          1          4943715 18     \n"
    "          4          2                                            943715 18     \n"
    " 0.000000+0 0.000000+0 1.000000+1 1.733405-9 1.100000+1 1.818010-9943715 18     \n"
    " 3.000000+7 1.898849-9                                            943715 18     \n"
    "                                                                  922815  0     \n") := by decide +kernel

theorem mf2mt151_chunkSpecialCase : RoundTrips .mf2mt151 125 (txt
    " 1.001000+3 9.991673-1          0          0          1          0 125 2151     \n"
    " 1.001000+3 1.000000+0          0          0          1          0 125 2151     \n"
    " 1.000000-5 1.000000+5          0          0          0          0 125 2151     \n"
    " 5.000000-1 1.275246+0          0          0          0          0 125 2151     \n"
    "                                                                   125 2  0     \n") := by decide +kernel

theorem mf2mt151_chunkResolvedSLBW : RoundTrips .mf2mt151 125 (txt
    " 6.114800+4 1.466500+2          0          0          1          0 125 2151     \n"
    " 6.114800+4 1.000000+0          0          0          1          0 125 2151     \n"
    " 1.000000-5 1.000000+0          1          1          0          0 125 2151     \n"
    " 6.000000+0 6.380900-1          0          0          1          0 125 2151     \n"
    " 1.466470+2 0.000000+0          0          0          6          1 125 2151     \n"
    " 1.690000-1 6.000000+0 8.018800-2 5.880000-4 7.960000-2 0.000000+0 125 2151     \n"
    "                                                                   125 2  0     \n") := by decide +kernel

theorem mf2mt151_chunkResolvedMLBW : RoundTrips .mf2mt151 125 (txt
    " 1.202400+4 2.377900+1          0          0          1          0 125 2151     \n"
    " 1.202400+4 1.000000+0          0          0          1          0 125 2151     \n"
    " 1.000000-5 5.200000+5          1          2          0          0 125 2151     \n"
    " 0.000000+0 5.400000-1          0          0          3          0 125 2151     \n"
    " 2.377900+1 0.000000+0          0          0         30          5 125 2151     \n"
    "-1.000000+5 5.000000-1 3.011300+3 3.000000+3 1.130000+1 0.000000+0 125 2151     \n"
    " 6.585000+5 5.000000-1 2.100770+4 2.100000+4 7.700000+0 0.000000+0 125 2151     \n"
    " 1.035200+6 5.000000-1 1.000500+4 1.000000+4 5.000000+0 0.000000+0 125 2151     \n"
    " 1.075200+6 5.000000-1 2.000500+4 2.000000+4 5.000000+0 0.000000+0 125 2151     \n"
    " 1.567000+6 5.000000-1 4.205000+3 4.200000+3 5.000000+0 0.000000+0 125 2151     \n"
    " 2.377900+1 0.000000+0          1          0         54          9 125 2151     \n"
    " 8.349990+4 1.500000+0 9.004700+3 9.000000+3 4.700000+0 0.000000+0 125 2151     \n"
    " 2.660000+5 5.000000-1 1.150060+5 1.150000+5 5.600000+0 0.000000+0 125 2151     \n"
    " 4.306000+5 1.500000+0 3.100700+4 3.100000+4 7.000000+0 0.000000+0 125 2151     \n"
    " 4.982000+5 1.500000+0 5.303790+2 5.299990+2 3.800000-1 0.000000+0 125 2151     \n"
    " 6.419000+5 5.000000-1 9.012300+2 8.999990+2 1.230900+0 0.000000+0 125 2151     \n"
    " 1.290900+6 1.500000+0 4.201230+3 4.200000+3 1.230900+0 0.000000+0 125 2151     \n"
    " 1.603000+6 1.500000+0 1.500120+4 1.500000+4 1.230900+0 0.000000+0 125 2151     \n"
    " 1.629000+6 5.000000-1 3.500120+4 3.500000+4 1.230900+0 0.000000+0 125 2151     \n"
    " 1.754000+6 5.000000-1 2.601230+3 2.600000+3 1.230900+0 0.000000+0 125 2151     \n"
    " 2.377900+1 0.000000+0          2          0         84         14 125 2151     \n"
    " 4.635000+4 1.500000+0 1.820000+0 7.200000-1 1.100000+0 0.000000+0 125 2151     \n"
    " 1.767000+5 1.500000+0 3.230900+0 2.000000+0 1.230900+0 0.000000+0 125 2151     \n"
    " 2.572000+5 1.500000+0 4.030000+1 3.800000+1 2.300000+0 0.000000+0 125 2151     \n"
    " 4.754000+5 2.500000+0 1.437330+1 1.333330+1 1.040000+0 0.000000+0 125 2151     \n"
    " 5.554000+5 1.500000+0 1.000450+4 1.000000+4 4.500000+0 0.000000+0 125 2151     \n"
    " 8.442000+5 1.500000+0 1.300600+4 1.300000+4 6.000000+0 0.000000+0 125 2151     \n"
    " 9.520000+5 1.500000+0 5.512300+2 5.499990+2 1.230900+0 0.000000+0 125 2151     \n"
    " 1.021800+6 2.500000+0 1.251230+3 1.250000+3 1.230900+0 0.000000+0 125 2151     \n"
    " 1.027300+6 1.500000+0 3.412310+2 3.400000+2 1.230900+0 0.000000+0 125 2151     \n"
    " 1.063500+6 1.500000+0 6.712310+2 6.700000+2 1.230900+0 0.000000+0 125 2151     \n"
    " 1.279700+6 2.500000+0 1.801230+3 1.800000+3 1.230900+0 0.000000+0 125 2151     \n"
    " 1.301300+6 1.500000+0 8.401220+3 8.399990+3 1.230900+0 0.000000+0 125 2151     \n"
    " 1.319200+6 1.500000+0 5.512300+2 5.499990+2 1.230900+0 0.000000+0 125 2151     \n"
    " 1.709000+6 2.500000+0 9.601220+3 9.599990+3 1.230900+0 0.000000+0 125 2151     \n"
    "                                                                   125 2  0     \n") := by decide +kernel

theorem mf2mt151_chunkResolvedRM : RoundTrips .mf2mt151 125 (txt
    " 1.402800+4 2.773700+1          0          0          1          0 125 2151     \n"
    " 1.402800+4 1.000000+0          0          0          1          0 125 2151     \n"
    " 1.000000-5 1.750000+6          1          3          0          1 125 2151     \n"
    " 0.000000+0 4.136400-1          1          0          3          3 125 2151     \n"
    " 2.773700+1 4.136400-1          0          0         96         16 125 2151     \n"
    "-3.622100+6 5.000000-1 3.936200+6 1.453600+2 0.000000+0 0.000000+0 125 2151     \n"
    "-8.737300+5 5.000000-1 1.015100-1 1.025300+0 0.000000+0 0.000000+0 125 2151     \n"
    "-3.652900+5 5.000000-1 3.040600-2 1.000000+0 0.000000+0 0.000000+0 125 2151     \n"
    "-6.315900+4 5.000000-1 4.689400-2 1.000000+0 0.000000+0 0.000000+0 125 2151     \n"
    "-4.880100+4 5.000000-1 9.249600-3 1.000000+0 0.000000+0 0.000000+0 125 2151     \n"
    " 5.567700+4 5.000000-1 6.533100+2 1.580300+0 0.000000+0 0.000000+0 125 2151     \n"
    " 1.816200+5 5.000000-1 3.489400+4 5.600000+0 0.000000+0 0.000000+0 125 2151     \n"
    " 3.013100+5 5.000000-1 2.354800+0 3.600000+0 0.000000+0 0.000000+0 125 2151     \n"
    " 5.902900+5 5.000000-1 5.236600+2 3.600000+0 0.000000+0 0.000000+0 125 2151     \n"
    " 1.085200+6 5.000000-1 7.279400+1 3.600000+0 0.000000+0 0.000000+0 125 2151     \n"
    " 1.162700+6 5.000000-1 3.013600+3 3.800000+0 0.000000+0 0.000000+0 125 2151     \n"
    " 1.201200+6 5.000000-1 4.601200+3 3.600000+0 0.000000+0 0.000000+0 125 2151     \n"
    " 1.256400+6 5.000000-1 1.738300+4 3.600000+0 0.000000+0 0.000000+0 125 2151     \n"
    " 2.248700+6 5.000000-1 4.447600+5 3.600000+0 0.000000+0 0.000000+0 125 2151     \n"
    " 3.007300+6 5.000000-1 2.899600+2 3.600000+0 0.000000+0 0.000000+0 125 2151     \n"
    " 3.067800+6 5.000000-1 4.222900+2 3.600000+0 0.000000+0 0.000000+0 125 2151     \n"
    " 2.773700+1 4.943700-1          1          0        102         17 125 2151     \n"
    " 6.773300+4 1.500000+0 2.658900+0 2.500000+0 0.000000+0 0.000000+0 125 2151     \n"
    " 8.679700+4 1.500000+0 7.261800-1 2.500000+0 0.000000+0 0.000000+0 125 2151     \n"
    " 3.996800+5 1.500000+0 8.136100-1 6.600000-1 0.000000+0 0.000000+0 125 2151     \n"
    " 5.326600+5 1.500000+0 5.328100+2 2.500000+0 0.000000+0 0.000000+0 125 2151     \n"
    " 5.655800+5 1.500000+0 1.095300+4 2.900000+0 0.000000+0 0.000000+0 125 2151     \n"
    " 5.871700+5 5.000000-1 1.991600+2 8.800000+0 0.000000+0 0.000000+0 125 2151     \n"
    " 7.140400+5 1.500000+0 1.216500+0 2.500000+0 0.000000+0 0.000000+0 125 2151     \n"
    " 8.124900+5 1.500000+0 3.010000+4 9.700000+0 0.000000+0 0.000000+0 125 2151     \n"
    " 9.100400+5 1.500000+0 3.673300+3 1.130000+0 0.000000+0 0.000000+0 125 2151     \n"
    " 9.622300+5 5.000000-1 7.661400+4 1.600000+1 0.000000+0 0.000000+0 125 2151     \n"
    " 1.199500+6 5.000000-1 1.491400+4 7.600000+0 0.000000+0 0.000000+0 125 2151     \n"
    " 1.408300+6 1.500000+0 5.198300+3 2.700000+0 0.000000+0 0.000000+0 125 2151     \n"
    " 1.482400+6 5.000000-1 8.869400-1 8.800000+0 0.000000+0 0.000000+0 125 2151     \n"
    " 1.592800+6 5.000000-1 1.119900+4 8.800000+0 0.000000+0 0.000000+0 125 2151     \n"
    " 1.658600+6 5.000000-1 1.555300+3 8.800000+0 0.000000+0 0.000000+0 125 2151     \n"
    " 1.805700+6 1.500000+0 1.299100+3 2.500000+0 0.000000+0 0.000000+0 125 2151     \n"
    " 1.852400+6 1.500000+0 7.070700+4 2.500000+0 0.000000+0 0.000000+0 125 2151     \n"
    " 2.773700+1 4.136400-1          2          0        150         25 125 2151     \n"
    " 3.174000+4 2.500000+0 1.566700-2 1.000000+0 0.000000+0 0.000000+0 125 2151     \n"
    " 7.080000+4 2.500000+0 2.961700-2 1.000000+0 0.000000+0 0.000000+0 125 2151     \n"
    " 2.987000+5 2.500000+0 9.886000+0 1.000000+0 0.000000+0 0.000000+0 125 2151     \n"
    " 3.545900+5 2.500000+0 1.446000+1 1.000000+0 0.000000+0 0.000000+0 125 2151     \n"
    " 6.024700+5 1.500000+0 5.049100+1 3.400000+0 0.000000+0 0.000000+0 125 2151     \n"
    " 7.717100+5 2.500000+0 5.313900+1 1.000000+0 0.000000+0 0.000000+0 125 2151     \n"
    " 8.452300+5 1.500000+0 3.979100+2 2.000000+0 0.000000+0 0.000000+0 125 2151     \n"
    " 8.723100+5 2.500000+0 3.214000+1 1.300000+0 0.000000+0 0.000000+0 125 2151     \n"
    " 1.017800+6 2.500000+0 7.619200+1 1.000000+0 0.000000+0 0.000000+0 125 2151     \n"
    " 1.042900+6 2.500000+0 9.337000+2 1.000000+0 0.000000+0 0.000000+0 125 2151     \n"
    " 1.148100+6 2.500000+0 3.146900+0 1.000000+0 0.000000+0 0.000000+0 125 2151     \n"
    " 1.264400+6 2.500000+0 8.436400+2 1.000000+0 0.000000+0 0.000000+0 125 2151     \n"
    " 1.379900+6 1.500000+0 6.529900+1 2.400000+0 0.000000+0 0.000000+0 125 2151     \n"
    " 1.479900+6 1.500000+0 3.502500+3 1.650000+0 0.000000+0 0.000000+0 125 2151     \n"
    " 1.512300+6 2.500000+0 9.149300+1 1.000000+0 0.000000+0 0.000000+0 125 2151     \n"
    " 1.528700+6 1.500000+0 2.922500+3 2.400000+0 0.000000+0 0.000000+0 125 2151     \n"
    " 1.580600+6 1.500000+0 1.495500+3 2.400000+0 0.000000+0 0.000000+0 125 2151     \n"
    " 1.597200+6 1.500000+0 4.017200+3 2.400000+0 0.000000+0 0.000000+0 125 2151     \n"
    " 1.639600+6 2.500000+0 1.529300+4 1.000000+0 0.000000+0 0.000000+0 125 2151     \n"
    " 1.651100+6 2.500000+0 2.155500+4 1.000000+0 0.000000+0 0.000000+0 125 2151     \n"
    " 1.665000+6 1.500000+0 2.159000+2 2.400000+0 0.000000+0 0.000000+0 125 2151     \n"
    " 1.785000+6 1.500000+0 1.929400+2 2.400000+0 0.000000+0 0.000000+0 125 2151     \n"
    " 1.850700+6 2.500000+0 3.551500+4 1.000000+0 0.000000+0 0.000000+0 125 2151     \n"
    " 1.923700+6 2.500000+0 1.017100+3 1.000000+0 0.000000+0 0.000000+0 125 2151     \n"
    " 1.968900+6 2.500000+0 5.734100+3 1.000000+0 0.000000+0 0.000000+0 125 2151     \n"
    "                                                                   125 2  0     \n") := by decide +kernel

theorem mf2mt151_chunkUnresolvedEnergyIndependent : RoundTrips .mf2mt151 125 (txt
    " 5.614000+4 1.387080+2          0          0          1          0 125 2151     \n"
    " 5.614000+4 1.000000+0          0          0          1          0 125 2151     \n"
    " 2.300000+4 1.000000+5          2          1          0          0 125 2151     \n"
    " 0.000000+0 6.233000-1          0          0          3          0 125 2151     \n"
    " 1.387090+2 0.000000+0          0          0          6          1 125 2151     \n"
    " 4.400000+3 5.000000-1 1.000000+0 4.400000-1 5.000000-2 0.000000+0 125 2151     \n"
    " 1.387090+2 0.000000+0          1          0         12          2 125 2151     \n"
    " 4.400000+3 5.000000-1 1.000000+0 5.280000-1 9.000000-2 0.000000+0 125 2151     \n"
    " 2.200000+3 1.500000+0 1.000000+0 2.640000-1 9.000000-2 0.000000+0 125 2151     \n"
    " 1.387090+2 0.000000+0          2          0         12          2 125 2151     \n"
    " 2.200000+3 1.500000+0 1.000000+0 3.300000-2 5.000000-2 0.000000+0 125 2151     \n"
    " 1.466670+3 2.500000+0 1.000000+0 2.200000-2 5.000000-2 0.000000+0 125 2151     \n"
    "                                                                   125 2  0     \n") := by decide +kernel

theorem mf2mt151_chunkUnresolvedEnergyDependentFission : RoundTrips .mf2mt151 125 (txt
    " 9.424000+4 2.379920+2          0          0          1          0 125 2151     \n"
    " 9.424000+4 1.000000+0          0          1          1          0 125 2151     \n"
    " 5.700000+3 4.000000+4          2          1          0          0 125 2151     \n"
    " 0.000000+0 8.880000-1          0          0         14          3 125 2151     \n"
    " 5.700000+3 7.000000+3 8.000000+3 9.000000+3 1.000000+4 1.200000+4 125 2151     \n"
    " 1.400000+4 1.600000+4 1.800000+4 2.000000+4 2.500000+4 3.000000+4 125 2151     \n"
    " 3.500000+4 4.000000+4                                             125 2151     \n"
    " 2.379920+2 0.000000+0          0          0          1          0 125 2151     \n"
    " 0.000000+0 0.000000+0          0          1         20          0 125 2151     \n"
    " 1.310000+1 5.000000-1 1.000000+0 1.572000-3 3.100000-2 0.000000+0 125 2151     \n"
    " 1.256000-3 1.544000-3 1.825000-3 2.025000-3 2.119000-3 2.051000-3 125 2151     \n"
    " 1.992000-3 1.879000-3 1.860000-3 1.838000-3 1.694000-3 1.581000-3 125 2151     \n"
    " 1.481000-3 1.403000-3                                             125 2151     \n"
    " 2.379920+2 0.000000+0          1          0          2          0 125 2151     \n"
    " 0.000000+0 0.000000+0          1          1         20          0 125 2151     \n"
    " 1.310000+1 5.000000-1 1.000000+0 3.013000-3 3.100000-2 0.000000+0 125 2151     \n"
    " 4.314000-3 4.572000-3 4.740000-3 5.000000-3 5.520000-3 7.057000-3 125 2151     \n"
    " 8.251000-3 9.276000-3 9.930000-3 1.035000-2 1.210000-2 1.341000-2 125 2151     \n"
    " 1.456000-2 1.542000-2                                             125 2151     \n"
    " 0.000000+0 0.000000+0          1          2         20          0 125 2151     \n"
    " 6.697000+0 1.500000+0 1.000000+0 1.540000-3 3.100000-2 0.000000+0 125 2151     \n"
    " 1.207000-3 1.299000-3 1.326000-3 1.397000-3 1.544000-3 1.973000-3 125 2151     \n"
    " 2.317000-3 2.581000-3 2.811000-3 3.075000-3 3.494000-3 3.887000-3 125 2151     \n"
    " 4.290000-3 4.586000-3                                             125 2151     \n"
    " 2.379920+2 0.000000+0          2          0          2          0 125 2151     \n"
    " 0.000000+0 0.000000+0          2          1         20          0 125 2151     \n"
    " 6.697000+0 1.500000+0 1.000000+0 8.304300-4 3.100000-2 0.000000+0 125 2151     \n"
    " 1.000000-9 1.000000-9 1.000000-9 1.000000-9 1.000000-9 1.000000-9 125 2151     \n"
    " 1.000000-9 1.000000-9 1.000000-9 1.000000-9 1.000000-9 1.000000-9 125 2151     \n"
    " 1.000000-9 1.000000-9                                             125 2151     \n"
    " 0.000000+0 0.000000+0          2          2         20          0 125 2151     \n"
    " 4.633000+0 2.500000+0 1.000000+0 5.744900-4 3.100000-2 0.000000+0 125 2151     \n"
    " 1.000000-9 1.000000-9 1.000000-9 1.000000-9 1.000000-9 1.000000-9 125 2151     \n"
    " 1.000000-9 1.000000-9 1.000000-9 1.000000-9 1.000000-9 1.000000-9 125 2151     \n"
    " 1.000000-9 1.000000-9                                             125 2151     \n"
    "                                                                   125 2  0     \n") := by decide +kernel

theorem mf2mt151_chunkUnresolvedEnergyDependent : RoundTrips .mf2mt151 125 (txt
    " 3.809000+4 8.913540+1          0          0          1          0 125 2151     \n"
    " 3.809000+4 1.000000+0          0          1          1          0 125 2151     \n"
    " 6.000000+3 1.000000+5          2          2          0          0 125 2151     \n"
    " 0.000000+0 6.795900-1          0          0          3          0 125 2151     \n"
    " 8.913540+1 0.000000+0          0          0          1          0 125 2151     \n"
    " 5.000000-1 0.000000+0          5          0         84         13 125 2151     \n"
    " 0.000000+0 0.000000+0 0.000000+0 1.000000+0 0.000000+0 0.000000+0 125 2151     \n"
    " 6.000000+3 1.240600+4 0.000000+0 4.590100-1 2.050000-1 0.000000+0 125 2151     \n"
    " 7.000000+3 1.240600+4 0.000000+0 4.590100-1 2.050000-1 0.000000+0 125 2151     \n"
    " 8.000000+3 1.240600+4 0.000000+0 4.590100-1 2.050000-1 0.000000+0 125 2151     \n"
    " 1.000000+4 1.231300+4 0.000000+0 4.555800-1 2.050000-1 0.000000+0 125 2151     \n"
    " 1.500000+4 1.226300+4 0.000000+0 4.537400-1 2.050000-1 0.000000+0 125 2151     \n"
    " 2.500000+4 1.212200+4 0.000000+0 4.485000-1 2.050000-1 0.000000+0 125 2151     \n"
    " 3.000000+4 1.205400+4 0.000000+0 4.460100-1 2.050000-1 0.000000+0 125 2151     \n"
    " 4.000000+4 1.191800+4 0.000000+0 4.409700-1 2.050000-1 0.000000+0 125 2151     \n"
    " 5.000000+4 1.181000+4 0.000000+0 4.369800-1 2.050000-1 0.000000+0 125 2151     \n"
    " 6.000000+4 1.113000+4 0.000000+0 4.118100-1 2.050000-1 0.000000+0 125 2151     \n"
    " 7.000000+4 1.077400+4 0.000000+0 3.986200-1 2.050000-1 0.000000+0 125 2151     \n"
    " 8.000000+4 1.039500+4 0.000000+0 3.846100-1 2.050000-1 0.000000+0 125 2151     \n"
    " 1.000000+5 9.669700+3 0.000000+0 3.577800-1 2.050000-1 0.000000+0 125 2151     \n"
    " 8.913540+1 0.000000+0          1          0          2          0 125 2151     \n"
    " 5.000000-1 0.000000+0          5          0         84         13 125 2151     \n"
    " 0.000000+0 0.000000+0 0.000000+0 1.000000+0 0.000000+0 0.000000+0 125 2151     \n"
    " 6.000000+3 1.240600+4 0.000000+0 6.723800+0 2.050000-1 0.000000+0 125 2151     \n"
    " 7.000000+3 1.240600+4 0.000000+0 6.723800+0 2.050000-1 0.000000+0 125 2151     \n"
    " 8.000000+3 1.240600+4 0.000000+0 6.723800+0 2.050000-1 0.000000+0 125 2151     \n"
    " 1.000000+4 1.231300+4 0.000000+0 6.673600+0 2.050000-1 0.000000+0 125 2151     \n"
    " 1.500000+4 1.226300+4 0.000000+0 6.646600+0 2.050000-1 0.000000+0 125 2151     \n"
    " 2.500000+4 1.212200+4 0.000000+0 6.569900+0 2.050000-1 0.000000+0 125 2151     \n"
    " 3.000000+4 1.205400+4 0.000000+0 6.533500+0 2.050000-1 0.000000+0 125 2151     \n"
    " 4.000000+4 1.191800+4 0.000000+0 6.459600+0 2.050000-1 0.000000+0 125 2151     \n"
    " 5.000000+4 1.181000+4 0.000000+0 6.401200+0 2.050000-1 0.000000+0 125 2151     \n"
    " 6.000000+4 1.113000+4 0.000000+0 6.032400+0 2.050000-1 0.000000+0 125 2151     \n"
    " 7.000000+4 1.077400+4 0.000000+0 5.839300+0 2.050000-1 0.000000+0 125 2151     \n"
    " 8.000000+4 1.039500+4 0.000000+0 5.634100+0 2.050000-1 0.000000+0 125 2151     \n"
    " 1.000000+5 9.669700+3 0.000000+0 5.241000+0 2.050000-1 0.000000+0 125 2151     \n"
    " 1.500000+0 0.000000+0          5          0         84         13 125 2151     \n"
    " 0.000000+0 0.000000+0 0.000000+0 1.000000+0 0.000000+0 0.000000+0 125 2151     \n"
    " 6.000000+3 6.202800+3 0.000000+0 3.361900+0 2.050000-1 0.000000+0 125 2151     \n"
    " 7.000000+3 6.202800+3 0.000000+0 3.361900+0 2.050000-1 0.000000+0 125 2151     \n"
    " 8.000000+3 6.202800+3 0.000000+0 3.361900+0 2.050000-1 0.000000+0 125 2151     \n"
    " 1.000000+4 6.156500+3 0.000000+0 3.336800+0 2.050000-1 0.000000+0 125 2151     \n"
    " 1.500000+4 6.131600+3 0.000000+0 3.323300+0 2.050000-1 0.000000+0 125 2151     \n"
    " 2.500000+4 6.060800+3 0.000000+0 3.285000+0 2.050000-1 0.000000+0 125 2151     \n"
    " 3.000000+4 6.027200+3 0.000000+0 3.266800+0 2.050000-1 0.000000+0 125 2151     \n"
    " 4.000000+4 5.959100+3 0.000000+0 3.229800+0 2.050000-1 0.000000+0 125 2151     \n"
    " 5.000000+4 5.905100+3 0.000000+0 3.200600+0 2.050000-1 0.000000+0 125 2151     \n"
    " 6.000000+4 5.564900+3 0.000000+0 3.016200+0 2.050000-1 0.000000+0 125 2151     \n"
    " 7.000000+4 5.386800+3 0.000000+0 2.919600+0 2.050000-1 0.000000+0 125 2151     \n"
    " 8.000000+4 5.197500+3 0.000000+0 2.817000+0 2.050000-1 0.000000+0 125 2151     \n"
    " 1.000000+5 4.834900+3 0.000000+0 2.620500+0 2.050000-1 0.000000+0 125 2151     \n"
    " 8.913540+1 0.000000+0          2          0          2          0 125 2151     \n"
    " 1.500000+0 0.000000+0          5          0         84         13 125 2151     \n"
    " 0.000000+0 0.000000+0 0.000000+0 1.000000+0 0.000000+0 0.000000+0 125 2151     \n"
    " 6.000000+3 6.202800+3 0.000000+0 2.233000-1 2.050000-1 0.000000+0 125 2151     \n"
    " 7.000000+3 6.202800+3 0.000000+0 2.233000-1 2.050000-1 0.000000+0 125 2151     \n"
    " 8.000000+3 6.202800+3 0.000000+0 2.233000-1 2.050000-1 0.000000+0 125 2151     \n"
    " 1.000000+4 6.156500+3 0.000000+0 2.216300-1 2.050000-1 0.000000+0 125 2151     \n"
    " 1.500000+4 6.131600+3 0.000000+0 2.207400-1 2.050000-1 0.000000+0 125 2151     \n"
    " 2.500000+4 6.060800+3 0.000000+0 2.181900-1 2.050000-1 0.000000+0 125 2151     \n"
    " 3.000000+4 6.027200+3 0.000000+0 2.169800-1 2.050000-1 0.000000+0 125 2151     \n"
    " 4.000000+4 5.959100+3 0.000000+0 2.145300-1 2.050000-1 0.000000+0 125 2151     \n"
    " 5.000000+4 5.905100+3 0.000000+0 2.125900-1 2.050000-1 0.000000+0 125 2151     \n"
    " 6.000000+4 5.564900+3 0.000000+0 2.003400-1 2.050000-1 0.000000+0 125 2151     \n"
    " 7.000000+4 5.386800+3 0.000000+0 1.939200-1 2.050000-1 0.000000+0 125 2151     \n"
    " 8.000000+4 5.197500+3 0.000000+0 1.871100-1 2.050000-1 0.000000+0 125 2151     \n"
    " 1.000000+5 4.834900+3 0.000000+0 1.740500-1 2.050000-1 0.000000+0 125 2151     \n"
    " 2.500000+0 0.000000+0          5          0         84         13 125 2151     \n"
    " 0.000000+0 0.000000+0 0.000000+0 1.000000+0 0.000000+0 0.000000+0 125 2151     \n"
    " 6.000000+3 4.135200+3 0.000000+0 1.488700-1 2.050000-1 0.000000+0 125 2151     \n"
    " 7.000000+3 4.135200+3 0.000000+0 1.488700-1 2.050000-1 0.000000+0 125 2151     \n"
    " 8.000000+3 4.135200+3 0.000000+0 1.488700-1 2.050000-1 0.000000+0 125 2151     \n"
    " 1.000000+4 4.104300+3 0.000000+0 1.477600-1 2.050000-1 0.000000+0 125 2151     \n"
    " 1.500000+4 4.087700+3 0.000000+0 1.471600-1 2.050000-1 0.000000+0 125 2151     \n"
    " 2.500000+4 4.040500+3 0.000000+0 1.454600-1 2.050000-1 0.000000+0 125 2151     \n"
    " 3.000000+4 4.018100+3 0.000000+0 1.446500-1 2.050000-1 0.000000+0 125 2151     \n"
    " 4.000000+4 3.972700+3 0.000000+0 1.430200-1 2.050000-1 0.000000+0 125 2151     \n"
    " 5.000000+4 3.936800+3 0.000000+0 1.417200-1 2.050000-1 0.000000+0 125 2151     \n"
    " 6.000000+4 3.710000+3 0.000000+0 1.335600-1 2.050000-1 0.000000+0 125 2151     \n"
    " 7.000000+4 3.591200+3 0.000000+0 1.292800-1 2.050000-1 0.000000+0 125 2151     \n"
    " 8.000000+4 3.465000+3 0.000000+0 1.247400-1 2.050000-1 0.000000+0 125 2151     \n"
    " 1.000000+5 3.223200+3 0.000000+0 1.160400-1 2.050000-1 0.000000+0 125 2151     \n"
    "                                                                   125 2  0     \n") := by decide +kernel

theorem mf2mt152_chunkWithOneDilution : RoundTrips .mf2mt152 9437 (txt
    " 9.423900+4 2.369986+2          1          0          0          29437 2152     \n"
    " 0.000000+0 0.000000+0          5          1         19          39437 2152     \n"
    " 1.00000+10 2.500000+3 2.009120+1 1.343187+1 4.234708+0 2.424629+09437 2152     \n"
    " 2.009120+1 2.550000+3 1.923568+1 1.375705+1 2.725074+0 2.753559+09437 2152     \n"
    " 1.923568+1 3.000000+4 1.366039+1 1.156033+1 1.572008+0 5.280525-19437 2152     \n"
    " 1.366039+1                                                       9437 2152     \n"
    "                                                                  9437 2  0     \n") := by decide +kernel

theorem mf2mt152_invalidChunk : Rejected .mf2mt152 (txt
    " 9.423900+4 2.369986+2          1          0          0          29437 2152     \n"
    " 0.000000+0 0.000000+0          5          2         19          39437 2152     \n"
    " 1.00000+10 2.500000+3 2.009120+1 1.343187+1 4.234708+0 2.424629+09437 2152     \n"
    " 2.009120+1 2.550000+3 1.923568+1 1.375705+1 2.725074+0 2.753559+09437 2152     \n"
    " 1.923568+1 3.000000+4 1.366039+1 1.156033+1 1.572008+0 5.280525-19437 2152     \n"
    " 1.366039+1                                                       9437 2152     \n"
    "                                                                  9437 2  0     \n") := by decide +kernel

theorem mf23_chunk : RoundTrips .mf23 100 (txt
    " 1.000000+3 9.992414-1          0          0          0          0 10023525     \n"
    " 1.000000+0 2.000000+0          0          0          1          2 10023525     \n"
    "          2          2                                             10023525     \n"
    " 1.000000+1 2.748960+8 1.00000+11 1.311760-5                       10023525     \n"
    "                                                                   10023  0     \n") := by decide +kernel

theorem mf23_chunk_wrongSEND : Rejected .mf23 (txt
    " 1.000000+3 9.992414-1          0          0          0          0 10023525     \n"
    " 1.000000+0 2.000000+0          0          0          1          2 10023525     \n"
    "          2          2                                             10023525     \n"
    " 1.000000+1 2.748960+8 1.00000+11 1.311760-5                       10023525     \n"
    "                                                                   10023  1     \n") := by decide +kernel

theorem mf26_chunk : RoundTrips .mf26 100 (txt
    " 1.000000+3 9.992414-1          0          0          1          0 10026525     \n"
    " 1.000000+3 9.992414-1          0          1          1          2 10026525     \n"
    "          2          4                                             10026525     \n"
    " 1.000000+1 1.000000+0 1.00000+11 1.000000+0                       10026525     \n"
    " 0.000000+0 0.000000+0          1          2          1          2 10026525     \n"
    "          2          1                                             10026525     \n"
    " 0.000000+0 1.000000+1          0          0          4          2 10026525     \n"
    " 1.000000-1 2.139400+0 1.000000+1 2.122450-2                       10026525     \n"
    " 0.000000+0 1.00000+11          0          0          4          2 10026525     \n"
    " 1.000000-1 1.848230+0 1.00000+11 8.766410-3                       10026525     \n"
    "                                                                   10026  0     \n") := by decide +kernel

theorem mf26_chunk_wrongSEND : Rejected .mf26 (txt
    " 1.000000+3 9.992414-1          0          0          1          0 10026525     \n"
    " 1.000000+3 9.992414-1          0          1          1          2 10026525     \n"
    "          2          4                                             10026525     \n"
    " 1.000000+1 1.000000+0 1.00000+11 1.000000+0                       10026525     \n"
    " 0.000000+0 0.000000+0          1          2          1          2 10026525     \n"
    "          2          1                                             10026525     \n"
    " 0.000000+0 1.000000+1          0          0          4          2 10026525     \n"
    " 1.000000-1 2.139400+0 1.000000+1 2.122450-2                       10026525     \n"
    " 0.000000+0 1.00000+11          0          0          4          2 10026525     \n"
    " 1.000000-1 1.848230+0 1.00000+11 8.766410-3                       10026525     \n"
    "                                                                   10026  1     \n") := by decide +kernel

theorem mf26_invalidLAW : Rejected .mf26 (txt
    " 1.000000+3 9.992414-1          0          0          1          0 10026525     \n"
    " 1.000000+3 9.992414-1          0          3          1          2 10026525     \n"
    "          2          4                                             10026525     \n"
    " 1.000000+1 1.000000+0 1.00000+11 1.000000+0                       10026525     \n"
    " 0.000000+0 0.000000+0          1          2          1          2 10026525     \n"
    "          2          1                                             10026525     \n"
    " 0.000000+0 1.000000+1          0          0          4          2 10026525     \n"
    " 1.000000-1 2.139400+0 1.000000+1 2.122450-2                       10026525     \n"
    " 0.000000+0 1.00000+11          0          0          4          2 10026525     \n"
    " 1.000000-1 1.848230+0 1.00000+11 8.766410-3                       10026525     \n"
    "                                                                   10026  0     \n") := by decide +kernel

theorem mf27_chunk : RoundTrips .mf27 100 (txt
    " 1.000000+3 9.992414-1          0          0          0          0 10027502     \n"
    " 0.000000+0 1.000000+0          0          0          1          2 10027502     \n"
    "          2          2                                             10027502     \n"
    " 0.000000+0 1.000000+0 1.000000+9 2.000000+0                       10027502     \n"
    "                                                                   10027  0     \n") := by decide +kernel

theorem mf27_chunk_wrongSEND : Rejected .mf27 (txt
    " 1.000000+3 9.992414-1          0          0          0          0 10027502     \n"
    " 0.000000+0 1.000000+0          0          0          1          2 10027502     \n"
    "          2          2                                             10027502     \n"
    " 0.000000+0 1.000000+0 1.000000+9 2.000000+0                       10027502     \n"
    "                                                                   10027  1     \n") := by decide +kernel

theorem mf28_chunk : RoundTrips .mf28 100 (txt
    " 1.000000+3 9.992414-1          0          0          2          0 10028533     \n"
    " 1.000000+0 0.000000+0          0          0         18          2 10028533     \n"
    " 1.156100+4 2.000000+0 0.000000+0 0.000000+0 0.000000+0 0.000000+0 10028533     \n"
    " 3.000000+0 2.000000+0 9.506600+4 7.500000-1 0.000000+0 0.000000+0 10028533     \n"
    " 4.000000+0 3.000000+0 9.892800+4 2.500000-1 0.000000+0 0.000000+0 10028533     \n"
    " 2.000000+0 0.000000+0          0          0         12          1 10028533     \n"
    " 2.000000+3 1.000000+0 0.000000+0 0.000000+0 0.000000+0 0.000000+0 10028533     \n"
    " 1.000000+0 0.000000+0 1.000000+3 1.000000+0 0.000000+0 0.000000+0 10028533     \n"
    "                                                                   10028  0     \n") := by decide +kernel

theorem mf28_chunk_wrongSEND : Rejected .mf28 (txt
    " 1.000000+3 9.992414-1          0          0          2          0 10028533     \n"
    " 1.000000+0 0.000000+0          0          0         18          2 10028533     \n"
    " 1.156100+4 2.000000+0 0.000000+0 0.000000+0 0.000000+0 0.000000+0 10028533     \n"
    " 3.000000+0 2.000000+0 9.506600+4 7.500000-1 0.000000+0 0.000000+0 10028533     \n"
    " 4.000000+0 3.000000+0 9.892800+4 2.500000-1 0.000000+0 0.000000+0 10028533     \n"
    " 2.000000+0 0.000000+0          0          0         12          1 10028533     \n"
    " 2.000000+3 1.000000+0 0.000000+0 0.000000+0 0.000000+0 0.000000+0 10028533     \n"
    " 1.000000+0 0.000000+0 1.000000+3 1.000000+0 0.000000+0 0.000000+0 10028533     \n"
    "                                                                   10028  1     \n") := by decide +kernel

theorem mf3_chunk : RoundTrips .mf3 125 (txt
    " 1.001000+3 9.991673-1          0          0          0          0 125 3102     \n"
    " 2.224648+6 3.224648+6          0          0          2          6 125 3102     \n"
    "          3          5          6          2                       125 3102     \n"
    " 1.000000-5 1.672869+1 2.000000-5 1.182897+1 7.500000+5 3.347392-5 125 3102     \n"
    " 1.900000+7 2.751761-5 1.950000+7 2.731301-5 2.000000+7 2.710792-5 125 3102     \n"
    "                                                                   125 3  0     \n") := by decide +kernel

theorem mf3_chunk_wrongSEND : Rejected .mf3 (txt
    " 1.001000+3 9.991673-1          0          0          0          0 125 3102     \n"
    " 2.224648+6 3.224648+6          0          0          2          6 125 3102     \n"
    "          3          5          6          2                       125 3102     \n"
    " 1.000000-5 1.672869+1 2.000000-5 1.182897+1 7.500000+5 3.347392-5 125 3102     \n"
    " 1.900000+7 2.751761-5 1.950000+7 2.731301-5 2.000000+7 2.710792-5 125 3102     \n"
    "                                                                   125 3  1     \n") := by decide +kernel

theorem mf3_chunkWithOneZone : RoundTrips .mf3 125 (txt
    " 1.001000+3 9.991673-1          0          0          0          0 125 3102     \n"
    " 2.224648+6 3.224648+6          0          0          1          6 125 3102     \n"
    "          6          2                                             125 3102     \n"
    " 1.000000-5 1.672869+1 2.000000-5 1.182897+1 7.500000+5 3.347392-5 125 3102     \n"
    " 1.900000+7 2.751761-5 1.950000+7 2.731301-5 2.000000+7 2.710792-5 125 3102     \n"
    "                                                                   125 3  0     \n") := by decide +kernel

theorem mf31_chunk : RoundTrips .mf31 9437 (txt
    " 9.423900+4 2.369986+2          0          0          0          1943731  2     \n"
    " 1.000000+0 2.000000+0          3          4          1          1943731  2     \n"
    " 0.000000+0 0.000000+0          0          0          0          0943731  2     \n"
    " 2.500000+3 2.000000+7          0          0         14          7943731  2     \n"
    " 1.000000+0 1.000000+0-1.000000+0 4.000000+0-1.000000+0 1.600000+1943731  2     \n"
    "-1.000000+0 1.700000+1-1.000000+0 1.800000+1-1.000000+0 3.700000+1943731  2     \n"
    "-1.000000+0 1.020000+2                                            943731  2     \n"
    " 0.000000+0 0.000000+0          0          5          7          3943731  2     \n"
    " 0.000000+0 1.000000+2 2.000000+2 1.000000+0 2.000000+0 3.000000+0943731  2     \n"
    " 4.000000+0                                                       943731  2     \n"
    "                                                                  943731  0     \n") := by decide +kernel

theorem mf31_chunk_wrongSEND : Rejected .mf31 (txt
    " 9.423900+4 2.369986+2          0          0          0          1943731  2     \n"
    " 1.000000+0 2.000000+0          3          4          1          1943731  2     \n"
    " 0.000000+0 0.000000+0          0          0          0          0943731  2     \n"
    " 2.500000+3 2.000000+7          0          0         14          7943731  2     \n"
    " 1.000000+0 1.000000+0-1.000000+0 4.000000+0-1.000000+0 1.600000+1943731  2     \n"
    "-1.000000+0 1.700000+1-1.000000+0 1.800000+1-1.000000+0 3.700000+1943731  2     \n"
    "-1.000000+0 1.020000+2                                            943731  2     \n"
    " 0.000000+0 0.000000+0          0          5          7          3943731  2     \n"
    " 0.000000+0 1.000000+2 2.000000+2 1.000000+0 2.000000+0 3.000000+0943731  2     \n"
    " 4.000000+0                                                       943731  2     \n"
    "                                                                  943731  2     \n") := by decide +kernel

theorem mf33_chunk : RoundTrips .mf33 9437 (txt
    " 9.423900+4 2.369986+2          0          0          0          1943733  2     \n"
    " 1.000000+0 2.000000+0          3          4          1          1943733  2     \n"
    " 0.000000+0 0.000000+0          0          0          0          0943733  2     \n"
    " 2.500000+3 2.000000+7          0          0         14          7943733  2     \n"
    " 1.000000+0 1.000000+0-1.000000+0 4.000000+0-1.000000+0 1.600000+1943733  2     \n"
    "-1.000000+0 1.700000+1-1.000000+0 1.800000+1-1.000000+0 3.700000+1943733  2     \n"
    "-1.000000+0 1.020000+2                                            943733  2     \n"
    " 0.000000+0 0.000000+0          0          5          7          3943733  2     \n"
    " 0.000000+0 1.000000+2 2.000000+2 1.000000+0 2.000000+0 3.000000+0943733  2     \n"
    " 4.000000+0                                                       943733  2     \n"
    "                                                                  943733  0     \n") := by decide +kernel

theorem mf33_chunk_wrongSEND : Rejected .mf33 (txt
    " 9.423900+4 2.369986+2          0          0          0          1943733  2     \n"
    " 1.000000+0 2.000000+0          3          4          1          1943733  2     \n"
    " 0.000000+0 0.000000+0          0          0          0          0943733  2     \n"
    " 2.500000+3 2.000000+7          0          0         14          7943733  2     \n"
    " 1.000000+0 1.000000+0-1.000000+0 4.000000+0-1.000000+0 1.600000+1943733  2     \n"
    "-1.000000+0 1.700000+1-1.000000+0 1.800000+1-1.000000+0 3.700000+1943733  2     \n"
    "-1.000000+0 1.020000+2                                            943733  2     \n"
    " 0.000000+0 0.000000+0          0          5          7          3943733  2     \n"
    " 0.000000+0 1.000000+2 2.000000+2 1.000000+0 2.000000+0 3.000000+0943733  2     \n"
    " 4.000000+0                                                       943733  2     \n"
    "                                                                  943733  2     \n") := by decide +kernel

theorem mf34_chunk : RoundTrips .mf34 9437 (txt
    " 9.423900+4 2.369986+2          0          1          0          1943734  2     \n"
    " 0.000000+0 0.000000+0          0         51          1          1943734  2     \n"
    " 0.000000+0 0.000000+0          1          1          0          1943734  2     \n"
    " 0.000000+0 0.000000+0          0          5          7          3943734  2     \n"
    " 0.000000+0 1.000000+2 2.000000+2 1.000000+0 2.000000+0 3.000000+0943734  2     \n"
    " 4.000000+0                                                       943734  2     \n"
    "                                                                  943734  0     \n") := by decide +kernel

theorem mf34_chunk_wrongSEND : Rejected .mf34 (txt
    " 9.423900+4 2.369986+2          0          1          0          1943734  2     \n"
    " 0.000000+0 0.000000+0          0         51          1          1943734  2     \n"
    " 0.000000+0 0.000000+0          1          1          0          1943734  2     \n"
    " 0.000000+0 0.000000+0          0          5          7          3943734  2     \n"
    " 0.000000+0 1.000000+2 2.000000+2 1.000000+0 2.000000+0 3.000000+0943734  2     \n"
    " 4.000000+0                                                       943734  2     \n"
    "                                                                  943734  2     \n") := by decide +kernel

theorem mf35_chunk : RoundTrips .mf35 9437 (txt
    " 9.423900+4 2.369986+2          0          0          1          0943735 18     \n"
    " 0.000000+0 1.000000+6          1          7          6          3943735 18     \n"
    " 0.000000+0 1.000000+2 2.000000+2 1.000000+0 2.000000+0 3.000000+0943735 18     \n"
    "                                                                  943735  0     \n") := by decide +kernel

theorem mf35_chunk_wrongSEND : Rejected .mf35 (txt
    " 9.423900+4 2.369986+2          0          0          1          0943735 18     \n"
    " 0.000000+0 1.000000+6          1          7          6          3943735 18     \n"
    " 0.000000+0 1.000000+2 2.000000+2 1.000000+0 2.000000+0 3.000000+0943735 18     \n"
    "                                                                  943735  2     \n") := by decide +kernel

theorem mf4_chunkWithLTT0 : RoundTrips .mf4 9228 (txt
    " 9.223500+4 2.330250+2          0          0          0          09228 4 18     \n"
    " 0.000000+0 2.330250+2          1          1          0          09228 4 18     \n"
    "                                                                  9228 4  0     \n") := by decide +kernel

theorem mf4_chunkWithLTT0_wrongSEND : Rejected .mf4 (txt
    " 9.223500+4 2.330250+2          0          0          0          09228 4 18     \n"
    " 0.000000+0 2.330250+2          1          1          0          09228 4 18     \n"
    "                                                                  9228 4  4     \n") := by decide +kernel

theorem mf4_chunkWithLTT1 : RoundTrips .mf4 9228 (txt
    " 9.223500+4 2.330250+2          0          1          0          09228 4  2     \n"
    " 0.000000+0 2.330250+2          0          1          0          09228 4  2     \n"
    " 0.000000+0 0.000000+0          0          0          1          29228 4  2     \n"
    "          2          1                                            9228 4  2     \n"
    " 0.000000+0 1.000000-5          0          0          3          09228 4  2     \n"
    " 7.392510-5 8.477139-9 1.17106-13                                 9228 4  2     \n"
    " 0.000000+0 2.000000+7          0          0          2          09228 4  2     \n"
    " 2.874390-2 3.19645-11                                            9228 4  2     \n"
    "                                                                  9228 4  0     \n") := by decide +kernel

theorem mf4_chunkWithLTT2 : RoundTrips .mf4 9228 (txt
    " 9.223500+4 2.330250+2          0          2          0          09228 4  2     \n"
    " 0.000000+0 2.330250+2          0          1          0          09228 4  2     \n"
    " 0.000000+0 0.000000+0          0          0          1          29228 4  2     \n"
    "          2          1                                            9228 4  2     \n"
    " 0.000000+0 1.000000-5          0          0          1          29228 4  2     \n"
    "          2          2                                            9228 4  2     \n"
    "-1.000000+0 5.000000-1 1.000000+0 5.000000-1                      9228 4  2     \n"
    " 0.000000+0 2.000000+7          0          0          1          39228 4  2     \n"
    "          3          2                                            9228 4  2     \n"
    "-1.000000+0 0.000000+0 0.000000+0 1.000000+0 1.000000+0 0.000000+09228 4  2     \n"
    "                                                                  9228 4  0     \n") := by decide +kernel

theorem mf4_chunkWithLTT3 : RoundTrips .mf4 9228 (txt
    " 9.223500+4 2.330250+2          0          3          0          09228 4  2     \n"
    " 0.000000+0 2.330250+2          0          1          0          09228 4  2     \n"
    " 0.000000+0 0.000000+0          0          0          1          29228 4  2     \n"
    "          2          1                                            9228 4  2     \n"
    " 0.000000+0 1.000000-5          0          0          3          09228 4  2     \n"
    " 7.392510-5 8.477139-9 1.17106-13                                 9228 4  2     \n"
    " 0.000000+0 1.000000+6          0          0          2          09228 4  2     \n"
    " 2.874390-2 3.19645-11                                            9228 4  2     \n"
    " 0.000000+0 0.000000+0          0          0          1          29228 4  2     \n"
    "          2          5                                            9228 4  2     \n"
    " 0.000000+0 1.000000+6          0          0          1          29228 4  2     \n"
    "          2          2                                            9228 4  2     \n"
    "-1.000000+0 5.000000-1 1.000000+0 5.000000-1                      9228 4  2     \n"
    " 0.000000+0 2.000000+7          0          0          1          39228 4  2     \n"
    "          3          2                                            9228 4  2     \n"
    "-1.000000+0 0.000000+0 0.000000+0 1.000000+0 1.000000+0 0.000000+09228 4  2     \n"
    "                                                                  9228 4  0     \n") := by decide +kernel

theorem mf4_chunkWithInvalidLTT : Rejected .mf4 (txt
    " 9.223500+4 2.330250+2          0          4          0          09228 4 18     \n"
    " 0.000000+0 2.330250+2          1          1          0          09228 4 18     \n"
    "                                                                  9228 4  0     \n") := by decide +kernel

theorem mf40_chunk : RoundTrips .mf40 9437 (txt
    " 9.423900+4 2.369986+2          1          0          1          0943740 51     \n"
    " 3.140000+0 6.280000+0        314        628          0          2943740 51     \n"
    " 3.000000+0 1.000000+0         55         66          0          1943740 51     \n"
    " 0.000000+0 0.000000+0          0          5          7          3943740 51     \n"
    " 0.000000+0 1.000000+2 2.000000+2 1.000000+0 2.000000+0 3.000000+0943740 51     \n"
    " 4.000000+0                                                       943740 51     \n"
    " 3.000000+0 1.000000+0         77         88          0          1943740 51     \n"
    " 0.000000+0 0.000000+0          0          5          7          3943740 51     \n"
    " 0.000000+0 1.000000+2 2.000000+2 1.000000+0 2.000000+0 3.000000+0943740 51     \n"
    " 4.000000+0                                                       943740 51     \n"
    "                                                                  943740  0     \n") := by decide +kernel

theorem mf40_chunk_wrongSEND : Rejected .mf40 (txt
    " 9.423900+4 2.369986+2          1          0          1          0943740 51     \n"
    " 3.140000+0 6.280000+0        314        628          0          2943740 51     \n"
    " 3.000000+0 1.000000+0         55         66          0          1943740 51     \n"
    " 0.000000+0 0.000000+0          0          5          7          3943740 51     \n"
    " 0.000000+0 1.000000+2 2.000000+2 1.000000+0 2.000000+0 3.000000+0943740 51     \n"
    " 4.000000+0                                                       943740 51     \n"
    " 3.000000+0 1.000000+0         77         88          0          1943740 51     \n"
    " 0.000000+0 0.000000+0          0          5          7          3943740 51     \n"
    " 0.000000+0 1.000000+2 2.000000+2 1.000000+0 2.000000+0 3.000000+0943740 51     \n"
    " 4.000000+0                                                       943740 51     \n"
    "                                                                  943740 51     \n") := by decide +kernel

theorem mf5_chunk : RoundTrips .mf5 9228 (txt
    " 9.223500+4 2.330250+2          0          0          1          09228 5 18     \n"
    "-3.000000+7 0.000000+0          0          7          1          29228 5 18     \n"
    "          2          2                                            9228 5 18     \n"
    " 3.250000+6 1.000000+0 2.000000+7 1.000000+0                      9228 5 18     \n"
    " 0.000000+0 0.000000+0          0          0          1          39228 5 18     \n"
    "          3          5                                            9228 5 18     \n"
    " 3.250000+6 1.295500+6 1.500000+7 1.492300+6 2.000000+7 1.494470+69228 5 18     \n"
    "                                                                  9228 5  0     \n") := by decide +kernel

theorem mf5_chunk_wrongSEND : Rejected .mf5 (txt
    " 9.223500+4 2.330250+2          0          0          1          09228 5 18     \n"
    "-3.000000+7 0.000000+0          0          7          1          29228 5 18     \n"
    "          2          2                                            9228 5 18     \n"
    " 3.250000+6 1.000000+0 2.000000+7 1.000000+0                      9228 5 18     \n"
    " 0.000000+0 0.000000+0          0          0          1          39228 5 18     \n"
    "          3          5                                            9228 5 18     \n"
    " 3.250000+6 1.295500+6 1.500000+7 1.492300+6 2.000000+7 1.494470+69228 5 18     \n"
    "                                                                  9228 5  4     \n") := by decide +kernel

theorem mf5_chunkWithNK0 : Rejected .mf5 (txt
    " 9.223500+4 2.330250+2          0          0          0          09228 5 18     \n"
    "-3.000000+7 0.000000+0          0          7          1          29228 5 18     \n"
    "          2          2                                            9228 5 18     \n"
    " 3.250000+6 1.000000+0 2.000000+7 1.000000+0                      9228 5 18     \n"
    " 0.000000+0 0.000000+0          0          0          1          39228 5 18     \n"
    "          3          5                                            9228 5 18     \n"
    " 3.250000+6 1.295500+6 1.500000+7 1.492300+6 2.000000+7 1.494470+69228 5 18     \n"
    "                                                                  9228 5  0     \n") := by decide +kernel

theorem mf6_chunk : RoundTrips .mf6 9228 (txt
    " 9.223500+4 2.330248+2          0          2          3          09228 6  5     \n"
    " 1.001000+3 9.986234-1          0          1          1          49228 6  5     \n"
    "          4          2                                            9228 6  5     \n"
    " 1.000000-5 0.000000+0 1.100000+7 8.45368-11 1.147000+7 6.622950-89228 6  5     \n"
    " 2.000000+7 2.149790-1                                            9228 6  5     \n"
    " 0.000000+0 0.000000+0          1          2          1          29228 6  5     \n"
    "          2          1                                            9228 6  5     \n"
    " 0.000000+0 1.000000-5          0          1         12          49228 6  5     \n"
    " 1.000000+0 2.000000+0 3.000000+0 4.000000+0 5.000000+0 6.000000+09228 6  5     \n"
    " 7.000000+0 8.000000+0 9.000000+0 1.000000+1 1.100000+1 1.200000+19228 6  5     \n"
    " 0.000000+0 2.000000+7          0          1          6          29228 6  5     \n"
    " 1.000000+0 2.000000+0 3.000000+0 4.000000+0 5.000000+0 6.000000+09228 6  5     \n"
    " 1.000000+0 1.000000+0          0          1          1          29228 6  5     \n"
    "          2          2                                            9228 6  5     \n"
    " 1.858639+7 4.000000+0 2.000000+7 4.000000+0                      9228 6  5     \n"
    " 0.000000+0 0.000000+0          1          2          1          29228 6  5     \n"
    "          2         22                                            9228 6  5     \n"
    " 0.000000+0 1.858639+7          0          0          6          39228 6  5     \n"
    " 0.000000+0 0.000000+0 5.000000-1 2.000000+0 1.000000+0 0.000000+09228 6  5     \n"
    " 0.000000+0 2.000000+7          0          0          6          39228 6  5     \n"
    " 0.000000+0 0.000000+0 5.000000-1 2.000000+0 1.000000+0 0.000000+09228 6  5     \n"
    " 0.000000+0 0.000000+0          0          1          1          39228 6  5     \n"
    "          3          2                                            9228 6  5     \n"
    " 1.858639+7 1.000000+0 1.900000+7 2.000000+0 2.000000+7 3.000000+09228 6  5     \n"
    " 0.000000+0 0.000000+0          1          2          1          29228 6  5     \n"
    "          2          5                                            9228 6  5     \n"
    " 0.000000+0 1.858639+7          0          0          6          39228 6  5     \n"
    " 0.000000+0 0.000000+0 1.000000+0 1.000000+0 2.000000+0 0.000000+09228 6  5     \n"
    " 0.000000+0 2.000000+7          0          0          6          39228 6  5     \n"
    " 0.000000+0 0.000000+0 1.000000+0 1.000000+0 2.000000+0 0.000000+09228 6  5     \n"
    "                                                                  9228 6  0     \n") := by decide +kernel

theorem mf6_chunk_wrongSEND : Rejected .mf6 (txt
    " 9.223500+4 2.330248+2          0          2          3          09228 6  5     \n"
    " 1.001000+3 9.986234-1          0          1          1          49228 6  5     \n"
    "          4          2                                            9228 6  5     \n"
    " 1.000000-5 0.000000+0 1.100000+7 8.45368-11 1.147000+7 6.622950-89228 6  5     \n"
    " 2.000000+7 2.149790-1                                            9228 6  5     \n"
    " 0.000000+0 0.000000+0          1          2          1          29228 6  5     \n"
    "          2          1                                            9228 6  5     \n"
    " 0.000000+0 1.000000-5          0          1         12          49228 6  5     \n"
    " 1.000000+0 2.000000+0 3.000000+0 4.000000+0 5.000000+0 6.000000+09228 6  5     \n"
    " 7.000000+0 8.000000+0 9.000000+0 1.000000+1 1.100000+1 1.200000+19228 6  5     \n"
    " 0.000000+0 2.000000+7          0          1          6          29228 6  5     \n"
    " 1.000000+0 2.000000+0 3.000000+0 4.000000+0 5.000000+0 6.000000+09228 6  5     \n"
    " 1.000000+0 1.000000+0          0          1          1          29228 6  5     \n"
    "          2          2                                            9228 6  5     \n"
    " 1.858639+7 4.000000+0 2.000000+7 4.000000+0                      9228 6  5     \n"
    " 0.000000+0 0.000000+0          1          2          1          29228 6  5     \n"
    "          2         22                                            9228 6  5     \n"
    " 0.000000+0 1.858639+7          0          0          6          39228 6  5     \n"
    " 0.000000+0 0.000000+0 5.000000-1 2.000000+0 1.000000+0 0.000000+09228 6  5     \n"
    " 0.000000+0 2.000000+7          0          0          6          39228 6  5     \n"
    " 0.000000+0 0.000000+0 5.000000-1 2.000000+0 1.000000+0 0.000000+09228 6  5     \n"
    " 0.000000+0 0.000000+0          0          1          1          39228 6  5     \n"
    "          3          2                                            9228 6  5     \n"
    " 1.858639+7 1.000000+0 1.900000+7 2.000000+0 2.000000+7 3.000000+09228 6  5     \n"
    " 0.000000+0 0.000000+0          1          2          1          29228 6  5     \n"
    "          2          5                                            9228 6  5     \n"
    " 0.000000+0 1.858639+7          0          0          6          39228 6  5     \n"
    " 0.000000+0 0.000000+0 1.000000+0 1.000000+0 2.000000+0 0.000000+09228 6  5     \n"
    " 0.000000+0 2.000000+7          0          0          6          39228 6  5     \n"
    " 0.000000+0 0.000000+0 1.000000+0 1.000000+0 2.000000+0 0.000000+09228 6  5     \n"
    "                                                                  9228 6  1     \n") := by decide +kernel

theorem mf6_invalidLAW : Rejected .mf6 (txt
    " 9.223500+4 2.330248+2          0          2          3          09228 6  5     \n"
    " 1.001000+3 9.986234-1          0          8          1          49228 6  5     \n"
    "          4          2                                            9228 6  5     \n"
    " 1.000000-5 0.000000+0 1.100000+7 8.45368-11 1.147000+7 6.622950-89228 6  5     \n"
    " 2.000000+7 2.149790-1                                            9228 6  5     \n"
    " 0.000000+0 0.000000+0          1          2          1          29228 6  5     \n"
    "          2          1                                            9228 6  5     \n"
    " 0.000000+0 1.000000-5          0          1         12          49228 6  5     \n"
    " 1.000000+0 2.000000+0 3.000000+0 4.000000+0 5.000000+0 6.000000+09228 6  5     \n"
    " 7.000000+0 8.000000+0 9.000000+0 1.000000+1 1.100000+1 1.200000+19228 6  5     \n"
    " 0.000000+0 2.000000+7          0          1          6          29228 6  5     \n"
    " 1.000000+0 2.000000+0 3.000000+0 4.000000+0 5.000000+0 6.000000+09228 6  5     \n"
    " 1.000000+0 1.000000+0          0          1          1          29228 6  5     \n"
    "          2          2                                            9228 6  5     \n"
    " 1.858639+7 4.000000+0 2.000000+7 4.000000+0                      9228 6  5     \n"
    " 0.000000+0 0.000000+0          1          2          1          29228 6  5     \n"
    "          2         22                                            9228 6  5     \n"
    " 0.000000+0 1.858639+7          0          0          6          39228 6  5     \n"
    " 0.000000+0 0.000000+0 5.000000-1 2.000000+0 1.000000+0 0.000000+09228 6  5     \n"
    " 0.000000+0 2.000000+7          0          0          6          39228 6  5     \n"
    " 0.000000+0 0.000000+0 5.000000-1 2.000000+0 1.000000+0 0.000000+09228 6  5     \n"
    " 0.000000+0 0.000000+0          0          1          1          39228 6  5     \n"
    "          3          2                                            9228 6  5     \n"
    " 1.858639+7 1.000000+0 1.900000+7 2.000000+0 2.000000+7 3.000000+09228 6  5     \n"
    " 0.000000+0 0.000000+0          1          2          1          29228 6  5     \n"
    "          2          5                                            9228 6  5     \n"
    " 0.000000+0 1.858639+7          0          0          6          39228 6  5     \n"
    " 0.000000+0 0.000000+0 1.000000+0 1.000000+0 2.000000+0 0.000000+09228 6  5     \n"
    " 0.000000+0 2.000000+7          0          0          6          39228 6  5     \n"
    " 0.000000+0 0.000000+0 1.000000+0 1.000000+0 2.000000+0 0.000000+09228 6  5     \n"
    "                                                                  9228 6  0     \n") := by decide +kernel

theorem mf7mt2_chunkWithCoherentElasticAndOneTemperature : RoundTrips .mf7mt2 27 (txt
    " 1.070000+2 1.000000+0          1          0          0          0  27 7  2     \n"
    " 2.936000+2 0.000000+0          0          0          1          3  27 7  2     \n"
    "          3          1                                              27 7  2     \n"
    " 1.059427-3 0.000000+0 3.718355-3 9.364524-3 4.237708-3 1.548925-2  27 7  2     \n"
    "                                                                    27 7  0     \n") := by decide +kernel

theorem mf7mt2_chunkWithCoherentElasticAndTwoTemperatures : RoundTrips .mf7mt2 27 (txt
    " 1.070000+2 1.000000+0          1          0          0          0  27 7  2     \n"
    " 2.936000+2 0.000000+0          1          0          1          3  27 7  2     \n"
    "          3          1                                              27 7  2     \n"
    " 1.059427-3 0.000000+0 3.718355-3 9.364524-3 4.237708-3 1.548925-2  27 7  2     \n"
    " 4.000000+2 0.000000+0          2          0          3          0  27 7  2     \n"
    " 5.000000-1 8.318414-3 1.640584-2                                   27 7  2     \n"
    "                                                                    27 7  0     \n") := by decide +kernel

theorem mf7mt2_chunkWithIncoherentElastic : RoundTrips .mf7mt2 27 (txt
    " 1.070000+2 1.000000+0          2          0          0          0  27 7  2     \n"
    " 8.198006+1 0.000000+0          0          0          1          3  27 7  2     \n"
    "          3          2                                              27 7  2     \n"
    " 2.960000+2 8.486993+0 4.000000+2 9.093191+0 5.000000+2 9.828159+0  27 7  2     \n"
    "                                                                    27 7  0     \n") := by decide +kernel

theorem mf7mt2_chunkWithMixedElastic : RoundTrips .mf7mt2 27 (txt
    " 1.070000+2 1.000000+0          3          0          0          0  27 7  2     \n"
    " 2.936000+2 0.000000+0          1          0          1          3  27 7  2     \n"
    "          3          1                                              27 7  2     \n"
    " 1.059427-3 0.000000+0 3.718355-3 9.364524-3 4.237708-3 1.548925-2  27 7  2     \n"
    " 8.000000+2 0.000000+0          2          0          3          0  27 7  2     \n"
    " 5.000000-1 8.318414-3 1.640584-2                                   27 7  2     \n"
    " 2.054202+0 0.000000+0          0          0          1          2  27 7  2     \n"
    "          2          2                                              27 7  2     \n"
    " 2.936000+2 8.937898+0 8.000000+2 1.765328+1                        27 7  2     \n"
    "                                                                    27 7  0     \n") := by decide +kernel

theorem mf7mt2_chunkWithInvalidLTHR : Rejected .mf7mt2 (txt
    " 1.070000+2 1.000000+0          3          0          0          0  27 7  2     \n"
    " 8.198006+1 0.000000+0          0          0          1          3  27 7  2     \n"
    "          3          2                                              27 7  2     \n"
    " 2.960000+2 8.486993+0 4.000000+2 9.093191+0 5.000000+2 9.828159+0  27 7  2     \n"
    "                                                                    27 7  0     \n") := by decide +kernel

theorem mf7mt4_chunkWithAnalyticalFunctions : RoundTrips .mf7mt4 27 (txt
    " 1.270000+2 8.934780+0          0          1          0          0  27 7  4     \n"
    " 0.000000+0 0.000000+0          0          0          6          0  27 7  4     \n"
    " 0.000000+0 1.976285+2 8.934780+0 5.000001+0 0.000000+0 1.000000+0  27 7  4     \n"
    " 0.000000+0 0.000000+0          0          0          1          3  27 7  4     \n"
    "          3          2                                              27 7  4     \n"
    " 2.936000+2 5.332083+2 6.000000+2 7.354726+2 1.200000+3 1.270678+3  27 7  4     \n"
    "                                                                    27 7  0     \n") := by decide +kernel

theorem mf7mt4_chunkWithOneTemperatureAndOneScatterer : RoundTrips .mf7mt4 27 (txt
    " 1.270000+2 8.934780+0          0          1          0          0  27 7  4     \n"
    " 0.000000+0 0.000000+0          0          0          6          0  27 7  4     \n"
    " 6.153875+0 1.976285+2 8.934780+0 5.000001+0 0.000000+0 1.000000+0  27 7  4     \n"
    " 0.000000+0 0.000000+0          0          0          1          2  27 7  4     \n"
    "          2          4                                              27 7  4     \n"
    " 2.936000+2 0.000000+0          0          0          1          5  27 7  4     \n"
    "          5          4                                              27 7  4     \n"
    " 4.423802-3 2.386876-4 4.649528-3 2.508466-4 4.886772-3 2.636238-4  27 7  4     \n"
    " 8.418068+1 1.306574-9 8.847604+1 5.29573-10                        27 7  4     \n"
    " 2.936000+2 3.952570-2          0          0          1          5  27 7  4     \n"
    "          5          2                                              27 7  4     \n"
    " 4.423802-3 2.386694-4 4.649528-3 2.508273-4 4.886772-3 2.636238-4  27 7  4     \n"
    " 8.418068+1 2.770291-4 8.847604+1 2.911373-4                        27 7  4     \n"
    " 0.000000+0 0.000000+0          0          0          1          3  27 7  4     \n"
    "          3          2                                              27 7  4     \n"
    " 2.936000+2 5.332083+2 6.000000+2 7.354726+2 1.200000+3 1.270678+3  27 7  4     \n"
    "                                                                    27 7  0     \n") := by decide +kernel

theorem mf7mt4_chunkWithTwoTemperaturesAndOneScatterer : RoundTrips .mf7mt4 27 (txt
    " 1.270000+2 8.934780+0          0          1          0          0  27 7  4     \n"
    " 0.000000+0 0.000000+0          0          0          6          0  27 7  4     \n"
    " 6.153875+0 1.976285+2 8.934780+0 5.000001+0 0.000000+0 1.000000+0  27 7  4     \n"
    " 0.000000+0 0.000000+0          0          0          1          2  27 7  4     \n"
    "          2          4                                              27 7  4     \n"
    " 2.936000+2 0.000000+0          1          0          1          5  27 7  4     \n"
    "          5          4                                              27 7  4     \n"
    " 4.423802-3 2.386876-4 4.649528-3 2.508466-4 4.886772-3 2.636238-4  27 7  4     \n"
    " 8.418068+1 1.306574-9 8.847604+1 5.29573-10                        27 7  4     \n"
    " 4.000000+2 0.000000+0          4          0          5          0  27 7  4     \n"
    " 4.430020-4 4.655671-4 4.892796-4 4.510209-8 2.183942-8             27 7  4     \n"
    " 2.936000+2 3.952570-2          1          0          1          5  27 7  4     \n"
    "          5          2                                              27 7  4     \n"
    " 4.423802-3 2.386694-4 4.649528-3 2.508273-4 4.886772-3 2.636238-4  27 7  4     \n"
    " 8.418068+1 2.770291-4 8.847604+1 2.911373-4                        27 7  4     \n"
    " 4.000000+2 3.952570-2          4          0          5          0  27 7  4     \n"
    " 6.921141-4 7.273641-4 7.644060-4 8.033305-4 8.442328-4             27 7  4     \n"
    " 0.000000+0 0.000000+0          0          0          1          3  27 7  4     \n"
    "          3          2                                              27 7  4     \n"
    " 2.936000+2 5.332083+2 6.000000+2 7.354726+2 1.200000+3 1.270678+3  27 7  4     \n"
    "                                                                    27 7  0     \n") := by decide +kernel

theorem mf7mt4_chunkWithTwoTemperaturesAndTwoScatterers : RoundTrips .mf7mt4 27 (txt
    " 1.270000+2 8.934780+0          0          1          0          0  27 7  4     \n"
    " 0.000000+0 0.000000+0          0          0         12          1  27 7  4     \n"
    " 6.153875+0 1.976285+2 8.934780+0 5.000001+0 0.000000+0 1.000000+0  27 7  4     \n"
    " 0.000000+0 3.748750+0 1.586200+1 0.000000+0 0.000000+0 2.000000+0  27 7  4     \n"
    " 0.000000+0 0.000000+0          0          0          1          2  27 7  4     \n"
    "          2          4                                              27 7  4     \n"
    " 2.936000+2 0.000000+0          1          0          1          5  27 7  4     \n"
    "          5          4                                              27 7  4     \n"
    " 4.423802-3 2.386876-4 4.649528-3 2.508466-4 4.886772-3 2.636238-4  27 7  4     \n"
    " 8.418068+1 1.306574-9 8.847604+1 5.29573-10                        27 7  4     \n"
    " 4.000000+2 0.000000+0          4          0          5          0  27 7  4     \n"
    " 4.430020-4 4.655671-4 4.892796-4 4.510209-8 2.183942-8             27 7  4     \n"
    " 2.936000+2 3.952570-2          1          0          1          5  27 7  4     \n"
    "          5          2                                              27 7  4     \n"
    " 4.423802-3 2.386694-4 4.649528-3 2.508273-4 4.886772-3 2.636238-4  27 7  4     \n"
    " 8.418068+1 2.770291-4 8.847604+1 2.911373-4                        27 7  4     \n"
    " 4.000000+2 3.952570-2          4          0          5          0  27 7  4     \n"
    " 6.921141-4 7.273641-4 7.644060-4 8.033305-4 8.442328-4             27 7  4     \n"
    " 0.000000+0 0.000000+0          0          0          1          3  27 7  4     \n"
    "          3          2                                              27 7  4     \n"
    " 2.936000+2 5.332083+2 6.000000+2 7.354726+2 1.200000+3 1.270678+3  27 7  4     \n"
    " 0.000000+0 0.000000+0          0          0          1          2  27 7  4     \n"
    "          2          2                                              27 7  4     \n"
    " 2.936000+2 3.000000+2 1.200000+3 1.250000+3                        27 7  4     \n"
    "                                                                    27 7  0     \n") := by decide +kernel

theorem mf7mt4_chunkWithTwoTemperaturesTwoScatterersAndNoSecondaryTemperature : RoundTrips .mf7mt4 27 (txt
    " 1.270000+2 8.934780+0          0          1          0          0  27 7  4     \n"
    " 0.000000+0 0.000000+0          0          0         12          1  27 7  4     \n"
    " 6.153875+0 1.976285+2 8.934780+0 5.000001+0 0.000000+0 1.000000+0  27 7  4     \n"
    " 1.000000+0 3.748750+0 1.586200+1 0.000000+0 0.000000+0 2.000000+0  27 7  4     \n"
    " 0.000000+0 0.000000+0          0          0          1          2  27 7  4     \n"
    "          2          4                                              27 7  4     \n"
    " 2.936000+2 0.000000+0          1          0          1          5  27 7  4     \n"
    "          5          4                                              27 7  4     \n"
    " 4.423802-3 2.386876-4 4.649528-3 2.508466-4 4.886772-3 2.636238-4  27 7  4     \n"
    " 8.418068+1 1.306574-9 8.847604+1 5.29573-10                        27 7  4     \n"
    " 4.000000+2 0.000000+0          4          0          5          0  27 7  4     \n"
    " 4.430020-4 4.655671-4 4.892796-4 4.510209-8 2.183942-8             27 7  4     \n"
    " 2.936000+2 3.952570-2          1          0          1          5  27 7  4     \n"
    "          5          2                                              27 7  4     \n"
    " 4.423802-3 2.386694-4 4.649528-3 2.508273-4 4.886772-3 2.636238-4  27 7  4     \n"
    " 8.418068+1 2.770291-4 8.847604+1 2.911373-4                        27 7  4     \n"
    " 4.000000+2 3.952570-2          4          0          5          0  27 7  4     \n"
    " 6.921141-4 7.273641-4 7.644060-4 8.033305-4 8.442328-4             27 7  4     \n"
    " 0.000000+0 0.000000+0          0          0          1          3  27 7  4     \n"
    "          3          2                                              27 7  4     \n"
    " 2.936000+2 5.332083+2 6.000000+2 7.354726+2 1.200000+3 1.270678+3  27 7  4     \n"
    "                                                                    27 7  0     \n") := by decide +kernel

theorem mf7mt4_chunkWithInvalidLAT : Rejected .mf7mt4 (txt
    " 1.270000+2 8.934780+0          0          2          0          0  27 7  4     \n"
    " 0.000000+0 0.000000+0          0          0          6          0  27 7  4     \n"
    " 6.153875+0 1.976285+2 8.934780+0 5.000001+0 0.000000+0 1.000000+0  27 7  4     \n"
    " 0.000000+0 0.000000+0          0          0          1          2  27 7  4     \n"
    "          2          4                                              27 7  4     \n"
    " 2.936000+2 0.000000+0          0          0          1          5  27 7  4     \n"
    "          5          4                                              27 7  4     \n"
    " 4.423802-3 2.386876-4 4.649528-3 2.508466-4 4.886772-3 2.636238-4  27 7  4     \n"
    " 8.418068+1 1.306574-9 8.847604+1 5.29573-10                        27 7  4     \n"
    " 2.936000+2 3.952570-2          0          0          1          5  27 7  4     \n"
    "          5          2                                              27 7  4     \n"
    " 4.423802-3 2.386694-4 4.649528-3 2.508273-4 4.886772-3 2.636238-4  27 7  4     \n"
    " 8.418068+1 2.770291-4 8.847604+1 2.911373-4                        27 7  4     \n"
    " 0.000000+0 0.000000+0          0          0          1          3  27 7  4     \n"
    "          3          2                                              27 7  4     \n"
    " 2.936000+2 5.332083+2 6.000000+2 7.354726+2 1.200000+3 1.270678+3  27 7  4     \n"
    "                                                                    27 7  0     \n") := by decide +kernel

theorem mf7mt4_chunkWithInvalidLASYM : Rejected .mf7mt4 (txt
    " 1.270000+2 8.934780+0          0          2          0          0  27 7  4     \n"
    " 0.000000+0 0.000000+0          0          0          6          0  27 7  4     \n"
    " 6.153875+0 1.976285+2 8.934780+0 5.000001+0 0.000000+0 1.000000+0  27 7  4     \n"
    " 0.000000+0 0.000000+0          0          0          1          2  27 7  4     \n"
    "          2          4                                              27 7  4     \n"
    " 2.936000+2 0.000000+0          0          0          1          5  27 7  4     \n"
    "          5          4                                              27 7  4     \n"
    " 4.423802-3 2.386876-4 4.649528-3 2.508466-4 4.886772-3 2.636238-4  27 7  4     \n"
    " 8.418068+1 1.306574-9 8.847604+1 5.29573-10                        27 7  4     \n"
    " 2.936000+2 3.952570-2          0          0          1          5  27 7  4     \n"
    "          5          2                                              27 7  4     \n"
    " 4.423802-3 2.386694-4 4.649528-3 2.508273-4 4.886772-3 2.636238-4  27 7  4     \n"
    " 8.418068+1 2.770291-4 8.847604+1 2.911373-4                        27 7  4     \n"
    " 0.000000+0 0.000000+0          0          0          1          3  27 7  4     \n"
    "          3          2                                              27 7  4     \n"
    " 2.936000+2 5.332083+2 6.000000+2 7.354726+2 1.200000+3 1.270678+3  27 7  4     \n"
    "                                                                    27 7  0     \n") := by decide +kernel

theorem mf7mt451_chunk : RoundTrips .mf7mt451 22 (txt
    " 1.220000+2 1.500000+1          1          0          0          0  22 7451     \n"
    " 0.000000+0 0.000000+0          2          0         18          3  22 7451     \n"
    " 8.016000+3 0.000000+0 9.976200-1 1.585751+1 3.744801+0 0.000000+0  22 7451     \n"
    " 8.017000+3 0.000000+0 3.800000-4 1.685310+1 3.642671+0 0.000000+0  22 7451     \n"
    " 8.018000+3 0.000000+0 2.000000-3 1.784450+1 3.846775+0 0.000000+0  22 7451     \n"
    "                                                                    22 7  0     \n") := by decide +kernel

theorem mf7mt451_chunk_wrongSEND : Rejected .mf7mt451 (txt
    " 1.220000+2 1.500000+1          1          0          0          0  22 7451     \n"
    " 0.000000+0 0.000000+0          2          0         18          3  22 7451     \n"
    " 8.016000+3 0.000000+0 9.976200-1 1.585751+1 3.744801+0 0.000000+0  22 7451     \n"
    " 8.017000+3 0.000000+0 3.800000-4 1.685310+1 3.642671+0 0.000000+0  22 7451     \n"
    " 8.018000+3 0.000000+0 2.000000-3 1.784450+1 3.846775+0 0.000000+0  22 7451     \n"
    "                                                                    22 7  4     \n") := by decide +kernel

theorem mf8mt454_chunk : RoundTrips .mf8mt454 9228 (txt
    " 9.223500+4 2.330250+2          2          0          0          09228 8454     \n"
    " 2.530000-2 0.000000+0          1          0         12          39228 8454     \n"
    " 2.306600+4 0.000000+0 2.05032-19 1.31220-19 5.413500+4 0.000000+09228 8454     \n"
    " 7.851250-4 4.710750-5 7.217100+4 0.000000+0 0.000000+0 0.000000+09228 8454     \n"
    " 5.000000+5 0.000000+0          3          0         12          39228 8454     \n"
    " 2.306600+4 0.000000+0 4.48456-18 2.87012-18 5.413500+4 0.000000+09228 8454     \n"
    " 1.196100-3 2.751030-4 7.217100+4 0.000000+0 0.000000+0 0.000000+09228 8454     \n"
    "                                                                  9228 8  0     \n") := by decide +kernel

theorem mf8mt454_chunk_wrongSEND : Rejected .mf8mt454 (txt
    " 9.223500+4 2.330250+2          2          0          0          09228 8454     \n"
    " 2.530000-2 0.000000+0          1          0         12          39228 8454     \n"
    " 2.306600+4 0.000000+0 2.05032-19 1.31220-19 5.413500+4 0.000000+09228 8454     \n"
    " 7.851250-4 4.710750-5 7.217100+4 0.000000+0 0.000000+0 0.000000+09228 8454     \n"
    " 5.000000+5 0.000000+0          3          0         12          39228 8454     \n"
    " 2.306600+4 0.000000+0 4.48456-18 2.87012-18 5.413500+4 0.000000+09228 8454     \n"
    " 1.196100-3 2.751030-4 7.217100+4 0.000000+0 0.000000+0 0.000000+09228 8454     \n"
    "                                                                  9228 8  4     \n") := by decide +kernel

theorem mf8mt454_chunkWithEnergyIndependentYields : RoundTrips .mf8mt454 9228 (txt
    " 9.223500+4 2.330250+2          1          0          0          09228 8454     \n"
    " 0.000000+0 0.000000+0          0          0         12          39228 8454     \n"
    " 2.306600+4 0.000000+0 2.05032-19 1.31220-19 5.413500+4 0.000000+09228 8454     \n"
    " 7.851250-4 4.710750-5 7.217100+4 0.000000+0 0.000000+0 0.000000+09228 8454     \n"
    "                                                                  9228 8  0     \n") := by decide +kernel

theorem mf8mt457_chunkForRadioactiveNuclideWithSpectra : RoundTrips .mf8mt457 3580 (txt
    " 9.524200+4 2.399801+2          2          1          0          23580 8457     \n"
    " 4.449622+9 6.311520+7          0          0          6          03580 8457     \n"
    " 4.008322+4 4.128931+3 5.373671+3 3.660206+2 2.441003+4 6.191754+23580 8457     \n"
    " 5.000000+0-1.000000+0          0          0         18          33580 8457     \n"
    " 4.000000+0 0.000000+0 5.637120+6 2.549510+2 4.590000-3 1.200000-43580 8457     \n"
    " 3.000000+0 0.000000+0 4.860000+4 5.000000+1 9.954100-1 1.200000-43580 8457     \n"
    " 6.000000+0 0.000000+0 1.884000+8 3.700000+6 1.60000-10 6.00000-113580 8457     \n"
    " 0.000000+0 0.000000+0          0          0          6          23580 8457     \n"
    " 1.000000+0 0.000000+0 2.107044+2 1.576284+1 0.000000+0 0.000000+03580 8457     \n"
    " 4.863000+4 5.000000+1          0          0         12          03580 8457     \n"
    " 3.000000+0 0.000000+0 1.420112-6 2.85306-10 0.000000+0 0.000000+03580 8457     \n"
    " 7.010000+5 1.106180-2 0.000000+0 0.000000+0 3.315735+5 5.608008+33580 8457     \n"
    " 4.935000+4 2.000000+1          0          0         12          03580 8457     \n"
    " 4.000000+0 0.000000+0 1.335690-3 5.409179-5 0.000000+0 0.000000+03580 8457     \n"
    " 8.209999-1 0.000000+0 0.000000+0 0.000000+0 6.160000-1 8.999999-33580 8457     \n"
    " 0.000000+0 1.000000+0          1          0          6          03580 8457     \n"
    " 0.000000+0 0.000000+0 3.107044+2 4.576284+1 5.000000-1 2.500000-13580 8457     \n"
    " 4.000000+0 0.000000+0          0          0          1          33580 8457     \n"
    "          3          1                                            3580 8457     \n"
    " 0.000000+0 6.133200-7 5.000000+5 6.133300-7 7.300000+6 6.02040-173580 8457     \n"
    "                                                                  3580 8  0     \n") := by decide +kernel

theorem mf8mt457_chunkForRadioactiveNuclideWithoutSpectra : RoundTrips .mf8mt457 3580 (txt
    " 9.524200+4 2.399801+2          2          1          0          03580 8457     \n"
    " 4.449622+9 6.311520+7          0          0          6          03580 8457     \n"
    " 4.008322+4 4.128931+3 5.373671+3 3.660206+2 2.441003+4 6.191754+23580 8457     \n"
    " 5.000000+0-1.000000+0          0          0         18          33580 8457     \n"
    " 4.000000+0 0.000000+0 5.637120+6 2.549510+2 4.590000-3 1.200000-43580 8457     \n"
    " 3.000000+0 0.000000+0 4.860000+4 5.000000+1 9.954100-1 1.200000-43580 8457     \n"
    " 6.000000+0 0.000000+0 1.884000+8 3.700000+6 1.60000-10 6.00000-113580 8457     \n"
    "                                                                  3580 8  0     \n") := by decide +kernel

theorem mf8mt457_chunkForStableNuclide : RoundTrips .mf8mt457 3580 (txt
    " 9.524200+4 2.399801+2          2          1          1          03580 8457     \n"
    " 0.000000+0 0.000000+0          0          0          6          03580 8457     \n"
    " 0.000000+0 0.000000+0 0.000000+0 0.000000+0 0.000000+0 0.000000+03580 8457     \n"
    " 5.000000+0-1.000000+0          0          0          6          03580 8457     \n"
    " 0.000000+0 0.000000+0 0.000000+0 0.000000+0 0.000000+0 0.000000+03580 8457     \n"
    "                                                                  3580 8  0     \n") := by decide +kernel

theorem mf8mt459_chunk : RoundTrips .mf8mt459 9228 (txt
    " 9.223500+4 2.330250+2          2          0          0          09228 8459     \n"
    " 2.530000-2 0.000000+0          1          0         12          39228 8459     \n"
    " 2.306600+4 0.000000+0 2.05032-19 1.31220-19 5.413500+4 0.000000+09228 8459     \n"
    " 7.851250-4 4.710750-5 7.217100+4 0.000000+0 0.000000+0 0.000000+09228 8459     \n"
    " 5.000000+5 0.000000+0          3          0         12          39228 8459     \n"
    " 2.306600+4 0.000000+0 4.48456-18 2.87012-18 5.413500+4 0.000000+09228 8459     \n"
    " 1.196100-3 2.751030-4 7.217100+4 0.000000+0 0.000000+0 0.000000+09228 8459     \n"
    "                                                                  9228 8  0     \n") := by decide +kernel

theorem mf8mt459_chunk_wrongSEND : Rejected .mf8mt459 (txt
    " 9.223500+4 2.330250+2          2          0          0          09228 8459     \n"
    " 2.530000-2 0.000000+0          1          0         12          39228 8459     \n"
    " 2.306600+4 0.000000+0 2.05032-19 1.31220-19 5.413500+4 0.000000+09228 8459     \n"
    " 7.851250-4 4.710750-5 7.217100+4 0.000000+0 0.000000+0 0.000000+09228 8459     \n"
    " 5.000000+5 0.000000+0          3          0         12          39228 8459     \n"
    " 2.306600+4 0.000000+0 4.48456-18 2.87012-18 5.413500+4 0.000000+09228 8459     \n"
    " 1.196100-3 2.751030-4 7.217100+4 0.000000+0 0.000000+0 0.000000+09228 8459     \n"
    "                                                                  9228 8  4     \n") := by decide +kernel

theorem mf8mt459_chunkWithEnergyIndependentYields : RoundTrips .mf8mt459 9228 (txt
    " 9.223500+4 2.330250+2          1          0          0          09228 8459     \n"
    " 0.000000+0 0.000000+0          0          0         12          39228 8459     \n"
    " 2.306600+4 0.000000+0 2.05032-19 1.31220-19 5.413500+4 0.000000+09228 8459     \n"
    " 7.851250-4 4.710750-5 7.217100+4 0.000000+0 0.000000+0 0.000000+09228 8459     \n"
    "                                                                  9228 8  0     \n") := by decide +kernel

theorem mf9_chunk : RoundTrips .mf9 9543 (txt
    " 9.524100+4 2.389860+2          0          0          2          09543 9102     \n"
    " 5.537755+6 5.537755+6      95242          0          1          29543 9102     \n"
    "          2          3                                            9543 9102     \n"
    " 1.000000-5 9.000000-1 3.000000+7 5.200000-1                      9543 9102     \n"
    " 5.537755+6 5.489125+6      95242          2          1          29543 9102     \n"
    "          2          3                                            9543 9102     \n"
    " 1.000000-5 1.000000-1 3.000000+7 4.800000-1                      9543 9102     \n"
    "                                                                  9543 9  0     \n") := by decide +kernel

theorem mf9_chunk_wrongSEND : Rejected .mf9 (txt
    " 9.524100+4 2.389860+2          0          0          2          09543 9102     \n"
    " 5.537755+6 5.537755+6      95242          0          1          29543 9102     \n"
    "          2          3                                            9543 9102     \n"
    " 1.000000-5 9.000000-1 3.000000+7 5.200000-1                      9543 9102     \n"
    " 5.537755+6 5.489125+6      95242          2          1          29543 9102     \n"
    "          2          3                                            9543 9102     \n"
    " 1.000000-5 1.000000-1 3.000000+7 4.800000-1                      9543 9102     \n"
    "                                                                  9543 9  1     \n") := by decide +kernel

end ENDFtk.Props

import Verif.Props.ResCov
import Verif.Section.CorrInstance
import Verif.Txt
/-
  Concrete sections 32/151: the texts of the unit tests in /repo/src/ENDFtk/section/32/151/*/test (the parameters, completed to a section) are parsed by
  the model, completely consumed, and printed as the same text; they show that the hypotheses of the theorems in `Verif/Props/ResCov.lean` are met for all types of
  parameters.  (Generated by tools/gen_rescov_examples.py.)
-/
set_option linter.unusedVariables false
set_option maxRecDepth 100000
namespace ENDFtk.Props
attribute [local instance] concDisco concCorr

instance (m : CorrMatrix) : Decidable (Faithful m) := by unfold Faithful CorrMatrix.Printable; exact inferInstance

/-- Parsed, completely consumed, the line counter is advanced by NC() + 1 and `k` more, the matrices can be printed without loss, the reals survive, printed as
    the same text. -/
def RoundTrips32 (mat : Int) (k : Nat) (s : Text) : Prop :=
  match mf32mt151.parse ⟨s, 0⟩ with
  | .ok (x, st) => st.rest = [] ∧ st.line = (mf32mt151.NC x + 1 + k : Nat) ∧ rangeCount x = k ∧ (∀ m ∈ matrices x, Faithful m) ∧ Reps (mf32mt151.realsSect x) ∧
      mf32mt151.print x mat 32 = .ok s
  | .error _ => False

instance (mat : Int) (k : Nat) (s : Text) : Decidable (RoundTrips32 mat k s) := by
  unfold RoundTrips32; split <;> exact inferInstance

/-- Rejected with `std::exception`. -/
def Rejected32 (s : Text) : Prop :=
  match mf32mt151.parse ⟨s, 0⟩ with
  | .ok _ => False
  | .error e => e.isStd = true

instance (s : Text) : Decidable (Rejected32 s) := by
  unfold Rejected32; split <;> exact inferInstance

theorem LimitedSingleLevelBreitWigner_section : RoundTrips32 9222 1 (txt
    " 9.223500+4 2.330250+2          0          0          1          0922232151     \n"
    " 9.223500+4 1.000000+0          0          0          1          0922232151     \n"
    " 1.000000-5 2.250000+3          1          1          0          1922232151     \n"
    " 1.500000+0 5.410000-1          0          0          2          0922232151     \n"
    " 2.279200+1 0.000000+0          0          0         54          3922232151     \n"
    " 2.810000+3 1.000000+0 3.763500+2 3.760000+2 3.530000-1 0.000000+0922232151     \n"
    " 1.600000+3 2.250000+2 0.000000+0 2.500000-3 0.000000+0 0.000000+0922232151     \n"
    " 0.000000+0 0.000000+0 0.000000+0 0.000000+0 0.000000+0 0.000000+0922232151     \n"
    " 2.429700+5 1.000000+0 3.295000+2 3.280000+2 1.500000+0 0.000000+0922232151     \n"
    " 1.100000+3 3.400000+2 0.000000+0 6.100000-2 0.000000+0 0.000000+0922232151     \n"
    " 0.000000+0 0.000000+0 0.000000+0 0.000000+0 0.000000+0 0.000000+0922232151     \n"
    " 2.983200+5 2.000000+0 2.039000+3 2.038000+3 1.020000+0 0.000000+0922232151     \n"
    " 1.400000+3 7.100000+2 0.000000+0 8.300000-3 0.000000+0 0.000000+0922232151     \n"
    " 0.000000+0 0.000000+0 0.000000+0 0.000000+0 0.000000+0 0.000000+0922232151     \n"
    " 2.279200+1 0.000000+0          1          0         36          2922232151     \n"
    " 7.617000+3 2.000000+0 6.058000-1 5.800000-3 6.000000-1 0.000000+0922232151     \n"
    " 1.000000+2 9.000000-6 0.000000+0 9.000000-2 0.000000+0 0.000000+0922232151     \n"
    " 0.000000+0 0.000000+0 0.000000+0 0.000000+0 0.000000+0 0.000000+0922232151     \n"
    " 3.923200+5 1.000000+0 2.277000+4 2.276000+4 9.870000+0 0.000000+0922232151     \n"
    " 1.300000+5 6.100000+4 0.000000+0 2.400000+0 0.000000+0 0.000000+0922232151     \n"
    " 0.000000+0 0.000000+0 0.000000+0 0.000000+0 0.000000+0 0.000000+0922232151     \n"
    "                                                                  922232  0     \n") := by decide +kernel

theorem LimitedMultiLevelBreitWigner_section : RoundTrips32 9222 1 (txt
    " 9.223500+4 2.330250+2          0          0          1          0922232151     \n"
    " 9.223500+4 1.000000+0          0          0          1          0922232151     \n"
    " 1.000000-5 2.250000+3          1          2          0          1922232151     \n"
    " 1.500000+0 5.410000-1          0          0          2          0922232151     \n"
    " 2.279200+1 0.000000+0          0          0         54          3922232151     \n"
    " 2.810000+3 1.000000+0 3.763500+2 3.760000+2 3.530000-1 0.000000+0922232151     \n"
    " 1.600000+3 2.250000+2 0.000000+0 2.500000-3 0.000000+0 0.000000+0922232151     \n"
    " 0.000000+0 0.000000+0 0.000000+0 0.000000+0 0.000000+0 0.000000+0922232151     \n"
    " 2.429700+5 1.000000+0 3.295000+2 3.280000+2 1.500000+0 0.000000+0922232151     \n"
    " 1.100000+3 3.400000+2 0.000000+0 6.100000-2 0.000000+0 0.000000+0922232151     \n"
    " 0.000000+0 0.000000+0 0.000000+0 0.000000+0 0.000000+0 0.000000+0922232151     \n"
    " 2.983200+5 2.000000+0 2.039000+3 2.038000+3 1.020000+0 0.000000+0922232151     \n"
    " 1.400000+3 7.100000+2 0.000000+0 8.300000-3 0.000000+0 0.000000+0922232151     \n"
    " 0.000000+0 0.000000+0 0.000000+0 0.000000+0 0.000000+0 0.000000+0922232151     \n"
    " 2.279200+1 0.000000+0          1          0         36          2922232151     \n"
    " 7.617000+3 2.000000+0 6.058000-1 5.800000-3 6.000000-1 0.000000+0922232151     \n"
    " 1.000000+2 9.000000-6 0.000000+0 9.000000-2 0.000000+0 0.000000+0922232151     \n"
    " 0.000000+0 0.000000+0 0.000000+0 0.000000+0 0.000000+0 0.000000+0922232151     \n"
    " 3.923200+5 1.000000+0 2.277000+4 2.276000+4 9.870000+0 0.000000+0922232151     \n"
    " 1.300000+5 6.100000+4 0.000000+0 2.400000+0 0.000000+0 0.000000+0922232151     \n"
    " 0.000000+0 0.000000+0 0.000000+0 0.000000+0 0.000000+0 0.000000+0922232151     \n"
    "                                                                  922232  0     \n") := by decide +kernel

theorem GeneralSingleLevelBreitWigner_section : RoundTrips32 9222 1 (txt
    " 9.223500+4 2.330250+2          0          0          1          0922232151     \n"
    " 9.223500+4 1.000000+0          0          0          1          0922232151     \n"
    " 1.000000-5 2.250000+3          1          1          0          1922232151     \n"
    " 1.500000+0 3.365100-1          0          1          1          1922232151     \n"
    " 0.000000+0 3.365100-3          0          0          0          0922232151     \n"
    " 1.982069+1 0.000000+0          0          0          1          0922232151     \n"
    " 0.000000+0 0.000000+0          4          0         48          2922232151     \n"
    "-1.470000+5 5.000000-1 5.470695+2 3.680695+2 1.750000+2 3.000000+0922232151     \n"
    " 4.730000+5 5.000000-1 1.072946+5 1.072900+5 5.600000-1 4.000000+0922232151     \n"
    " 5.000000+0 6.000000+0 7.000000+0 8.000000+0 9.000000+0 1.000000+1922232151     \n"
    " 1.100000+1 1.200000+1 1.300000+1 1.400000+1 1.500000+1 1.600000+1922232151     \n"
    " 1.700000+1 1.800000+1 1.900000+1 2.000000+1 2.100000+1 2.200000+1922232151     \n"
    " 2.300000+1 2.400000+1 2.500000+1 2.600000+1 2.700000+1 2.800000+1922232151     \n"
    " 2.900000+1 3.000000+1 3.100000+1 3.200000+1 3.300000+1 3.400000+1922232151     \n"
    " 3.500000+1 3.600000+1 3.700000+1 3.800000+1 3.900000+1 4.000000+1922232151     \n"
    "                                                                  922232  0     \n") := by decide +kernel

theorem GeneralMultiLevelBreitWigner_section : RoundTrips32 9222 1 (txt
    " 9.223500+4 2.330250+2          0          0          1          0922232151     \n"
    " 9.223500+4 1.000000+0          0          0          1          0922232151     \n"
    " 1.000000-5 2.250000+3          1          2          0          1922232151     \n"
    " 1.500000+0 3.365100-1          0          1          1          1922232151     \n"
    " 0.000000+0 3.365100-3          0          0          0          0922232151     \n"
    " 1.982069+1 0.000000+0          0          0          1          0922232151     \n"
    " 0.000000+0 0.000000+0          4          0         48          2922232151     \n"
    "-1.470000+5 5.000000-1 5.470695+2 3.680695+2 1.750000+2 3.000000+0922232151     \n"
    " 4.730000+5 5.000000-1 1.072946+5 1.072900+5 5.600000-1 4.000000+0922232151     \n"
    " 5.000000+0 6.000000+0 7.000000+0 8.000000+0 9.000000+0 1.000000+1922232151     \n"
    " 1.100000+1 1.200000+1 1.300000+1 1.400000+1 1.500000+1 1.600000+1922232151     \n"
    " 1.700000+1 1.800000+1 1.900000+1 2.000000+1 2.100000+1 2.200000+1922232151     \n"
    " 2.300000+1 2.400000+1 2.500000+1 2.600000+1 2.700000+1 2.800000+1922232151     \n"
    " 2.900000+1 3.000000+1 3.100000+1 3.200000+1 3.300000+1 3.400000+1922232151     \n"
    " 3.500000+1 3.600000+1 3.700000+1 3.800000+1 3.900000+1 4.000000+1922232151     \n"
    "                                                                  922232  0     \n") := by decide +kernel

theorem GeneralReichMoore_section : RoundTrips32 9222 1 (txt
    " 9.223500+4 2.330250+2          0          0          1          0922232151     \n"
    " 9.223500+4 1.000000+0          0          0          1          0922232151     \n"
    " 1.000000-5 2.250000+3          1          3          0          1922232151     \n"
    " 1.500000+0 3.365100-1          0          1          1          0922232151     \n"
    " 1.982069+1 0.000000+0          0          0          1          0922232151     \n"
    " 0.000000+0 0.000000+0          4          0         48          2922232151     \n"
    "-1.470000+5 5.000000-1 5.470695+2 3.680695+2 1.750000+2 3.000000+0922232151     \n"
    " 4.730000+5 5.000000-1 1.072946+5 1.072900+5 5.600000-1 4.000000+0922232151     \n"
    " 5.000000+0 6.000000+0 7.000000+0 8.000000+0 9.000000+0 1.000000+1922232151     \n"
    " 1.100000+1 1.200000+1 1.300000+1 1.400000+1 1.500000+1 1.600000+1922232151     \n"
    " 1.700000+1 1.800000+1 1.900000+1 2.000000+1 2.100000+1 2.200000+1922232151     \n"
    " 2.300000+1 2.400000+1 2.500000+1 2.600000+1 2.700000+1 2.800000+1922232151     \n"
    " 2.900000+1 3.000000+1 3.100000+1 3.200000+1 3.300000+1 3.400000+1922232151     \n"
    " 3.500000+1 3.600000+1 3.700000+1 3.800000+1 3.900000+1 4.000000+1922232151     \n"
    "                                                                  922232  0     \n") := by decide +kernel

theorem GeneralRMatrixLimited_section : RoundTrips32 9222 1 (txt
    " 9.223500+4 2.330250+2          0          0          1          0922232151     \n"
    " 9.223500+4 1.000000+0          0          0          1          0922232151     \n"
    " 1.000000-5 2.250000+3          1          7          0          1922232151     \n"
    " 0.000000+0 0.000000+0          0          1          0          0922232151     \n"
    " 1.982069+1 0.000000+0          0          0          1          0922232151     \n"
    " 0.000000+0 0.000000+0          2          0          0          0922232151     \n"
    " 0.000000+0 0.000000+0          2          2         12          2922232151     \n"
    "-4.586687+5 1.000091+0 9.809761+2 0.000000+0 0.000000+0 0.000000+0922232151     \n"
    " 1.913996+6 1.000000+0 1.878975+5 0.000000+0 0.000000+0 0.000000+0922232151     \n"
    " 0.000000+0 0.000000+0          1          3         18          3922232151     \n"
    " 2.880782+3 3.499989-1 0.000000+0 0.000000+0 0.000000+0 0.000000+0922232151     \n"
    " 6.957171+3 3.500785-1 0.000000+0 0.000000+0 0.000000+0 0.000000+0922232151     \n"
    " 1.003819+5 1.382810+0 0.000000+0 0.000000+0 0.000000+0 0.000000+0922232151     \n"
    " 0.000000+0 0.000000+0          0          0         78         12922232151     \n"
    " 1.000000+0 2.000000+0 3.000000+0 4.000000+0 5.000000+0 6.000000+0922232151     \n"
    " 7.000000+0 8.000000+0 9.000000+0 1.000000+1 1.100000+1 1.200000+1922232151     \n"
    " 1.300000+1 1.400000+1 1.500000+1 1.600000+1 1.700000+1 1.800000+1922232151     \n"
    " 1.900000+1 2.000000+1 2.100000+1 2.200000+1 2.300000+1 2.400000+1922232151     \n"
    " 2.500000+1 2.600000+1 2.700000+1 2.800000+1 2.900000+1 3.000000+1922232151     \n"
    " 3.100000+1 3.200000+1 3.300000+1 3.400000+1 3.500000+1 3.600000+1922232151     \n"
    " 3.700000+1 3.800000+1 3.900000+1 4.000000+1 4.100000+1 4.200000+1922232151     \n"
    " 4.300000+1 4.400000+1 4.500000+1 4.600000+1 4.700000+1 4.800000+1922232151     \n"
    " 4.900000+1 5.000000+1 5.100000+1 5.200000+1 5.300000+1 5.400000+1922232151     \n"
    " 5.500000+1 5.600000+1 5.700000+1 5.800000+1 5.900000+1 6.000000+1922232151     \n"
    " 6.100000+1 6.200000+1 6.300000+1 6.400000+1 6.500000+1 6.600000+1922232151     \n"
    " 6.700000+1 6.800000+1 6.900000+1 7.000000+1 7.100000+1 7.200000+1922232151     \n"
    " 7.300000+1 7.400000+1 7.500000+1 7.600000+1 7.700000+1 7.800000+1922232151     \n"
    "                                                                  922232  0     \n") := by decide +kernel

theorem CompactSingleLevelBreitWigner_section : RoundTrips32 9222 1 (txt
    " 9.223500+4 2.330250+2          0          0          1          0922232151     \n"
    " 9.223500+4 1.000000+0          0          0          1          0922232151     \n"
    " 1.000000-5 2.250000+3          1          1          0          1922232151     \n"
    " 2.500000+0 7.945990-1          0          2          0          1922232151     \n"
    " 0.000000+0 7.945990-2          0          0          0          0922232151     \n"
    " 2.032137+2 0.000000+0          0          0         24          2922232151     \n"
    "-8.684388+3 1.000000+0 7.761335-1 1.005949-1 6.755386-1 0.000000+0922232151     \n"
    " 8.684390-3 0.000000+0 0.000000+0 1.005950-6 6.755390-2 0.000000+0922232151     \n"
    "-5.815640+3 2.000000+0 3.788054+0 2.995726+0 7.923275-1 0.000000+0922232151     \n"
    " 5.815640-3 0.000000+0 0.000000+0 2.995730-5 7.923280-2 0.000000+0922232151     \n"
    " 0.000000+0 0.000000+0          2         87          0          0922232151     \n"
    "                                                                  922232  0     \n") := by decide +kernel

theorem CompactMultiLevelBreitWigner_section : RoundTrips32 9222 1 (txt
    " 9.223500+4 2.330250+2          0          0          1          0922232151     \n"
    " 9.223500+4 1.000000+0          0          0          1          0922232151     \n"
    " 1.000000-5 2.250000+3          1          2          0          1922232151     \n"
    " 2.500000+0 7.945990-1          0          2          0          1922232151     \n"
    " 0.000000+0 7.945990-2          0          0          0          0922232151     \n"
    " 2.032137+2 0.000000+0          0          0         24          2922232151     \n"
    "-8.684388+3 1.000000+0 7.761335-1 1.005949-1 6.755386-1 0.000000+0922232151     \n"
    " 8.684390-3 0.000000+0 0.000000+0 1.005950-6 6.755390-2 0.000000+0922232151     \n"
    "-5.815640+3 2.000000+0 3.788054+0 2.995726+0 7.923275-1 0.000000+0922232151     \n"
    " 5.815640-3 0.000000+0 0.000000+0 2.995730-5 7.923280-2 0.000000+0922232151     \n"
    " 0.000000+0 0.000000+0          2         87          0          0922232151     \n"
    "                                                                  922232  0     \n") := by decide +kernel

theorem CompactReichMoore_section : RoundTrips32 9222 1 (txt
    " 9.223500+4 2.330250+2          0          0          1          0922232151     \n"
    " 9.223500+4 1.000000+0          0          0          1          0922232151     \n"
    " 1.000000-5 2.250000+3          1          3          0          1922232151     \n"
    " 2.500000+0 9.620000-1          0          2          0          0922232151     \n"
    " 2.310377+2 0.000000+0          0          0         24          2922232151     \n"
    "-1.060000+3 3.000000+0 1.524000+0 4.000000-2 2.600000-1 2.370000-1922232151     \n"
    " 2.061000+0 0.000000+0 1.453063+0 3.999991-2 2.592466-1 2.362210-1922232151     \n"
    "-8.000000+2 2.000000+0 1.315000+0 4.000000-2 3.120000-1-2.250000-1922232151     \n"
    " 1.891999+0 0.000000+0 1.268267+0 3.999987-2 3.106125-1 2.241766-1922232151     \n"
    " 0.000000+0 0.000000+0          5         10          7          0922232151     \n"
    "    2    1   -120                                                 922232151     \n"
    "    4    1     -2  -937                                           922232151     \n"
    "    5    1     -2  -621     0   -38                               922232151     \n"
    "    6    2    -10                                                 922232151     \n"
    "    7    1     -9 -6134     0  -209   114  -139                   922232151     \n"
    "    8    2      2                                                 922232151     \n"
    "    9    2    324     0    17     3    -3  -748                   922232151     \n"
    "                                                                  922232  0     \n") := by decide +kernel

theorem CompactRMatrixLimited_section : RoundTrips32 9222 1 (txt
    " 9.223500+4 2.330250+2          0          0          1          0922232151     \n"
    " 9.223500+4 1.000000+0          0          0          1          0922232151     \n"
    " 1.000000-5 2.250000+3          1          7          0          1922232151     \n"
    " 0.000000+0 0.000000+0          0          2          1          0922232151     \n"
    " 0.000000+0 0.000000+0          2          1         24          4922232151     \n"
    " 0.000000+0 6.537000+1 0.000000+0 0.000000+0 1.000000+0 0.000000+0922232151     \n"
    " 0.000000+0 0.000000+0 0.000000+0 1.020000+2 0.000000+0 0.000000+0922232151     \n"
    " 1.000000+0 6.437000+1 0.000000+0 0.000000+0 5.000000-1-1.500000+0922232151     \n"
    " 0.000000+0 1.000000+0 0.000000+0 2.000000+0 0.000000+0 0.000000+0922232151     \n"
    "-1.000000+0 0.000000+0          0          0         12          2922232151     \n"
    " 1.000000+0 0.000000+0 0.000000+0 0.000000+0 0.000000+0 0.000000+0922232151     \n"
    " 2.000000+0 0.000000+0 1.000000+0 0.000000+0 6.700000-1 6.700000-1922232151     \n"
    " 0.000000+0 0.000000+0          0          4         48          4922232151     \n"
    "-1.535904+3 3.950000-1 2.943392+2 0.000000+0 0.000000+0 0.000000+0922232151     \n"
    " 1.377556+1 8.403206-6 1.026766-3 0.000000+0 0.000000+0 0.000000+0922232151     \n"
    " 1.363096+3 3.950000-1 2.778162-2 0.000000+0 0.000000+0 0.000000+0922232151     \n"
    " 4.389417+0 2.802750-3 1.169698-4 0.000000+0 0.000000+0 0.000000+0922232151     \n"
    " 2.648648+3 3.950000-1 2.358290-3 0.000000+0 0.000000+0 0.000000+0922232151     \n"
    " 1.889408+1 4.333117-3 2.987095-5 0.000000+0 0.000000+0 0.000000+0922232151     \n"
    " 3.585385+3 3.950000-1 5.706056-2 0.000000+0 0.000000+0 0.000000+0922232151     \n"
    " 6.799781+0 4.163289-2 3.271682-4 0.000000+0 0.000000+0 0.000000+0922232151     \n"
    " 0.000000+0 0.000000+0          2         12          6          0922232151     \n"
    "    2    1 -79                                                    922232151     \n"
    "    3    1 -94 66                                                 922232151     \n"
    "    5    1   1 -2  0 -2                                           922232151     \n"
    "    6    3  -1  2-59                                              922232151     \n"
    "    8    1  -1  2  1  0  0  0 -5                                  922232151     \n"
    "    9    1  -1  1  0  0  0  0 -6 16                               922232151     \n"
    "                                                                  922232  0     \n") := by decide +kernel

theorem UnresolvedRelativeCovariances_section : RoundTrips32 9222 1 (txt
    " 9.223500+4 2.330250+2          0          0          1          0922232151     \n"
    " 9.223500+4 1.000000+0          0          0          1          0922232151     \n"
    " 1.000000-5 2.250000+3          2          1          0          1922232151     \n"
    " 1.500000+0 5.100000-1          0          0          2          0922232151     \n"
    " 2.081350+1 0.000000+0          0          0         12          2922232151     \n"
    " 4.737450+4 1.000000+0 1.439310+0 9.325340-1 0.000000+0 0.000000+0922232151     \n"
    " 4.004950+4 2.000000+0 1.216770+0 3.312740-1 0.000000+0 0.000000+0922232151     \n"
    " 2.081350+1 0.000000+0          1          0         24          4922232151     \n"
    " 1.197338+5 0.000000+0 1.115620+1 8.083210-2 0.000000+0 0.000000+0922232151     \n"
    " 4.737450+4 1.000000+0 3.543470+0 1.048490+0 0.000000+0 0.000000+0922232151     \n"
    " 4.004950+4 2.000000+0 2.995580+0 3.577760-1 0.000000+0 0.000000+0922232151     \n"
    " 4.784325+4 3.000000+0 4.457810+0 4.728190-1 0.000000+0 0.000000+0922232151     \n"
    " 0.000000+0 0.000000+0          2          0         78         12922232151     \n"
    " 1.000000-4 0.000000+0 0.000000+0 0.000000+0 0.000000+0 0.000000+0922232151     \n"
    " 0.000000+0 0.000000+0 0.000000+0 0.000000+0 0.000000+0 0.000000+0922232151     \n"
    " 1.000000-2 0.000000+0 0.000000+0 0.000000+0 0.000000+0 0.000000+0922232151     \n"
    " 0.000000+0 0.000000+0 0.000000+0 0.000000+0 0.000000+0 1.000000-4922232151     \n"
    " 0.000000+0 0.000000+0 0.000000+0 0.000000+0 0.000000+0 0.000000+0922232151     \n"
    " 0.000000+0 0.000000+0 0.000000+0 1.000000-2 0.000000+0 0.000000+0922232151     \n"
    " 0.000000+0 0.000000+0 0.000000+0 0.000000+0 0.000000+0 0.000000+0922232151     \n"
    " 1.000000-4 0.000000+0 0.000000+0 0.000000+0 0.000000+0 0.000000+0922232151     \n"
    " 0.000000+0 0.000000+0 1.000000-2 0.000000+0 0.000000+0 0.000000+0922232151     \n"
    " 0.000000+0 0.000000+0 0.000000+0 1.000000-4 0.000000+0 0.000000+0922232151     \n"
    " 0.000000+0 0.000000+0 0.000000+0 1.000000-2 0.000000+0 0.000000+0922232151     \n"
    " 0.000000+0 0.000000+0 1.000000-4 0.000000+0 0.000000+0 0.000000+0922232151     \n"
    " 1.000000-2 0.000000+0 0.000000+0 1.000000-4 0.000000+0 1.000000-2922232151     \n"
    "                                                                  922232  0     \n") := by decide +kernel

/-- Two ranges, the first one with scattering radius covariances: the counter is 2 too large. -/
theorem two_ranges_section : RoundTrips32 9222 2 (txt
    " 9.223500+4 2.330250+2          0          0          1          0922232151     \n"
    " 9.223500+4 1.000000+0          0          0          2          0922232151     \n"
    " 1.000000-5 2.250000+3          1          3          1          1922232151     \n"
    " 0.000000+0 0.000000+0          0          0          0          3922232151     \n"
    " 0.000000+0 0.000000+0          0          5          7          3922232151     \n"
    " 0.000000+0 1.000000+2 2.000000+2 1.000000+0 2.000000+0 3.000000+0922232151     \n"
    " 4.000000+0                                                       922232151     \n"
    " 0.000000+0 0.000000+0          0          6         13          3922232151     \n"
    " 1.100000+0 1.200000+0 1.300000+0 2.100000+0 2.200000+0 2.300000+0922232151     \n"
    " 2.400000+0 1.000000+0 2.000000+0 3.000000+0 4.000000+0 5.000000+0922232151     \n"
    " 6.000000+0                                                       922232151     \n"
    " 0.000000+0 0.000000+0          0          1          4          2922232151     \n"
    " 1.000000+0 2.000000+0 3.000000+0 4.000000+0                      922232151     \n"
    " 2.500000+0 9.620000-1          0          2          0          0922232151     \n"
    " 2.310377+2 0.000000+0          0          0         24          2922232151     \n"
    "-1.060000+3 3.000000+0 1.524000+0 4.000000-2 2.600000-1 2.370000-1922232151     \n"
    " 2.061000+0 0.000000+0 1.453063+0 3.999991-2 2.592466-1 2.362210-1922232151     \n"
    "-8.000000+2 2.000000+0 1.315000+0 4.000000-2 3.120000-1-2.250000-1922232151     \n"
    " 1.891999+0 0.000000+0 1.268267+0 3.999987-2 3.106125-1 2.241766-1922232151     \n"
    " 0.000000+0 0.000000+0          5         10          7          0922232151     \n"
    "    2    1   -120                                                 922232151     \n"
    "    4    1     -2  -937                                           922232151     \n"
    "    5    1     -2  -621     0   -38                               922232151     \n"
    "    6    2    -10                                                 922232151     \n"
    "    7    1     -9 -6134     0  -209   114  -139                   922232151     \n"
    "    8    2      2                                                 922232151     \n"
    "    9    2    324     0    17     3    -3  -748                   922232151     \n"
    " 1.000000-5 2.250000+3          2          1          0          1922232151     \n"
    " 1.500000+0 5.100000-1          0          0          2          0922232151     \n"
    " 2.081350+1 0.000000+0          0          0         12          2922232151     \n"
    " 4.737450+4 1.000000+0 1.439310+0 9.325340-1 0.000000+0 0.000000+0922232151     \n"
    " 4.004950+4 2.000000+0 1.216770+0 3.312740-1 0.000000+0 0.000000+0922232151     \n"
    " 2.081350+1 0.000000+0          1          0         24          4922232151     \n"
    " 1.197338+5 0.000000+0 1.115620+1 8.083210-2 0.000000+0 0.000000+0922232151     \n"
    " 4.737450+4 1.000000+0 3.543470+0 1.048490+0 0.000000+0 0.000000+0922232151     \n"
    " 4.004950+4 2.000000+0 2.995580+0 3.577760-1 0.000000+0 0.000000+0922232151     \n"
    " 4.784325+4 3.000000+0 4.457810+0 4.728190-1 0.000000+0 0.000000+0922232151     \n"
    " 0.000000+0 0.000000+0          2          0         78         12922232151     \n"
    " 1.000000-4 0.000000+0 0.000000+0 0.000000+0 0.000000+0 0.000000+0922232151     \n"
    " 0.000000+0 0.000000+0 0.000000+0 0.000000+0 0.000000+0 0.000000+0922232151     \n"
    " 1.000000-2 0.000000+0 0.000000+0 0.000000+0 0.000000+0 0.000000+0922232151     \n"
    " 0.000000+0 0.000000+0 0.000000+0 0.000000+0 0.000000+0 1.000000-4922232151     \n"
    " 0.000000+0 0.000000+0 0.000000+0 0.000000+0 0.000000+0 0.000000+0922232151     \n"
    " 0.000000+0 0.000000+0 0.000000+0 1.000000-2 0.000000+0 0.000000+0922232151     \n"
    " 0.000000+0 0.000000+0 0.000000+0 0.000000+0 0.000000+0 0.000000+0922232151     \n"
    " 1.000000-4 0.000000+0 0.000000+0 0.000000+0 0.000000+0 0.000000+0922232151     \n"
    " 0.000000+0 0.000000+0 1.000000-2 0.000000+0 0.000000+0 0.000000+0922232151     \n"
    " 0.000000+0 0.000000+0 0.000000+0 1.000000-4 0.000000+0 0.000000+0922232151     \n"
    " 0.000000+0 0.000000+0 0.000000+0 1.000000-2 0.000000+0 0.000000+0922232151     \n"
    " 0.000000+0 0.000000+0 1.000000-4 0.000000+0 0.000000+0 0.000000+0922232151     \n"
    " 1.000000-2 0.000000+0 0.000000+0 1.000000-4 0.000000+0 1.000000-2922232151     \n"
    "                                                                  922232  0     \n") := by decide +kernel

theorem wrong_lru : Rejected32 (txt
    " 9.223500+4 2.330250+2          0          0          1          0922232151     \n"
    " 9.223500+4 1.000000+0          0          0          1          0922232151     \n"
    " 1.000000-5 2.250000+3          0          3          0          1922232151     \n"
    " 2.500000+0 9.620000-1          0          2          0          0922232151     \n"
    " 2.310377+2 0.000000+0          0          0         24          2922232151     \n"
    "-1.060000+3 3.000000+0 1.524000+0 4.000000-2 2.600000-1 2.370000-1922232151     \n"
    " 2.061000+0 0.000000+0 1.453063+0 3.999991-2 2.592466-1 2.362210-1922232151     \n"
    "-8.000000+2 2.000000+0 1.315000+0 4.000000-2 3.120000-1-2.250000-1922232151     \n"
    " 1.891999+0 0.000000+0 1.268267+0 3.999987-2 3.106125-1 2.241766-1922232151     \n"
    " 0.000000+0 0.000000+0          5         10          7          0922232151     \n"
    "    2    1   -120                                                 922232151     \n"
    "    4    1     -2  -937                                           922232151     \n"
    "    5    1     -2  -621     0   -38                               922232151     \n"
    "    6    2    -10                                                 922232151     \n"
    "    7    1     -9 -6134     0  -209   114  -139                   922232151     \n"
    "    8    2      2                                                 922232151     \n"
    "    9    2    324     0    17     3    -3  -748                   922232151     \n"
    "                                                                  922232  0     \n") := by decide +kernel

theorem wrong_lrf : Rejected32 (txt
    " 9.223500+4 2.330250+2          0          0          1          0922232151     \n"
    " 9.223500+4 1.000000+0          0          0          1          0922232151     \n"
    " 1.000000-5 2.250000+3          1          4          0          1922232151     \n"
    " 2.500000+0 9.620000-1          0          2          0          0922232151     \n"
    " 2.310377+2 0.000000+0          0          0         24          2922232151     \n"
    "-1.060000+3 3.000000+0 1.524000+0 4.000000-2 2.600000-1 2.370000-1922232151     \n"
    " 2.061000+0 0.000000+0 1.453063+0 3.999991-2 2.592466-1 2.362210-1922232151     \n"
    "-8.000000+2 2.000000+0 1.315000+0 4.000000-2 3.120000-1-2.250000-1922232151     \n"
    " 1.891999+0 0.000000+0 1.268267+0 3.999987-2 3.106125-1 2.241766-1922232151     \n"
    " 0.000000+0 0.000000+0          5         10          7          0922232151     \n"
    "    2    1   -120                                                 922232151     \n"
    "    4    1     -2  -937                                           922232151     \n"
    "    5    1     -2  -621     0   -38                               922232151     \n"
    "    6    2    -10                                                 922232151     \n"
    "    7    1     -9 -6134     0  -209   114  -139                   922232151     \n"
    "    8    2      2                                                 922232151     \n"
    "    9    2    324     0    17     3    -3  -748                   922232151     \n"
    "                                                                  922232  0     \n") := by decide +kernel

theorem wrong_lcomp : Rejected32 (txt
    " 9.223500+4 2.330250+2          0          0          1          0922232151     \n"
    " 9.223500+4 1.000000+0          0          0          1          0922232151     \n"
    " 1.000000-5 2.250000+3          1          3          0          1922232151     \n"
    " 2.500000+0 9.620000-1          0          3          0          0922232151     \n"
    " 2.310377+2 0.000000+0          0          0         24          2922232151     \n"
    "-1.060000+3 3.000000+0 1.524000+0 4.000000-2 2.600000-1 2.370000-1922232151     \n"
    " 2.061000+0 0.000000+0 1.453063+0 3.999991-2 2.592466-1 2.362210-1922232151     \n"
    "-8.000000+2 2.000000+0 1.315000+0 4.000000-2 3.120000-1-2.250000-1922232151     \n"
    " 1.891999+0 0.000000+0 1.268267+0 3.999987-2 3.106125-1 2.241766-1922232151     \n"
    " 0.000000+0 0.000000+0          5         10          7          0922232151     \n"
    "    2    1   -120                                                 922232151     \n"
    "    4    1     -2  -937                                           922232151     \n"
    "    5    1     -2  -621     0   -38                               922232151     \n"
    "    6    2    -10                                                 922232151     \n"
    "    7    1     -9 -6134     0  -209   114  -139                   922232151     \n"
    "    8    2      2                                                 922232151     \n"
    "    9    2    324     0    17     3    -3  -748                   922232151     \n"
    "                                                                  922232  0     \n") := by decide +kernel

theorem no_isotopes : Rejected32 (txt
    " 9.223500+4 2.330250+2          0          0          0          0922232151     \n"
    "                                                                  922232  0     \n") := by decide +kernel

theorem missing_send : Rejected32 (txt
    " 9.223500+4 2.330250+2          0          0          1          0922232151     \n"
    " 9.223500+4 1.000000+0          0          0          1          0922232151     \n"
    " 1.000000-5 2.250000+3          1          3          0          1922232151     \n"
    " 2.500000+0 9.620000-1          0          2          0          0922232151     \n"
    " 2.310377+2 0.000000+0          0          0         24          2922232151     \n"
    "-1.060000+3 3.000000+0 1.524000+0 4.000000-2 2.600000-1 2.370000-1922232151     \n"
    " 2.061000+0 0.000000+0 1.453063+0 3.999991-2 2.592466-1 2.362210-1922232151     \n"
    "-8.000000+2 2.000000+0 1.315000+0 4.000000-2 3.120000-1-2.250000-1922232151     \n"
    " 1.891999+0 0.000000+0 1.268267+0 3.999987-2 3.106125-1 2.241766-1922232151     \n"
    " 0.000000+0 0.000000+0          5         10          7          0922232151     \n"
    "    2    1   -120                                                 922232151     \n"
    "    4    1     -2  -937                                           922232151     \n"
    "    5    1     -2  -621     0   -38                               922232151     \n"
    "    6    2    -10                                                 922232151     \n"
    "    7    1     -9 -6134     0  -209   114  -139                   922232151     \n"
    "    8    2      2                                                 922232151     \n"
    "    9    2    324     0    17     3    -3  -748                   922232151     \n") := by decide +kernel

theorem wrong_send : Rejected32 (txt
    " 9.223500+4 2.330250+2          0          0          1          0922232151     \n"
    " 9.223500+4 1.000000+0          0          0          1          0922232151     \n"
    " 1.000000-5 2.250000+3          1          3          0          1922232151     \n"
    " 2.500000+0 9.620000-1          0          2          0          0922232151     \n"
    " 2.310377+2 0.000000+0          0          0         24          2922232151     \n"
    "-1.060000+3 3.000000+0 1.524000+0 4.000000-2 2.600000-1 2.370000-1922232151     \n"
    " 2.061000+0 0.000000+0 1.453063+0 3.999991-2 2.592466-1 2.362210-1922232151     \n"
    "-8.000000+2 2.000000+0 1.315000+0 4.000000-2 3.120000-1-2.250000-1922232151     \n"
    " 1.891999+0 0.000000+0 1.268267+0 3.999987-2 3.106125-1 2.241766-1922232151     \n"
    " 0.000000+0 0.000000+0          5         10          7          0922232151     \n"
    "    2    1   -120                                                 922232151     \n"
    "    4    1     -2  -937                                           922232151     \n"
    "    5    1     -2  -621     0   -38                               922232151     \n"
    "    6    2    -10                                                 922232151     \n"
    "    7    1     -9 -6134     0  -209   114  -139                   922232151     \n"
    "    8    2      2                                                 922232151     \n"
    "    9    2    324     0    17     3    -3  -748                   922232151     \n"
    "                                                                  922233  0     \n") := by decide +kernel

theorem wrong_size : Rejected32 (txt
    " 9.223500+4 2.330250+2          0          0          1          0922232151     \n"
    " 9.223500+4 1.000000+0          0          0          1          0922232151     \n"
    " 1.000000-5 2.250000+3          1          3          0          1922232151     \n"
    " 2.500000+0 9.620000-1          0          2          0          0922232151     \n"
    " 2.310377+2 0.000000+0          0          0         12          2922232151     \n"
    "-1.060000+3 3.000000+0 1.524000+0 4.000000-2 2.600000-1 2.370000-1922232151     \n"
    " 2.061000+0 0.000000+0 1.453063+0 3.999991-2 2.592466-1 2.362210-1922232151     \n"
    " 0.000000+0 0.000000+0          5         10          7          0922232151     \n"
    "    2    1   -120                                                 922232151     \n"
    "    4    1     -2  -937                                           922232151     \n"
    "    5    1     -2  -621     0   -38                               922232151     \n"
    "    6    2    -10                                                 922232151     \n"
    "    7    1     -9 -6134     0  -209   114  -139                   922232151     \n"
    "    8    2      2                                                 922232151     \n"
    "    9    2    324     0    17     3    -3  -748                   922232151     \n"
    "                                                                  922232  0     \n") := by decide +kernel

theorem limited_no_l_values : Rejected32 (txt
    " 9.223500+4 2.330250+2          0          0          1          0922232151     \n"
    " 9.223500+4 1.000000+0          0          0          1          0922232151     \n"
    " 1.000000-5 2.250000+3          1          1          0          1922232151     \n"
    " 1.000000+0 8.930000-1          0          0          0          0922232151     \n"
    "                                                                  922232  0     \n") := by decide +kernel

end ENDFtk.Props

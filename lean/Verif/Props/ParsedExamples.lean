import Verif.Props.Parsed
import Verif.Props.SectionExamples
import Verif.Props.ResCovExamples
/-
  Concrete files, a material and a tape: texts of the unit tests in /repo/src/ENDFtk/{file,Material,Tape}/**/test.  They meet the hypotheses of the theorems in
  Verif/Props/Parsed.lean, are completely consumed and printed as the same text.  (Generated from the test files.)
-/
set_option linter.unusedVariables false
set_option maxRecDepth 100000
namespace ENDFtk.Props
attribute [local instance] concDisco concCorr

instance (i : Int) (x : ResParams) : Decidable (x.lfwOk i) := by cases x <;> unfold ResParams.lfwOk <;> exact inferInstance
instance (x : AnySection) : Decidable x.Faithful := by
  obtain ⟨T, x⟩ := x
  cases T with
  | std T => cases T <;> unfold AnySection.Faithful <;> exact inferInstance
  | cov => unfold AnySection.Faithful; exact inferInstance
instance (x : AnySection) : Decidable x.Rep := by unfold AnySection.Rep; exact inferInstance
instance (f : PFile) : Decidable f.Rep := by unfold PFile.Rep; exact inferInstance
instance (m : PMaterial) : Decidable m.Rep := by unfold PMaterial.Rep; exact inferInstance
instance (t : PTape) : Decidable t.Rep := by unfold PTape.Rep; exact inferInstance
instance {α : Type} : (l : List α) → Decidable (l ≠ [])
  | [] => isFalse (fun h => h rfl)
  | _ :: _ => isTrue (by simp)

/-- Read as a file with these MT numbers and completely consumed; meets the hypotheses of `C46_read_file_round_trip`; printed as the same text. -/
def FileRoundTrips (mf mat : Int) (mts : List Int) (s : Text) : Prop :=
  match readFileFrom mf ⟨s, 0⟩ with
  | .ok (f, st) => st.rest = [] ∧ f.sections.keys = mts ∧ (∀ x ∈ f.sections', x.Faithful) ∧ f.Rep ∧ f.print mat = .ok s
  | .error _ => False

instance (mf mat : Int) (mts : List Int) (s : Text) : Decidable (FileRoundTrips mf mat mts s) := by
  unfold FileRoundTrips; split <;> exact inferInstance

/-- Rejected with `std::exception`. -/
def FileRejected (mf : Int) (s : Text) : Prop :=
  match readFileFrom mf ⟨s, 0⟩ with
  | .ok _ => False
  | .error e => e.isStd = true

instance (mf : Int) (s : Text) : Decidable (FileRejected mf s) := by
  unfold FileRejected; split <;> exact inferInstance

/-- Meets the hypotheses of `C46_read_tape_round_trip_partial`, and the materials those of `C46_read_material_round_trip_partial`. -/
def TapeRoundTrips (mats : List (Int × List Int)) (s : Text) : Prop :=
  match PTape.read ⟨s, 0⟩ with
  | .ok (t, st) => st.rest = [] ∧ t.materials.map (fun m => (m.mat, m.files.keys)) = mats ∧ t.materials.length < 2147483648 ∧
      (∀ m ∈ t.materials, m.files ≠ [] ∧ ∀ f ∈ m.files', f.sections ≠ [] ∧ ∀ x ∈ f.sections', x.Faithful) ∧ t.Rep ∧ t.print = .ok s
  | .error _ => False

instance (mats : List (Int × List Int)) (s : Text) : Decidable (TapeRoundTrips mats s) := by
  unfold TapeRoundTrips; split <;> exact inferInstance

theorem tape_chunk : TapeRoundTrips [(131, [1, 2, 3]), (9, [1, 2, 3])] (txt
    "Tape identifer                                                       0 0  0     \n"
    " 1.003000+3 2.989596+0          0          0          0          1 131 1451     \n"
    " 0.000000+0 1.000000+0          0          0          0          6 131 1451     \n"
    " 1.000000+0 2.000000+7          0          0         10          8 131 1451     \n"
    " 0.000000+0 0.000000+0          0          0          3          8 131 1451     \n"
    "  1-H -  3 LANL       EVAL-NOV01 G.M.Hale                          131 1451     \n"
    "PRC  42, 438 (1990)   DIST-FEB18                       20111222    131 1451     \n"
    "----ENDF/B-VIII.0     MATERIAL  131                                131 1451     \n"
    "                                1        451        102          1 131 1451     \n"
    "                                2        151          4          1 131 1451     \n"
    "                                3          1         70          1 131 1451     \n"
    "                                3          2         47          1 131 1451     \n"
    "                                3         16         30          1 131 1451     \n"
    "                                4          2        392          1 131 1451     \n"
    "                                4         16        140          1 131 1451     \n"
    "                                5         16        198          1 131 1451     \n"
    "                                                                   131 1  0     \n"
    "                                                                   131 0  0     \n"
    " 1.003000+3 2.989596+0          0          0          1          0 131 2151     \n"
    " 1.003000+3 1.000000+0          0          0          1          0 131 2151     \n"
    " 1.000000-5 2.000000+7          0          0          0          0 131 2151     \n"
    " 5.000000-1 3.639897-1          0          0          0          0 131 2151     \n"
    "                                                                   131 2  0     \n"
    "                                                                   131 0  0     \n"
    " 1.003000+3 2.989596+0          0          0          0          0 131 3  2     \n"
    " 0.000000+0 0.000000+0          0          0          1        132 131 3  2     \n"
    "        132          2                                             131 3  2     \n"
    " 1.000000-5 1.664900+0 1.000000+0 1.664900+0 1.000000+1 1.664900+0 131 3  2     \n"
    " 1.000000+2 1.664900+0 1.000000+3 1.664600+0 5.000000+3 1.663500+0 131 3  2     \n"
    " 1.000000+4 1.662000+0 2.000000+4 1.659200+0 3.000000+4 1.656500+0 131 3  2     \n"
    " 4.000000+4 1.653800+0 5.000000+4 1.651100+0 6.000000+4 1.648500+0 131 3  2     \n"
    " 7.000000+4 1.646000+0 8.000000+4 1.643500+0 9.000000+4 1.641000+0 131 3  2     \n"
    " 1.000000+5 1.638600+0 1.200000+5 1.634000+0 1.400000+5 1.629600+0 131 3  2     \n"
    " 1.600000+5 1.625400+0 1.800000+5 1.621400+0 2.000000+5 1.617600+0 131 3  2     \n"
    " 2.200000+5 1.614000+0 2.400000+5 1.610700+0 2.600000+5 1.607500+0 131 3  2     \n"
    " 2.800000+5 1.604600+0 3.000000+5 1.602000+0 3.200000+5 1.599500+0 131 3  2     \n"
    " 3.400000+5 1.597300+0 3.600000+5 1.595300+0 3.800000+5 1.593500+0 131 3  2     \n"
    " 4.000000+5 1.591900+0 4.200000+5 1.590600+0 4.400000+5 1.589500+0 131 3  2     \n"
    " 4.600000+5 1.588700+0 4.800000+5 1.588000+0 5.000000+5 1.587600+0 131 3  2     \n"
    " 5.200000+5 1.587500+0 5.400000+5 1.587500+0 5.600000+5 1.587900+0 131 3  2     \n"
    " 5.800000+5 1.588400+0 6.000000+5 1.589200+0 6.200000+5 1.590200+0 131 3  2     \n"
    " 6.400000+5 1.591400+0 6.600000+5 1.592900+0 6.800000+5 1.594600+0 131 3  2     \n"
    " 7.000000+5 1.596500+0 7.500000+5 1.602400+0 8.000000+5 1.609700+0 131 3  2     \n"
    " 8.500000+5 1.618400+0 9.000000+5 1.628500+0 9.500000+5 1.640000+0 131 3  2     \n"
    " 1.000000+6 1.652800+0 1.100000+6 1.682300+0 1.200000+6 1.716400+0 131 3  2     \n"
    " 1.300000+6 1.754800+0 1.400000+6 1.796900+0 1.500000+6 1.841900+0 131 3  2     \n"
    " 1.600000+6 1.889200+0 1.700000+6 1.938000+0 1.800000+6 1.987500+0 131 3  2     \n"
    " 1.900000+6 2.036900+0 2.000000+6 2.085600+0 2.100000+6 2.132800+0 131 3  2     \n"
    " 2.200000+6 2.177900+0 2.300000+6 2.220300+0 2.400000+6 2.259700+0 131 3  2     \n"
    " 2.500000+6 2.295600+0 2.600000+6 2.327900+0 2.700000+6 2.356300+0 131 3  2     \n"
    " 2.800000+6 2.380700+0 2.900000+6 2.401200+0 3.000000+6 2.417900+0 131 3  2     \n"
    " 3.100000+6 2.430800+0 3.200000+6 2.440000+0 3.300000+6 2.445900+0 131 3  2     \n"
    " 3.400000+6 2.448500+0 3.500000+6 2.448200+0 3.600000+6 2.445100+0 131 3  2     \n"
    " 3.700000+6 2.439500+0 3.800000+6 2.431600+0 3.900000+6 2.421600+0 131 3  2     \n"
    " 4.000000+6 2.409800+0 4.100000+6 2.396300+0 4.200000+6 2.381400+0 131 3  2     \n"
    " 4.300000+6 2.365200+0 4.400000+6 2.347800+0 4.500000+6 2.329500+0 131 3  2     \n"
    " 4.600000+6 2.310400+0 4.700000+6 2.290600+0 4.800000+6 2.270200+0 131 3  2     \n"
    " 4.900000+6 2.249300+0 5.000000+6 2.228000+0 5.200000+6 2.184600+0 131 3  2     \n"
    " 5.400000+6 2.140400+0 5.600000+6 2.096100+0 5.800000+6 2.051900+0 131 3  2     \n"
    " 6.000000+6 2.008000+0 6.200000+6 1.964800+0 6.400000+6 1.922300+0 131 3  2     \n"
    " 6.600000+6 1.880700+0 6.800000+6 1.840000+0 7.000000+6 1.800300+0 131 3  2     \n"
    " 7.200000+6 1.761700+0 7.400000+6 1.724100+0 7.600000+6 1.687600+0 131 3  2     \n"
    " 7.800000+6 1.652100+0 8.000000+6 1.617700+0 8.200000+6 1.584200+0 131 3  2     \n"
    " 8.400000+6 1.551800+0 8.600000+6 1.520300+0 8.800000+6 1.489900+0 131 3  2     \n"
    " 9.000000+6 1.460400+0 9.200000+6 1.431700+0 9.400000+6 1.404000+0 131 3  2     \n"
    " 9.600000+6 1.377000+0 9.800000+6 1.350900+0 1.000000+7 1.325500+0 131 3  2     \n"
    " 1.050000+7 1.265300+0 1.100000+7 1.209300+0 1.150000+7 1.156600+0 131 3  2     \n"
    " 1.200000+7 1.107300+0 1.250000+7 1.061400+0 1.300000+7 1.018400+0 131 3  2     \n"
    " 1.350000+7 9.781800-1 1.400000+7 9.403100-1 1.450000+7 9.046100-1 131 3  2     \n"
    " 1.500000+7 8.708500-1 1.600000+7 8.084700-1 1.700000+7 7.518000-1 131 3  2     \n"
    " 1.800000+7 6.997300-1 1.900000+7 6.513100-1 2.000000+7 6.058100-1 131 3  2     \n"
    "                                                                   131 3  0     \n"
    " 1.003000+3 2.989596+0          0          0          0          0 131 3 16     \n"
    "-6.257557+6-6.257557+6          0          0          1         81 131 3 16     \n"
    "         81          2                                             131 3 16     \n"
    " 8.350000+6 0.000000+0 8.380000+6 1.000000-3 8.381250+6 1.058900-3 131 3 16     \n"
    " 8.382421+6 1.117300-3 8.383521+6 1.175000-3 8.384551+6 1.231800-3 131 3 16     \n"
    " 8.386481+6 1.345800-3 8.388171+6 1.454100-3 8.389640+6 1.556000-3 131 3 16     \n"
    " 8.390941+6 1.651000-3 8.392071+6 1.738900-3 8.393062+6 1.819600-3 131 3 16     \n"
    " 8.394800+6 1.970000-3 8.396101+6 2.090900-3 8.398050+6 2.286300-3 131 3 16     \n"
    " 8.400001+6 2.500000-3 8.406221+6 2.653800-3 8.412051+6 2.806700-3 131 3 16     \n"
    " 8.417521+6 2.957900-3 8.422651+6 3.107100-3 8.427461+6 3.253800-3 131 3 16     \n"
    " 8.436501+6 3.547800-3 8.444411+6 3.826700-3 8.451340+6 4.088700-3 131 3 16     \n"
    " 8.457400+6 4.332600-3 8.462722+6 4.558000-3 8.472021+6 4.980900-3 131 3 16     \n"
    " 8.479011+6 5.323600-3 8.484250+6 5.596100-3 8.492121+6 6.031100-3 131 3 16     \n"
    " 8.500000+6 6.500000-3 8.512442+6 6.980500-3 8.523332+6 7.430000-3 131 3 16     \n"
    " 8.532882+6 7.847000-3 8.541241+6 8.231000-3 8.555890+6 8.948800-3 131 3 16     \n"
    " 8.566901+6 9.527901-3 8.575161+6 9.986699-3 8.587570+6 1.071700-2 131 3 16     \n"
    " 8.600000+6 1.150000-2 8.637261+6 1.258600-2 8.665311+6 1.346800-2 131 3 16     \n"
    " 8.686400+6 1.416900-2 8.718140+6 1.529000-2 8.750000+6 1.650000-2 131 3 16     \n"
    " 8.780871+6 1.729100-2 8.835140+6 1.876800-2 8.876071+6 1.995800-2 131 3 16     \n"
    " 8.937820+6 2.188600-2 9.000000+6 2.400000-2 9.061861+6 2.558600-2 131 3 16     \n"
    " 9.108531+6 2.684400-2 9.178991+6 2.884700-2 9.250000+6 3.100000-2 131 3 16     \n"
    " 9.374171+6 3.317400-2 9.500000+6 3.550000-2 9.622611+6 3.756300-2 131 3 16     \n"
    " 9.809490+6 4.088500-2 1.000000+7 4.450000-2 1.025000+7 4.750000-2 131 3 16     \n"
    " 1.050000+7 4.950000-2 1.075000+7 5.070000-2 1.100000+7 5.160000-2 131 3 16     \n"
    " 1.130000+7 5.220000-2 1.150000+7 5.250000-2 1.200000+7 5.250000-2 131 3 16     \n"
    " 1.250000+7 5.220000-2 1.300000+7 5.160000-2 1.350000+7 5.090000-2 131 3 16     \n"
    " 1.400000+7 5.000000-2 1.410000+7 4.970000-2 1.450000+7 4.880000-2 131 3 16     \n"
    " 1.500000+7 4.760000-2 1.550000+7 4.640000-2 1.600000+7 4.500000-2 131 3 16     \n"
    " 1.673320+7 4.284900-2 1.750000+7 4.080000-2 1.795680+7 3.943300-2 131 3 16     \n"
    " 1.866450+7 3.746700-2 1.940000+7 3.560000-2 2.000000+7 3.380000-2 131 3 16     \n"
    "                                                                   131 3  0     \n"
    "                                                                   131 0  0     \n"
    "                                                                     0 0  0     \n"
    " 1.003000+3 2.989596+0          0          0          0          1   9 1451     \n"
    " 0.000000+0 1.000000+0          0          0          0          6   9 1451     \n"
    " 1.000000+0 2.000000+7          0          0         10          8   9 1451     \n"
    " 0.000000+0 0.000000+0          0          0          3          8   9 1451     \n"
    "  1-H -  3 LANL       EVAL-NOV01 G.M.Hale                            9 1451     \n"
    "PRC  42, 438 (1990)   DIST-FEB18                       20111222      9 1451     \n"
    "----ENDF/B-VIII.0     MATERIAL  131                                  9 1451     \n"
    "                                1        451        102          1   9 1451     \n"
    "                                2        151          4          1   9 1451     \n"
    "                                3          1         70          1   9 1451     \n"
    "                                3          2         47          1   9 1451     \n"
    "                                3         16         30          1   9 1451     \n"
    "                                4          2        392          1   9 1451     \n"
    "                                4         16        140          1   9 1451     \n"
    "                                5         16        198          1   9 1451     \n"
    "                                                                     9 1  0     \n"
    "                                                                     9 0  0     \n"
    " 1.003000+3 2.989596+0          0          0          1          0   9 2151     \n"
    " 1.003000+3 1.000000+0          0          0          1          0   9 2151     \n"
    " 1.000000-5 2.000000+7          0          0          0          0   9 2151     \n"
    " 5.000000-1 3.639897-1          0          0          0          0   9 2151     \n"
    "                                                                     9 2  0     \n"
    "                                                                     9 0  0     \n"
    " 1.003000+3 2.989596+0          0          0          0          0   9 3  2     \n"
    " 0.000000+0 0.000000+0          0          0          1        132   9 3  2     \n"
    "        132          2                                               9 3  2     \n"
    " 1.000000-5 1.664900+0 1.000000+0 1.664900+0 1.000000+1 1.664900+0   9 3  2     \n"
    " 1.000000+2 1.664900+0 1.000000+3 1.664600+0 5.000000+3 1.663500+0   9 3  2     \n"
    " 1.000000+4 1.662000+0 2.000000+4 1.659200+0 3.000000+4 1.656500+0   9 3  2     \n"
    " 4.000000+4 1.653800+0 5.000000+4 1.651100+0 6.000000+4 1.648500+0   9 3  2     \n"
    " 7.000000+4 1.646000+0 8.000000+4 1.643500+0 9.000000+4 1.641000+0   9 3  2     \n"
    " 1.000000+5 1.638600+0 1.200000+5 1.634000+0 1.400000+5 1.629600+0   9 3  2     \n"
    " 1.600000+5 1.625400+0 1.800000+5 1.621400+0 2.000000+5 1.617600+0   9 3  2     \n"
    " 2.200000+5 1.614000+0 2.400000+5 1.610700+0 2.600000+5 1.607500+0   9 3  2     \n"
    " 2.800000+5 1.604600+0 3.000000+5 1.602000+0 3.200000+5 1.599500+0   9 3  2     \n"
    " 3.400000+5 1.597300+0 3.600000+5 1.595300+0 3.800000+5 1.593500+0   9 3  2     \n"
    " 4.000000+5 1.591900+0 4.200000+5 1.590600+0 4.400000+5 1.589500+0   9 3  2     \n"
    " 4.600000+5 1.588700+0 4.800000+5 1.588000+0 5.000000+5 1.587600+0   9 3  2     \n"
    " 5.200000+5 1.587500+0 5.400000+5 1.587500+0 5.600000+5 1.587900+0   9 3  2     \n"
    " 5.800000+5 1.588400+0 6.000000+5 1.589200+0 6.200000+5 1.590200+0   9 3  2     \n"
    " 6.400000+5 1.591400+0 6.600000+5 1.592900+0 6.800000+5 1.594600+0   9 3  2     \n"
    " 7.000000+5 1.596500+0 7.500000+5 1.602400+0 8.000000+5 1.609700+0   9 3  2     \n"
    " 8.500000+5 1.618400+0 9.000000+5 1.628500+0 9.500000+5 1.640000+0   9 3  2     \n"
    " 1.000000+6 1.652800+0 1.100000+6 1.682300+0 1.200000+6 1.716400+0   9 3  2     \n"
    " 1.300000+6 1.754800+0 1.400000+6 1.796900+0 1.500000+6 1.841900+0   9 3  2     \n"
    " 1.600000+6 1.889200+0 1.700000+6 1.938000+0 1.800000+6 1.987500+0   9 3  2     \n"
    " 1.900000+6 2.036900+0 2.000000+6 2.085600+0 2.100000+6 2.132800+0   9 3  2     \n"
    " 2.200000+6 2.177900+0 2.300000+6 2.220300+0 2.400000+6 2.259700+0   9 3  2     \n"
    " 2.500000+6 2.295600+0 2.600000+6 2.327900+0 2.700000+6 2.356300+0   9 3  2     \n"
    " 2.800000+6 2.380700+0 2.900000+6 2.401200+0 3.000000+6 2.417900+0   9 3  2     \n"
    " 3.100000+6 2.430800+0 3.200000+6 2.440000+0 3.300000+6 2.445900+0   9 3  2     \n"
    " 3.400000+6 2.448500+0 3.500000+6 2.448200+0 3.600000+6 2.445100+0   9 3  2     \n"
    " 3.700000+6 2.439500+0 3.800000+6 2.431600+0 3.900000+6 2.421600+0   9 3  2     \n"
    " 4.000000+6 2.409800+0 4.100000+6 2.396300+0 4.200000+6 2.381400+0   9 3  2     \n"
    " 4.300000+6 2.365200+0 4.400000+6 2.347800+0 4.500000+6 2.329500+0   9 3  2     \n"
    " 4.600000+6 2.310400+0 4.700000+6 2.290600+0 4.800000+6 2.270200+0   9 3  2     \n"
    " 4.900000+6 2.249300+0 5.000000+6 2.228000+0 5.200000+6 2.184600+0   9 3  2     \n"
    " 5.400000+6 2.140400+0 5.600000+6 2.096100+0 5.800000+6 2.051900+0   9 3  2     \n"
    " 6.000000+6 2.008000+0 6.200000+6 1.964800+0 6.400000+6 1.922300+0   9 3  2     \n"
    " 6.600000+6 1.880700+0 6.800000+6 1.840000+0 7.000000+6 1.800300+0   9 3  2     \n"
    " 7.200000+6 1.761700+0 7.400000+6 1.724100+0 7.600000+6 1.687600+0   9 3  2     \n"
    " 7.800000+6 1.652100+0 8.000000+6 1.617700+0 8.200000+6 1.584200+0   9 3  2     \n"
    " 8.400000+6 1.551800+0 8.600000+6 1.520300+0 8.800000+6 1.489900+0   9 3  2     \n"
    " 9.000000+6 1.460400+0 9.200000+6 1.431700+0 9.400000+6 1.404000+0   9 3  2     \n"
    " 9.600000+6 1.377000+0 9.800000+6 1.350900+0 1.000000+7 1.325500+0   9 3  2     \n"
    " 1.050000+7 1.265300+0 1.100000+7 1.209300+0 1.150000+7 1.156600+0   9 3  2     \n"
    " 1.200000+7 1.107300+0 1.250000+7 1.061400+0 1.300000+7 1.018400+0   9 3  2     \n"
    " 1.350000+7 9.781800-1 1.400000+7 9.403100-1 1.450000+7 9.046100-1   9 3  2     \n"
    " 1.500000+7 8.708500-1 1.600000+7 8.084700-1 1.700000+7 7.518000-1   9 3  2     \n"
    " 1.800000+7 6.997300-1 1.900000+7 6.513100-1 2.000000+7 6.058100-1   9 3  2     \n"
    "                                                                     9 3  0     \n"
    " 1.003000+3 2.989596+0          0          0          0          0   9 3 16     \n"
    "-6.257557+6-6.257557+6          0          0          1         81   9 3 16     \n"
    "         81          2                                               9 3 16     \n"
    " 8.350000+6 0.000000+0 8.380000+6 1.000000-3 8.381250+6 1.058900-3   9 3 16     \n"
    " 8.382421+6 1.117300-3 8.383521+6 1.175000-3 8.384551+6 1.231800-3   9 3 16     \n"
    " 8.386481+6 1.345800-3 8.388171+6 1.454100-3 8.389640+6 1.556000-3   9 3 16     \n"
    " 8.390941+6 1.651000-3 8.392071+6 1.738900-3 8.393062+6 1.819600-3   9 3 16     \n"
    " 8.394800+6 1.970000-3 8.396101+6 2.090900-3 8.398050+6 2.286300-3   9 3 16     \n"
    " 8.400001+6 2.500000-3 8.406221+6 2.653800-3 8.412051+6 2.806700-3   9 3 16     \n"
    " 8.417521+6 2.957900-3 8.422651+6 3.107100-3 8.427461+6 3.253800-3   9 3 16     \n"
    " 8.436501+6 3.547800-3 8.444411+6 3.826700-3 8.451340+6 4.088700-3   9 3 16     \n"
    " 8.457400+6 4.332600-3 8.462722+6 4.558000-3 8.472021+6 4.980900-3   9 3 16     \n"
    " 8.479011+6 5.323600-3 8.484250+6 5.596100-3 8.492121+6 6.031100-3   9 3 16     \n"
    " 8.500000+6 6.500000-3 8.512442+6 6.980500-3 8.523332+6 7.430000-3   9 3 16     \n"
    " 8.532882+6 7.847000-3 8.541241+6 8.231000-3 8.555890+6 8.948800-3   9 3 16     \n"
    " 8.566901+6 9.527901-3 8.575161+6 9.986699-3 8.587570+6 1.071700-2   9 3 16     \n"
    " 8.600000+6 1.150000-2 8.637261+6 1.258600-2 8.665311+6 1.346800-2   9 3 16     \n"
    " 8.686400+6 1.416900-2 8.718140+6 1.529000-2 8.750000+6 1.650000-2   9 3 16     \n"
    " 8.780871+6 1.729100-2 8.835140+6 1.876800-2 8.876071+6 1.995800-2   9 3 16     \n"
    " 8.937820+6 2.188600-2 9.000000+6 2.400000-2 9.061861+6 2.558600-2   9 3 16     \n"
    " 9.108531+6 2.684400-2 9.178991+6 2.884700-2 9.250000+6 3.100000-2   9 3 16     \n"
    " 9.374171+6 3.317400-2 9.500000+6 3.550000-2 9.622611+6 3.756300-2   9 3 16     \n"
    " 9.809490+6 4.088500-2 1.000000+7 4.450000-2 1.025000+7 4.750000-2   9 3 16     \n"
    " 1.050000+7 4.950000-2 1.075000+7 5.070000-2 1.100000+7 5.160000-2   9 3 16     \n"
    " 1.130000+7 5.220000-2 1.150000+7 5.250000-2 1.200000+7 5.250000-2   9 3 16     \n"
    " 1.250000+7 5.220000-2 1.300000+7 5.160000-2 1.350000+7 5.090000-2   9 3 16     \n"
    " 1.400000+7 5.000000-2 1.410000+7 4.970000-2 1.450000+7 4.880000-2   9 3 16     \n"
    " 1.500000+7 4.760000-2 1.550000+7 4.640000-2 1.600000+7 4.500000-2   9 3 16     \n"
    " 1.673320+7 4.284900-2 1.750000+7 4.080000-2 1.795680+7 3.943300-2   9 3 16     \n"
    " 1.866450+7 3.746700-2 1.940000+7 3.560000-2 2.000000+7 3.380000-2   9 3 16     \n"
    "                                                                     9 3  0     \n"
    "                                                                     9 0  0     \n"
    "                                                                     0 0  0     \n"
    "                                                                    -1 0  0     \n") := by decide +kernel

theorem file3_chunk : FileRoundTrips 3 125 [1, 2, 102] (txt
    " 1.001000+3 9.991673-1          0          0          0          0 125 3  1     \n"
    " 0.000000+0 0.000000+0          0          0          1          2 125 3  1     \n"
    "          2          5                                             125 3  1     \n"
    " 1.000000-5 3.713628+1 2.000000+7 4.827735-1                       125 3  1     \n"
    "                                                                   125 3  0     \n"
    " 1.001000+3 9.991673-1          0          0          0          0 125 3  2     \n"
    " 0.000000+0 0.000000+0          0          0          1          2 125 3  2     \n"
    "          2          2                                             125 3  2     \n"
    " 1.000000-5 2.043634+1 2.000000+7 4.827462-1                       125 3  2     \n"
    "                                                                   125 3  0     \n"
    " 1.001000+3 9.991673-1          0          0          0          0 125 3102     \n"
    " 2.224631+6 2.224631+6          0          0          1          2 125 3102     \n"
    "          2          5                                             125 3102     \n"
    " 1.000000-5 1.669994+1 2.000000+7 2.722354-5                       125 3102     \n"
    "                                                                   125 3  0     \n"
    "                                                                   125 0  0     \n") := by decide +kernel

theorem file3_SEND : FileRejected 3 (txt
    " 1.001000+3 9.991673-1          0          0          0          0 125 3  1     \n"
    " 0.000000+0 0.000000+0          0          0          1          2 125 3  1     \n"
    "          2          5                                             125 3  1     \n"
    " 1.000000-5 3.713628+1 2.000000+7 4.827735-1                       125 3  1     \n"
    "                                                                   125 3  0     \n"
    " 1.001000+3 9.991673-1          0          0          0          0 125 3  2     \n"
    " 0.000000+0 0.000000+0          0          0          1          2 125 3  2     \n"
    "          2          2                                             125 3  2     \n"
    " 1.000000-5 2.043634+1 2.000000+7 4.827462-1                       125 3  2     \n"
    "                                                                   125 3  0     \n"
    " 1.001000+3 9.991673-1          0          0          0          0 125 3102     \n"
    " 2.224631+6 2.224631+6          0          0          1          2 125 3102     \n"
    "          2          5                                             125 3102     \n"
    " 1.000000-5 1.669994+1 2.000000+7 2.722354-5                       125 3102     \n"
    "                                                                   125 3  0     \n"
    "                                                                   125 3  0     \n") := by decide +kernel

theorem file3_MEND : FileRejected 3 (txt
    " 1.001000+3 9.991673-1          0          0          0          0 125 3  1     \n"
    " 0.000000+0 0.000000+0          0          0          1          2 125 3  1     \n"
    "          2          5                                             125 3  1     \n"
    " 1.000000-5 3.713628+1 2.000000+7 4.827735-1                       125 3  1     \n"
    "                                                                   125 3  0     \n"
    " 1.001000+3 9.991673-1          0          0          0          0 125 3  2     \n"
    " 0.000000+0 0.000000+0          0          0          1          2 125 3  2     \n"
    "          2          2                                             125 3  2     \n"
    " 1.000000-5 2.043634+1 2.000000+7 4.827462-1                       125 3  2     \n"
    "                                                                   125 3  0     \n"
    " 1.001000+3 9.991673-1          0          0          0          0 125 3102     \n"
    " 2.224631+6 2.224631+6          0          0          1          2 125 3102     \n"
    "          2          5                                             125 3102     \n"
    " 1.000000-5 1.669994+1 2.000000+7 2.722354-5                       125 3102     \n"
    "                                                                   125 3  0     \n"
    "                                                                     0 0  0     \n") := by decide +kernel

theorem file3_TEND : FileRejected 3 (txt
    " 1.001000+3 9.991673-1          0          0          0          0 125 3  1     \n"
    " 0.000000+0 0.000000+0          0          0          1          2 125 3  1     \n"
    "          2          5                                             125 3  1     \n"
    " 1.000000-5 3.713628+1 2.000000+7 4.827735-1                       125 3  1     \n"
    "                                                                   125 3  0     \n"
    " 1.001000+3 9.991673-1          0          0          0          0 125 3  2     \n"
    " 0.000000+0 0.000000+0          0          0          1          2 125 3  2     \n"
    "          2          2                                             125 3  2     \n"
    " 1.000000-5 2.043634+1 2.000000+7 4.827462-1                       125 3  2     \n"
    "                                                                   125 3  0     \n"
    " 1.001000+3 9.991673-1          0          0          0          0 125 3102     \n"
    " 2.224631+6 2.224631+6          0          0          1          2 125 3102     \n"
    "          2          5                                             125 3102     \n"
    " 1.000000-5 1.669994+1 2.000000+7 2.722354-5                       125 3102     \n"
    "                                                                   125 3  0     \n"
    "                                                                    -1 0  0     \n") := by decide +kernel

theorem file3_duplicate : FileRejected 3 (txt
    " 1.001000+3 9.991673-1          0          0          0          0 125 3  1     \n"
    " 0.000000+0 0.000000+0          0          0          1          2 125 3  1     \n"
    "          2          5                                             125 3  1     \n"
    " 1.000000-5 3.713628+1 2.000000+7 4.827735-1                       125 3  1     \n"
    "                                                                   125 3  0     \n"
    " 1.001000+3 9.991673-1          0          0          0          0 125 3  1     \n"
    " 0.000000+0 0.000000+0          0          0          1          2 125 3  1     \n"
    "          2          5                                             125 3  1     \n"
    " 1.000000-5 3.713628+1 2.000000+7 4.827735-1                       125 3  1     \n"
    "                                                                   125 3  0     \n"
    "                                                                   125 0  0     \n") := by decide +kernel

theorem file8_chunk457 : FileRoundTrips 8 3580 [457] (txt
    " 9.524200+4 2.399801+2          2          1          0          23580 8457     \n"
    " 4.449622+9 6.311520+7          0          0          6          03580 8457     \n"
    " 4.008322+4 4.128931+3 5.373671+3 3.660206+2 2.441003+4 6.191754+23580 8457     \n"
    " 5.000000+0-1.000000+0          0          0         18          33580 8457     \n"
    " 4.000000+0 0.000000+0 5.637120+6 2.549510+2 4.590000-3 1.200000-43580 8457     \n"
    " 3.000000+0 0.000000+0 4.860000+4 5.000000+1 9.954100-1 1.200000-43580 8457     \n"
    " 6.000000+0 0.000000+0 1.884000+8 3.700000+6 1.60000-10 6.00000-113580 8457     \n"
    " 0.000000+0 0.000000+0          0          0          6          23580 8457     \n"
    " 1.000000+0 0.000000+0 2.107044+2 1.576284+1 0.000000+0 0.000000+03580 8457     \n"
    " 4.863000+4 5.000000+1          0          0         12          03580 8457     \n"
    " 3.000000+0 0.000000+0 1.420112-6 2.85306-10 0.000000+0 0.000000+03580 8457     \n"
    " 7.010000+5 1.106180-2 0.000000+0 0.000000+0 3.315735+5 5.608008+33580 8457     \n"
    " 4.935000+4 2.000000+1          0          0         12          03580 8457     \n"
    " 4.000000+0 0.000000+0 1.335690-3 5.409179-5 0.000000+0 0.000000+03580 8457     \n"
    " 8.209999-1 0.000000+0 0.000000+0 0.000000+0 6.160000-1 8.999999-33580 8457     \n"
    " 0.000000+0 1.000000+0          1          0          6          03580 8457     \n"
    " 0.000000+0 0.000000+0 3.107044+2 4.576284+1 5.000000-1 2.500000-13580 8457     \n"
    " 4.000000+0 0.000000+0          0          0          1          33580 8457     \n"
    "          3          1                                            3580 8457     \n"
    " 0.000000+0 6.133200-7 5.000000+5 6.133300-7 7.300000+6 6.02040-173580 8457     \n"
    "                                                                  3580 8  0     \n"
    "                                                                  3580 0  0     \n") := by decide +kernel

theorem file8_SEND : FileRejected 8 (txt
    " 9.524200+4 2.399801+2          2          1          0          23580 8457     \n"
    " 4.449622+9 6.311520+7          0          0          6          03580 8457     \n"
    " 4.008322+4 4.128931+3 5.373671+3 3.660206+2 2.441003+4 6.191754+23580 8457     \n"
    " 5.000000+0-1.000000+0          0          0         18          33580 8457     \n"
    " 4.000000+0 0.000000+0 5.637120+6 2.549510+2 4.590000-3 1.200000-43580 8457     \n"
    " 3.000000+0 0.000000+0 4.860000+4 5.000000+1 9.954100-1 1.200000-43580 8457     \n"
    " 6.000000+0 0.000000+0 1.884000+8 3.700000+6 1.60000-10 6.00000-113580 8457     \n"
    " 0.000000+0 0.000000+0          0          0          6          23580 8457     \n"
    " 1.000000+0 0.000000+0 2.107044+2 1.576284+1 0.000000+0 0.000000+03580 8457     \n"
    " 4.863000+4 5.000000+1          0          0         12          03580 8457     \n"
    " 3.000000+0 0.000000+0 1.420112-6 2.85306-10 0.000000+0 0.000000+03580 8457     \n"
    " 7.010000+5 1.106180-2 0.000000+0 0.000000+0 3.315735+5 5.608008+33580 8457     \n"
    " 4.935000+4 2.000000+1          0          0         12          03580 8457     \n"
    " 4.000000+0 0.000000+0 1.335690-3 5.409179-5 0.000000+0 0.000000+03580 8457     \n"
    " 8.209999-1 0.000000+0 0.000000+0 0.000000+0 6.160000-1 8.999999-33580 8457     \n"
    " 0.000000+0 1.000000+0          1          0          6          03580 8457     \n"
    " 0.000000+0 0.000000+0 3.107044+2 4.576284+1 5.000000-1 2.500000-13580 8457     \n"
    " 4.000000+0 0.000000+0          0          0          1          33580 8457     \n"
    "          3          1                                            3580 8457     \n"
    " 0.000000+0 6.133200-7 5.000000+5 6.133300-7 7.300000+6 6.02040-173580 8457     \n"
    "                                                                  3580 8  0     \n"
    "                                                                  3580 8  0     \n") := by decide +kernel

theorem file8_MEND : FileRejected 8 (txt
    " 9.524200+4 2.399801+2          2          1          0          23580 8457     \n"
    " 4.449622+9 6.311520+7          0          0          6          03580 8457     \n"
    " 4.008322+4 4.128931+3 5.373671+3 3.660206+2 2.441003+4 6.191754+23580 8457     \n"
    " 5.000000+0-1.000000+0          0          0         18          33580 8457     \n"
    " 4.000000+0 0.000000+0 5.637120+6 2.549510+2 4.590000-3 1.200000-43580 8457     \n"
    " 3.000000+0 0.000000+0 4.860000+4 5.000000+1 9.954100-1 1.200000-43580 8457     \n"
    " 6.000000+0 0.000000+0 1.884000+8 3.700000+6 1.60000-10 6.00000-113580 8457     \n"
    " 0.000000+0 0.000000+0          0          0          6          23580 8457     \n"
    " 1.000000+0 0.000000+0 2.107044+2 1.576284+1 0.000000+0 0.000000+03580 8457     \n"
    " 4.863000+4 5.000000+1          0          0         12          03580 8457     \n"
    " 3.000000+0 0.000000+0 1.420112-6 2.85306-10 0.000000+0 0.000000+03580 8457     \n"
    " 7.010000+5 1.106180-2 0.000000+0 0.000000+0 3.315735+5 5.608008+33580 8457     \n"
    " 4.935000+4 2.000000+1          0          0         12          03580 8457     \n"
    " 4.000000+0 0.000000+0 1.335690-3 5.409179-5 0.000000+0 0.000000+03580 8457     \n"
    " 8.209999-1 0.000000+0 0.000000+0 0.000000+0 6.160000-1 8.999999-33580 8457     \n"
    " 0.000000+0 1.000000+0          1          0          6          03580 8457     \n"
    " 0.000000+0 0.000000+0 3.107044+2 4.576284+1 5.000000-1 2.500000-13580 8457     \n"
    " 4.000000+0 0.000000+0          0          0          1          33580 8457     \n"
    "          3          1                                            3580 8457     \n"
    " 0.000000+0 6.133200-7 5.000000+5 6.133300-7 7.300000+6 6.02040-173580 8457     \n"
    "                                                                  3580 8  0     \n"
    "                                                                     0 0  0     \n") := by decide +kernel

theorem file8_TEND : FileRejected 8 (txt
    " 9.524200+4 2.399801+2          2          1          0          23580 8457     \n"
    " 4.449622+9 6.311520+7          0          0          6          03580 8457     \n"
    " 4.008322+4 4.128931+3 5.373671+3 3.660206+2 2.441003+4 6.191754+23580 8457     \n"
    " 5.000000+0-1.000000+0          0          0         18          33580 8457     \n"
    " 4.000000+0 0.000000+0 5.637120+6 2.549510+2 4.590000-3 1.200000-43580 8457     \n"
    " 3.000000+0 0.000000+0 4.860000+4 5.000000+1 9.954100-1 1.200000-43580 8457     \n"
    " 6.000000+0 0.000000+0 1.884000+8 3.700000+6 1.60000-10 6.00000-113580 8457     \n"
    " 0.000000+0 0.000000+0          0          0          6          23580 8457     \n"
    " 1.000000+0 0.000000+0 2.107044+2 1.576284+1 0.000000+0 0.000000+03580 8457     \n"
    " 4.863000+4 5.000000+1          0          0         12          03580 8457     \n"
    " 3.000000+0 0.000000+0 1.420112-6 2.85306-10 0.000000+0 0.000000+03580 8457     \n"
    " 7.010000+5 1.106180-2 0.000000+0 0.000000+0 3.315735+5 5.608008+33580 8457     \n"
    " 4.935000+4 2.000000+1          0          0         12          03580 8457     \n"
    " 4.000000+0 0.000000+0 1.335690-3 5.409179-5 0.000000+0 0.000000+03580 8457     \n"
    " 8.209999-1 0.000000+0 0.000000+0 0.000000+0 6.160000-1 8.999999-33580 8457     \n"
    " 0.000000+0 1.000000+0          1          0          6          03580 8457     \n"
    " 0.000000+0 0.000000+0 3.107044+2 4.576284+1 5.000000-1 2.500000-13580 8457     \n"
    " 4.000000+0 0.000000+0          0          0          1          33580 8457     \n"
    "          3          1                                            3580 8457     \n"
    " 0.000000+0 6.133200-7 5.000000+5 6.133300-7 7.300000+6 6.02040-173580 8457     \n"
    "                                                                  3580 8  0     \n"
    "                                                                    -1 0  0     \n") := by decide +kernel

theorem file8_HEAD : FileRejected 8 (txt
    " 9.524200+4 2.399801+2          2          1          0          23580 8457     \n"
    " 4.449622+9 6.311520+7          0          0          6          03580 8457     \n"
    " 4.008322+4 4.128931+3 5.373671+3 3.660206+2 2.441003+4 6.191754+23580 8457     \n"
    " 5.000000+0-1.000000+0          0          0         18          33580 8457     \n"
    " 4.000000+0 0.000000+0 5.637120+6 2.549510+2 4.590000-3 1.200000-43580 8457     \n"
    " 3.000000+0 0.000000+0 4.860000+4 5.000000+1 9.954100-1 1.200000-43580 8457     \n"
    " 6.000000+0 0.000000+0 1.884000+8 3.700000+6 1.60000-10 6.00000-113580 8457     \n"
    " 0.000000+0 0.000000+0          0          0          6          23580 8457     \n"
    " 1.000000+0 0.000000+0 2.107044+2 1.576284+1 0.000000+0 0.000000+03580 8457     \n"
    " 4.863000+4 5.000000+1          0          0         12          03580 8457     \n"
    " 3.000000+0 0.000000+0 1.420112-6 2.85306-10 0.000000+0 0.000000+03580 8457     \n"
    " 7.010000+5 1.106180-2 0.000000+0 0.000000+0 3.315735+5 5.608008+33580 8457     \n"
    " 4.935000+4 2.000000+1          0          0         12          03580 8457     \n"
    " 4.000000+0 0.000000+0 1.335690-3 5.409179-5 0.000000+0 0.000000+03580 8457     \n"
    " 8.209999-1 0.000000+0 0.000000+0 0.000000+0 6.160000-1 8.999999-33580 8457     \n"
    " 0.000000+0 1.000000+0          1          0          6          03580 8457     \n"
    " 0.000000+0 0.000000+0 3.107044+2 4.576284+1 5.000000-1 2.500000-13580 8457     \n"
    " 4.000000+0 0.000000+0          0          0          1          33580 8457     \n"
    "          3          1                                            3580 8457     \n"
    " 0.000000+0 6.133200-7 5.000000+5 6.133300-7 7.300000+6 6.02040-173580 8457     \n"
    "                                                                  3580 8  0     \n"
    " 9.524200+4 2.399801+2          2          1          0          23580 8457     \n") := by decide +kernel

theorem file1_chunk451 : FileRoundTrips 1 3988 [451] (txt
    " 3.908800+4 8.715432+1          0          0          0          03988 1451     \n"
    " 0.000000+0 0.000000+0          0          0          0          63988 1451     \n"
    " 1.000000+0 2.000000+7          0          0         10          03988 1451     \n"
    " 2.936000+2 0.000000+0          1          0          6          23988 1451     \n"
    " 39- Y- 88 LANL                                                   3988 1451     \n"
    "LANL                                                              3988 1451     \n"
    "----LANL/RC-III       MATERIAL 3988                               3988 1451     \n"
    "-----INCIDENT NEUTRON DATA                                        3988 1451     \n"
    "------ENDF-6 FORMAT                                               3988 1451     \n"
    "***************************************************               3988 1451     \n"
    "                                1        451         12          03988 1451     \n"
    "                                3          1          4          03988 1451     \n"
    "                                                                  3988 1  0     \n"
    "                                                                  3988 0  0     \n") := by decide +kernel

theorem file1_SEND : FileRejected 1 (txt
    " 3.908800+4 8.715432+1          0          0          0          03988 1451     \n"
    " 0.000000+0 0.000000+0          0          0          0          63988 1451     \n"
    " 1.000000+0 2.000000+7          0          0         10          03988 1451     \n"
    " 2.936000+2 0.000000+0          1          0          6          23988 1451     \n"
    " 39- Y- 88 LANL                                                   3988 1451     \n"
    "LANL                                                              3988 1451     \n"
    "----LANL/RC-III       MATERIAL 3988                               3988 1451     \n"
    "-----INCIDENT NEUTRON DATA                                        3988 1451     \n"
    "------ENDF-6 FORMAT                                               3988 1451     \n"
    "***************************************************               3988 1451     \n"
    "                                1        451         12          03988 1451     \n"
    "                                3          1          4          03988 1451     \n"
    "                                                                  3988 1  0     \n"
    "                                                                  3988 3  0     \n") := by decide +kernel

theorem file1_MEND : FileRejected 1 (txt
    " 3.908800+4 8.715432+1          0          0          0          03988 1451     \n"
    " 0.000000+0 0.000000+0          0          0          0          63988 1451     \n"
    " 1.000000+0 2.000000+7          0          0         10          03988 1451     \n"
    " 2.936000+2 0.000000+0          1          0          6          23988 1451     \n"
    " 39- Y- 88 LANL                                                   3988 1451     \n"
    "LANL                                                              3988 1451     \n"
    "----LANL/RC-III       MATERIAL 3988                               3988 1451     \n"
    "-----INCIDENT NEUTRON DATA                                        3988 1451     \n"
    "------ENDF-6 FORMAT                                               3988 1451     \n"
    "***************************************************               3988 1451     \n"
    "                                1        451         12          03988 1451     \n"
    "                                3          1          4          03988 1451     \n"
    "                                                                  3988 1  0     \n"
    "                                                                     0 0  0     \n") := by decide +kernel

theorem file1_TEND : FileRejected 1 (txt
    " 3.908800+4 8.715432+1          0          0          0          03988 1451     \n"
    " 0.000000+0 0.000000+0          0          0          0          63988 1451     \n"
    " 1.000000+0 2.000000+7          0          0         10          03988 1451     \n"
    " 2.936000+2 0.000000+0          1          0          6          23988 1451     \n"
    " 39- Y- 88 LANL                                                   3988 1451     \n"
    "LANL                                                              3988 1451     \n"
    "----LANL/RC-III       MATERIAL 3988                               3988 1451     \n"
    "-----INCIDENT NEUTRON DATA                                        3988 1451     \n"
    "------ENDF-6 FORMAT                                               3988 1451     \n"
    "***************************************************               3988 1451     \n"
    "                                1        451         12          03988 1451     \n"
    "                                3          1          4          03988 1451     \n"
    "                                                                  3988 1  0     \n"
    "                                                                    -1 0  0     \n") := by decide +kernel

theorem file1_HEAD : FileRejected 1 (txt
    " 3.908800+4 8.715432+1          0          0          0          03988 1451     \n"
    " 0.000000+0 0.000000+0          0          0          0          63988 1451     \n"
    " 1.000000+0 2.000000+7          0          0         10          03988 1451     \n"
    " 2.936000+2 0.000000+0          1          0          6          23988 1451     \n"
    " 39- Y- 88 LANL                                                   3988 1451     \n"
    "LANL                                                              3988 1451     \n"
    "----LANL/RC-III       MATERIAL 3988                               3988 1451     \n"
    "-----INCIDENT NEUTRON DATA                                        3988 1451     \n"
    "------ENDF-6 FORMAT                                               3988 1451     \n"
    "***************************************************               3988 1451     \n"
    "                                1        451         12          03988 1451     \n"
    "                                3          1          4          03988 1451     \n"
    "                                                                  3988 1  0     \n"
    " 3.908800+4 8.715432+1          0          0          0          03988 1451     \n") := by decide +kernel

theorem file7_chunk24 : FileRoundTrips 7 27 [2, 4] (txt
    " 1.270000+2 1.000000+0          1          0          0          0  27 7  2     \n"
    " 2.936000+2 0.000000+0          0          0          1          3  27 7  2     \n"
    "          3          1                                              27 7  2     \n"
    " 1.059427-3 0.000000+0 3.718355-3 9.364524-3 4.237708-3 1.548925-2  27 7  2     \n"
    "                                                                    27 7  0     \n"
    " 1.270000+2 8.934780+0          0          1          0          0  27 7  4     \n"
    " 0.000000+0 0.000000+0          0          0          6          0  27 7  4     \n"
    " 6.153875+0 1.976285+2 8.934780+0 5.000001+0 0.000000+0 1.000000+0  27 7  4     \n"
    " 0.000000+0 0.000000+0          0          0          1          2  27 7  4     \n"
    "          2          4                                              27 7  4     \n"
    " 2.936000+2 0.000000+0          0          0          1          5  27 7  4     \n"
    "          5          4                                              27 7  4     \n"
    " 4.423802-3 2.386876-4 4.649528-3 2.508466-4 4.886772-3 2.636238-4  27 7  4     \n"
    " 8.418068+1 1.306574-9 8.847604+1 5.29573-10                        27 7  4     \n"
    " 2.936000+2 3.952570-2          0          0          1          5  27 7  4     \n"
    "          5          2                                              27 7  4     \n"
    " 4.423802-3 2.386694-4 4.649528-3 2.508273-4 4.886772-3 2.636238-4  27 7  4     \n"
    " 8.418068+1 2.770291-4 8.847604+1 2.911373-4                        27 7  4     \n"
    " 0.000000+0 0.000000+0          0          0          1          3  27 7  4     \n"
    "          3          2                                              27 7  4     \n"
    " 2.936000+2 5.332083+2 6.000000+2 7.354726+2 1.200000+3 1.270678+3  27 7  4     \n"
    "                                                                    27 7  0     \n"
    "                                                                    27 0  0     \n") := by decide +kernel

theorem file32_chunk : FileRoundTrips 32 9222 [151] (txt
    " 9.223500+4 2.330250+2          0          0          1          0922232151     \n"
    " 9.223500+4 1.000000+0          0          0          1          0922232151     \n"
    " 1.000000-5 2.250000+3          1          3          0          1922232151     \n"
    " 2.500000+0 9.620000-1          0          2          0          0922232151     \n"
    " 2.310377+2 0.000000+0          0          0         24          2922232151     \n"
    "-1.060000+3 3.000000+0 1.524000+0 4.000000-2 2.600000-1 2.370000-1922232151     \n"
    " 2.061000+0 0.000000+0 1.453063+0 3.999991-2 2.592466-1 2.362210-1922232151     \n"
    "-8.000000+2 2.000000+0 1.315000+0 4.000000-2 3.120000-1-2.250000-1922232151     \n"
    " 1.891999+0 0.000000+0 1.268267+0 3.999987-2 3.106125-1 2.241766-1922232151     \n"
    " 0.000000+0 0.000000+0          5         10          7          0922232151     \n"
    "    2    1   -120                                                 922232151     \n"
    "    4    1     -2  -937                                           922232151     \n"
    "    5    1     -2  -621     0   -38                               922232151     \n"
    "    6    2    -10                                                 922232151     \n"
    "    7    1     -9 -6134     0  -209   114  -139                   922232151     \n"
    "    8    2      2                                                 922232151     \n"
    "    9    2    324     0    17     3    -3  -748                   922232151     \n"
    "                                                                  922232  0     \n"
    "                                                                  9222 0  0     \n") := by decide +kernel

theorem file32_wrong_mt : FileRejected 32 (txt
    " 9.223500+4 2.330250+2          0          0          1          0922232152     \n"
    " 9.223500+4 1.000000+0          0          0          1          0922232152     \n"
    " 1.000000-5 2.250000+3          1          3          0          1922232152     \n"
    " 2.500000+0 9.620000-1          0          2          0          0922232152     \n"
    " 2.310377+2 0.000000+0          0          0         24          2922232152     \n"
    "-1.060000+3 3.000000+0 1.524000+0 4.000000-2 2.600000-1 2.370000-1922232152     \n"
    " 2.061000+0 0.000000+0 1.453063+0 3.999991-2 2.592466-1 2.362210-1922232152     \n"
    "-8.000000+2 2.000000+0 1.315000+0 4.000000-2 3.120000-1-2.250000-1922232152     \n"
    " 1.891999+0 0.000000+0 1.268267+0 3.999987-2 3.106125-1 2.241766-1922232152     \n"
    " 0.000000+0 0.000000+0          5         10          7          0922232152     \n"
    "    2    1   -120                                                 922232152     \n"
    "    4    1     -2  -937                                           922232152     \n"
    "    5    1     -2  -621     0   -38                               922232152     \n"
    "    6    2    -10                                                 922232152     \n"
    "    7    1     -9 -6134     0  -209   114  -139                   922232152     \n"
    "    8    2      2                                                 922232152     \n"
    "    9    2    324     0    17     3    -3  -748                   922232152     \n"
    "                                                                  922232  0     \n"
    "                                                                  9222 0  0     \n") := by decide +kernel

/-- Read as a material, printed, and the printed text is rejected. -/
def PrintedUnreadable (s : Text) : Prop :=
  match readMaterialFrom ⟨s, 0⟩ with
  | .ok (m, st) => st.rest = [] ∧ match m.print with
    | .ok p => match readMaterialFrom ⟨p, 0⟩ with
      | .ok _ => False
      | .error e => e.isStd = true
    | .error _ => False
  | .error _ => False

instance (s : Text) : Decidable (PrintedUnreadable s) := by
  unfold PrintedUnreadable
  split
  · refine @instDecidableAnd _ _ inferInstance ?_
    split
    · split <;> exact inferInstance
    · exact inferInstance
  · exact inferInstance

/-- A material with a file 8 that begins with MT 102 (which is skipped): it can be read, but what it is printed as cannot. -/
theorem C46_skipped_file8 : PrintedUnreadable (txt
    " 1.001000+3 9.991673-1          0          0          0          0 125 3  1     \n"
    " 0.000000+0 0.000000+0          0          0          1          2 125 3  1     \n"
    "          2          5                                             125 3  1     \n"
    " 1.000000-5 3.713628+1 2.000000+7 4.827735-1                       125 3  1     \n"
    "                                                                   125 3  0     \n"
    "                                                                   125 0  0     \n"
    " 1.001000+3 9.991673-1          0          0          1          0 125 8102     \n"
    " 1.002000+3 0.000000+0          3          0          0          0 125 8102     \n"
    "                                                                   125 8  0     \n"
    "                                                                   125 0  0     \n"
    "                                                                     0 0  0     \n") := by decide +kernel

end ENDFtk.Props

import Verif.Props.SectionExamples
/-
  The parts of C41, C44 and C49 that the code does not satisfy, on concrete texts, with the concrete number format `concDisco`.
-/
set_option linter.unusedVariables false
set_option maxRecDepth 100000
namespace ENDFtk.Props
attribute [local instance] concDisco

/-- Reading reaches undefined behaviour. -/
def Undefined (T : SectionType) (s : Text) : Prop :=
  match T.defn.parse ⟨s, 0⟩ with
  | .ok _ => False
  | .error e => e = .ub

instance (T : SectionType) (s : Text) : Decidable (Undefined T s) := by
  unfold Undefined; split <;> exact inferInstance

/-- MF12, LO = 2 with NT = 0 transitions: division by zero. -/
theorem C49_mf12_no_transitions : Undefined .mf12 (txt
    " 9.223500+4 2.330250+2          2          2          2          0922812 51     \n"
    " 5.170900+4 0.000000+0          0          0          0          0922812 51     \n"
    "                                                                  922812  0     \n") := by decide +kernel

/-- MF26 (and MF6) LAW = 1 with more discrete energies (ND = 5) than energies: `drop_exactly` of too many values. -/
theorem C49_mf26_too_many_discrete : Undefined .mf26 (txt
    " 1.000000+3 9.992414-1          0          0          1          0 10026525     \n"
    " 1.000000+3 9.992414-1          0          1          1          2 10026525     \n"
    "          2          4                                             10026525     \n"
    " 1.000000+1 1.000000+0 1.00000+11 1.000000+0                       10026525     \n"
    " 0.000000+0 0.000000+0          1          2          1          1 10026525     \n"
    "          1          1                                             10026525     \n"
    " 0.000000+0 1.000000+1          5          0          4          2 10026525     \n"
    " 1.000000-1 2.139400+0 1.000000+1 2.122450-2                       10026525     \n"
    "                                                                   10026  0     \n") := by decide +kernel

theorem C49_mf6_too_many_discrete : Undefined .mf6 (txt
    " 9.223500+4 2.330248+2          0          2          1          09228 6  5     \n"
    " 1.001000+3 9.986234-1          0          1          1          29228 6  5     \n"
    "          2          2                                            9228 6  5     \n"
    " 1.000000-5 0.000000+0 1.100000+7 8.45368-11                      9228 6  5     \n"
    " 0.000000+0 0.000000+0          1          2          1          19228 6  5     \n"
    "          1          1                                            9228 6  5     \n"
    " 0.000000+0 1.000000-5          3          1          6          29228 6  5     \n"
    " 1.000000+0 2.000000+0 3.000000+0 4.000000+0 5.000000+0 6.000000+09228 6  5     \n"
    "                                                                  9228 6  0     \n") := by decide +kernel

/-- MF7 MT4 with NS = -1 and an empty list: `__builtin_unreachable()` is reached. -/
theorem C49_mf7mt4_negative_ns : Undefined .mf7mt4 (txt
    " 1.270000+2 8.934780+0          0          1          0          0  27 7  4     \n"
    " 0.000000+0 0.000000+0          0          0          0         -1  27 7  4     \n"
    "                                                                    27 7  0     \n") := by decide +kernel

/-- A rectangular covariance matrix with NER = 0: division by zero. -/
theorem C49_mf33_no_rows : Undefined .mf33 (txt
    " 9.423900+4 2.369986+2          0          0          0          1943733  2     \n"
    " 1.000000+0 2.000000+0          3          4          0          1943733  2     \n"
    " 0.000000+0 0.000000+0          0          6          1          0943733  2     \n"
    " 0.000000+0                                                       943733  2     \n"
    "                                                                  943733  0     \n") := by decide +kernel

theorem C49_mf31_no_rows : Undefined .mf31 (txt
    " 9.423900+4 2.369986+2          0          0          0          1943731452     \n"
    " 1.000000+0 2.000000+0          3          4          0          1943731452     \n"
    " 0.000000+0 0.000000+0          0          6          1          0943731452     \n"
    " 0.000000+0                                                       943731452     \n"
    "                                                                  943731  0     \n") := by decide +kernel

theorem C49_mf34_no_rows : Undefined .mf34 (txt
    " 9.423900+4 2.369986+2          0          1          0          1943734  2     \n"
    " 0.000000+0 0.000000+0          0         51          1          1943734  2     \n"
    " 0.000000+0 0.000000+0          1          1          0          1943734  2     \n"
    " 0.000000+0 0.000000+0          0          6          1          0943734  2     \n"
    " 0.000000+0                                                       943734  2     \n"
    "                                                                  943734  0     \n") := by decide +kernel

theorem C49_mf40_no_rows : Undefined .mf40 (txt
    " 9.423900+4 2.369986+2          1          0          1          0943740 51     \n"
    " 3.140000+0 6.280000+0        314        628          0          1943740 51     \n"
    " 3.000000+0 1.000000+0         55         66          0          1943740 51     \n"
    " 0.000000+0 0.000000+0          0          6          1          0943740 51     \n"
    " 0.000000+0                                                       943740 51     \n"
    "                                                                  943740  0     \n") := by decide +kernel

/-- An unresolved j value with fewer than six values: `drop_exactly( 6 )` of fewer than six values. -/
theorem C49_mf2mt151_short_jvalue : Undefined .mf2mt151 (txt
    " 9.424000+4 2.379920+2          0          0          1          0 125 2151     \n"
    " 9.424000+4 1.000000+0          0          1          1          0 125 2151     \n"
    " 5.700000+3 4.000000+4          2          2          0          0 125 2151     \n"
    " 0.000000+0 8.880000-1          0          0          1          0 125 2151     \n"
    " 2.379920+2 0.000000+0          0          0          1          0 125 2151     \n"
    " 5.000000-1 0.000000+0          5          0          2          0 125 2151     \n"
    " 5.700000+3 7.000000+3                                             125 2151     \n"
    "                                                                   125 2  0     \n") := by decide +kernel

/-- MF2 MT152, NREAC * NSIGZ = 65536 * 65536 overflows. -/
theorem C49_mf2mt152_overflow : Undefined .mf2mt152 (txt
    " 9.223500+4 2.330248+2          0          0          0          29228 2152     \n"
    " 0.000000+0 0.000000+0      65536      65536          1          09228 2152     \n"
    " 1.000000+0                                                       9228 2152     \n"
    "                                                                  9228 2  0     \n") := by decide +kernel

/-- MF7 MT451, NI * 6 = 715827883 * 6 overflows. -/
theorem C49_mf7mt451_overflow : Undefined .mf7mt451 (txt
    " 9.223500+4 2.330248+2          1          0          0          0  27 7451     \n"
    " 0.000000+0 0.000000+0          0          0          1  715827883  27 7451     \n"
    " 1.000000+0                                                         27 7451     \n"
    "                                                                    27 7  0     \n") := by decide +kernel

/-- MF8 MT454, NFP * 4 = 1073741824 * 4 overflows. -/
theorem C49_mf8mt454_overflow : Undefined .mf8mt454 (txt
    " 9.223500+4 2.330248+2          1          0          0          09228 8454     \n"
    " 0.000000+0 0.000000+0          0          0          1 10737418249228 8454     \n"
    " 1.000000+0                                                       9228 8454     \n"
    "                                                                  9228 8  0     \n") := by decide +kernel

/-- MF8 MT459, NFP * 4 = 1073741824 * 4 overflows. -/
theorem C49_mf8mt459_overflow : Undefined .mf8mt459 (txt
    " 9.223500+4 2.330248+2          1          0          0          09228 8459     \n"
    " 0.000000+0 0.000000+0          0          0          1 10737418249228 8459     \n"
    " 1.000000+0                                                       9228 8459     \n"
    "                                                                  9228 8  0     \n") := by decide +kernel

/-- MF8 MT457, 6 * NDK = 6 * 715827883 overflows. -/
theorem C49_mf8mt457_overflow : Undefined .mf8mt457 (txt
    " 9.223500+4 2.330248+2          0          0          0          09228 8457     \n"
    " 1.000000+0 0.000000+0          0          0          6          09228 8457     \n"
    " 1.000000+0 1.000000+0 1.000000+0 1.000000+0 1.000000+0 1.000000+09228 8457     \n"
    " 0.000000+0 0.000000+0          0          0          1  7158278839228 8457     \n"
    " 1.000000+0                                                       9228 8457     \n"
    "                                                                  9228 8  0     \n") := by decide +kernel

/-- MF28, NTR + 1 = 2147483647 + 1 overflows. -/
theorem C49_mf28_overflow : Undefined .mf28 (txt
    " 9.223500+4 2.330248+2          0          0          1          0920028533     \n"
    " 0.000000+0 0.000000+0          0          0          1 2147483647920028533     \n"
    " 1.000000+0                                                       920028533     \n"
    "                                                                  920028  0     \n") := by decide +kernel

/-- MF35, NE * ( NE - 1 ) = 65536 * 65535 overflows. -/
theorem C49_mf35_overflow : Undefined .mf35 (txt
    " 9.223500+4 2.330248+2          0          0          1          0922835 18     \n"
    " 0.000000+0 0.000000+0          0          7          1      65536922835 18     \n"
    " 1.000000+0                                                       922835 18     \n"
    "                                                                  922835  0     \n") := by decide +kernel

/-- The types for which `C49_std_only_partial` is not stated do reach undefined behaviour. -/
theorem C49_exactly_these (T : SectionType) (h : T.clean = false) : ∃ s, T.defn.parse s = .error .ub := by
  have key : ∀ t, Undefined T t → ∃ s, T.defn.parse s = .error .ub := by
    intro t ht
    unfold Undefined at ht
    split at ht
    · cases ht
    · rename_i e he; subst ht; exact ⟨_, he⟩
  cases T <;> first | (exact absurd h (by decide)) | skip
  · exact key _ C49_mf2mt151_short_jvalue
  · exact key _ C49_mf2mt152_overflow
  · exact key _ C49_mf6_too_many_discrete
  · exact key _ C49_mf7mt4_negative_ns
  · exact key _ C49_mf7mt451_overflow
  · exact key _ C49_mf8mt454_overflow
  · exact key _ C49_mf8mt457_overflow
  · exact key _ C49_mf8mt459_overflow
  · exact key _ C49_mf12_no_transitions
  · exact key _ C49_mf26_too_many_discrete
  · exact key _ C49_mf28_overflow
  · exact key _ C49_mf31_no_rows
  · exact key _ C49_mf33_no_rows
  · exact key _ C49_mf34_no_rows
  · exact key _ C49_mf35_overflow
  · exact key _ C49_mf40_no_rows

/-- What is printed is not accepted. -/
def NotReadBack (T : SectionType) (x : Sect T.Data) (mat : Int) : Prop :=
  match T.defn.print x mat T.defn.mf with
  | .ok t => match T.defn.parse ⟨t, 0⟩ with
    | .ok _ => False
    | .error _ => True
  | .error _ => False

instance (T : SectionType) (x : Sect T.Data) (mat : Int) : Decidable (NotReadBack T x mat) := by
  unfold NotReadBack; split
  · split <;> exact inferInstance
  · exact inferInstance

/-- Accepted, but what is printed afterwards is not accepted. -/
def NotStable (T : SectionType) (mat : Int) (s : Text) : Prop :=
  match T.defn.parse ⟨s, 0⟩ with
  | .ok (x, _) => NotReadBack T x mat
  | .error _ => False

instance (T : SectionType) (mat : Int) (s : Text) : Decidable (NotStable T mat s) := by
  unfold NotStable; split <;> exact inferInstance

/-- Counterexample to C41 for 2/151: LFW = 2^32 in the isotope's record is true as a `bool`, and 0 as an `int`. -/
theorem C41_mf2mt151_counterexample : NotStable .mf2mt151 125 (txt
    " 5.614000+4 1.387080+2          0          0          1          0 125 2151     \n"
    " 5.614000+4 1.000000+0          0 4294967296          1          0 125 2151     \n"
    " 2.300000+4 1.000000+5          2          1          0          0 125 2151     \n"
    " 0.000000+0 6.233000-1          0          0          1          0 125 2151     \n"
    " 1.387090+2 0.000000+0          0          0          6          1 125 2151     \n"
    " 4.400000+3 5.000000-1 1.000000+0 4.400000-1 5.000000-2 0.000000+0 125 2151     \n"
    "                                                                   125 2  0     \n") := by decide +kernel

/-- A table of one point. -/
def onePoint (l2 : Int) : TAB1 := ⟨⟨⟨0, 0⟩, ⟨0, 0⟩, 0, l2, [1], [2]⟩, [⟨1000000, -6⟩], [⟨2000000, -6⟩]⟩

/-- The constructor of MF6 accepts distribution law -n ("defined elsewhere", LAW < 0) for any MT, but reading accepts it only for MT = 18. -/
theorem C41_mf6_defined_elsewhere : ∃ x : Sect MF6Data, mf6.WellFormed x ∧ NotReadBack .mf6 x 125 := by
  refine ⟨⟨92235, ⟨2330250, -4⟩, 5, ⟨0, 1, [⟨onePoint (-5), .elsewhere (-5)⟩]⟩⟩, ?_, ?_⟩
  · refine ⟨by decide, by decide, by decide, by show (1 : Int) ≤ 5; decide, by decide, by decide, by decide, ?_, by decide +kernel⟩
    intro x hx
    simp only [List.mem_singleton] at hx
    subst hx
    refine ⟨?_, ?_, by decide +kernel⟩
    · decide +kernel
    · exact .inr (.inl rfl)
  · decide +kernel

/-- The constructor of MF13 (and of MF12) accepts a total together with a single partial; this cannot be read back. -/
theorem C41_mf13_total_and_one_partial :
    NotReadBack .mf13 ⟨92235, ⟨2330250, -4⟩, 5, (some (onePoint 0), [onePoint 0])⟩ 125 := by decide +kernel

end ENDFtk.Props

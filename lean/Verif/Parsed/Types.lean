import Verif.Parsed.Model
import Verif.Section.LocalW
import Verif.Section.MF32Spec
/-
  Which section type a file reads for an MT number.
-/
set_option linter.unusedVariables false
set_option linter.unusedSectionVars false
set_option linter.unusedSimpArgs false
namespace ENDFtk
variable [Disco] [CorrOps]

/-- MF and MT numbers of a section type; `none`: any MT. -/
def SectionType.nums : SectionType → Int × Option Int
  | .mf1mt451 => (1, some 451)
  | .mf1mt452 => (1, some 452)
  | .mf1mt455 => (1, some 455)
  | .mf1mt456 => (1, some 456)
  | .mf1mt458 => (1, some 458)
  | .mf1mt460 => (1, some 460)
  | .mf2mt151 => (2, some 151)
  | .mf2mt152 => (2, some 152)
  | .mf3 => (3, none)
  | .mf4 => (4, none)
  | .mf5 => (5, none)
  | .mf6 => (6, none)
  | .mf7mt2 => (7, some 2)
  | .mf7mt4 => (7, some 4)
  | .mf7mt451 => (7, some 451)
  | .mf8mt454 => (8, some 454)
  | .mf8mt457 => (8, some 457)
  | .mf8mt459 => (8, some 459)
  | .mf9 => (9, none)
  | .mf10 => (10, none)
  | .mf12 => (12, none)
  | .mf13 => (13, none)
  | .mf14 => (14, none)
  | .mf15 => (15, none)
  | .mf23 => (23, none)
  | .mf26 => (26, none)
  | .mf27 => (27, none)
  | .mf28 => (28, none)
  | .mf31 => (31, none)
  | .mf33 => (33, none)
  | .mf34 => (34, none)
  | .mf35 => (35, none)
  | .mf40 => (40, none)

theorem SectionType.nums_eq (T : SectionType) : T.nums = (T.defn.mf, T.defn.fixedMT) := by cases T <;> rfl

def SecType.nums : SecType → Int × Option Int
  | .std T => T.nums
  | .cov => (32, some 151)

theorem SecType.nums_eq (T : SecType) : T.nums = (T.defn.mf, T.defn.fixedMT) := by
  cases T with
  | std T => exact T.nums_eq
  | cov => rfl

/-- Only section 32/151 is in file 32. -/
theorem SecType.cov_iff (T : SecType) : T.defn.mf = 32 ↔ T = .cov := by
  rw [show T.defn.mf = T.nums.1 by rw [T.nums_eq]]
  constructor
  · intro h
    cases T with
    | std T => cases T <;> simp [SecType.nums, SectionType.nums] at h
    | cov => rfl
  · rintro rfl; rfl

omit [Disco] in
theorem sectionType?_nums (T : SecType) {mt : Int} (h : ∀ m, T.nums.2 = some m → mt = m) : sectionType? T.nums.1 mt = some T := by
  cases T with
  | std T => cases T <;> simp [SectionType.nums, SecType.nums] at h <;> subst_vars <;> rfl
  | cov => simp [SecType.nums] at h; subst h; rfl

omit [Disco] in
theorem ite_some {α : Type} {c : Prop} [Decidable c] {a b : Option α} {x : α} : ((if c then a else b) = some x) ↔
    (c ∧ a = some x) ∨ (¬c ∧ b = some x) := by
  by_cases hc : c <;> simp [hc]

omit [Disco] in
theorem nums_of_sectionType? {mf mt : Int} {T : SecType} (h : sectionType? mf mt = some T) :
    T.nums.1 = mf ∧ ∀ m, T.nums.2 = some m → mt = m := by
  unfold sectionType? at h
  repeat' (rw [ite_some] at h; rcases h with ⟨_, h⟩ | ⟨_, h⟩)
  all_goals first
    | (cases h; done)
    | (cases h; subst_vars; simp [SecType.nums, SectionType.nums])

/-- The file reads sections of type `T` exactly for its MF number and, if it has a fixed one, its MT number. -/
theorem sectionType?_iff {mf mt : Int} {T : SecType} :
    sectionType? mf mt = some T ↔ T.defn.mf = mf ∧ ∀ m, T.defn.fixedMT = some m → mt = m := by
  have e := T.nums_eq
  constructor
  · intro h
    have := nums_of_sectionType? h
    rwa [e] at this
  · rintro ⟨rfl, h⟩
    have := sectionType?_nums T (mt := mt) (by rw [e]; exact h)
    rwa [e] at this

theorem sectionType?_cov {mf mt : Int} {T : SecType} (h : sectionType? mf mt = some T) : mf = 32 ↔ T = .cov := by
  rw [← (sectionType?_iff.mp h).1]
  exact T.cov_iff

theorem SecType.readSect_local : ∀ (T : SecType) (d : Division) (mat : Int), LocalW (T.defn.readSect d mat)
  | .std T, d, mat => (inferInstance : LocalW (T.defn.readSect d mat))
  | .cov, d, mat => (inferInstance : LocalW (mf32mt151.readSect d mat))

theorem SecType.parse_local : ∀ (T : SecType), LocalW T.defn.parse
  | .std T => (inferInstance : LocalW T.defn.parse)
  | .cov => (inferInstance : LocalW mf32mt151.parse)

instance (T : SecType) (d : Division) (mat : Int) : LocalW (T.defn.readSect d mat) := T.readSect_local d mat
instance (T : SecType) : LocalW T.defn.parse := T.parse_local

/-! ### printing: what holds for all section types -/

namespace SecType

theorem mf_pos (T : SecType) : 1 ≤ T.defn.mf ∧ T.defn.mf < 100 := by
  cases T with
  | std T => exact T.lawUb.mf_pos
  | cov => show (1 : Int) ≤ 32 ∧ (32 : Int) < 100; omega

theorem mf_fits (T : SecType) : fits 2 T.defn.mf := by have := T.mf_pos; simp [fits]; omega

theorem mt_pos {T : SecType} {x : Sect T.Data} (hv : T.defn.WellFormed x) : 1 ≤ x.mt := by
  cases T with
  | std T => exact ENDFtk.mt_pos T.lawUb hv
  | cov => have := ResCov.mt_eq hv; omega

theorem readDivision_head {T : SecType} {x : Sect T.Data} (hv : T.defn.WellFormed x) (hr : Reps (T.defn.realsSect x))
    {mat : Int} (h1 : 1 ≤ mat) (h2 : fits 4 mat) (s : Text) (n : Int) :
    readDivision ⟨printCont (T.defn.headCont x) ⟨mat, T.defn.mf, x.mt⟩ ++ s, n⟩ = .ok (T.defn.headDiv x mat, ⟨s, n + 1⟩) := by
  cases T with
  | std T => exact ENDFtk.readDivision_head T.lawUb hv hr h1 h2 s n
  | cov => exact ResCov.readDivision_head hv hr h1 h2 s n

theorem print_eq {T : SecType} (x : Sect T.Data) {mat : Int} (h1 : 1 ≤ mat) (h2 : fits 4 mat) :
    T.defn.print x mat T.defn.mf = .ok (T.defn.lines x mat T.defn.mf ++ unlines [endRecord ⟨mat, T.defn.mf, 0⟩]) := by
  cases T with
  | std T => exact ENDFtk.print_eq T.lawUb x h1 h2
  | cov => exact ResCov.print_eq x h1 h2

theorem sect_round {T : SecType} {x : Sect T.Data} (hv : T.defn.ValidSect x) (hr : Reps (T.defn.realsSect x))
    {mat : Int} (h1 : 1 ≤ mat) (h2 : fits 4 mat) : ∃ txt, T.defn.print x mat T.defn.mf = .ok txt ∧
      ∃ k : Nat, (T.defn.mf ≠ 32 → k = T.defn.NC x + 1) ∧ ∀ s n, T.defn.parse ⟨txt ++ s, n⟩ = .ok (x, ⟨s, n + (k : Int)⟩) := by
  cases T with
  | std T =>
    obtain ⟨txt, a1, a2⟩ := ENDFtk.sect_round T.lawUb hv hr h1 h2
    refine ⟨txt, a1, T.defn.NC x + 1, fun _ => rfl, fun s n => ?_⟩
    have := a2 s n
    rw [show n + (T.defn.NC x : Int) + 1 = n + ((T.defn.NC x + 1 : Nat) : Int) by omega] at this
    exact this
  | cov =>
    obtain ⟨txt, a1, a2⟩ := ResCov.sect_round hv.1 hr h1 h2
    exact ⟨txt, a1, _, fun h => absurd rfl h, a2⟩

theorem sect_canon {T : SecType} {x : Sect T.Data} (hv : T.defn.WellFormed x) {mat : Int} (h1 : 1 ≤ mat) (h2 : fits 4 mat) :
    ∃ ls, T.defn.print x mat T.defn.mf = .ok (unlines (ls ++ [endRecord ⟨mat, T.defn.mf, 0⟩])) ∧ ls.length = T.defn.NC x ∧
      ∀ l ∈ ls, CanonicalLine ⟨mat, T.defn.mf, x.mt⟩ l := by
  cases T with
  | std T => exact ENDFtk.sect_canon T.lawUb hv h1 h2
  | cov => exact ResCov.sect_canon hv h1 h2

end SecType

end ENDFtk

import Mathlib.Algebra.Order.Floor.Ring
import Mathlib.Data.Rat.Floor
import Mathlib.Tactic.Linarith
import Mathlib.Tactic.Positivity
import Mathlib.Tactic.Ring
import Mathlib.Tactic.FieldSimp
/-
  Property C57: the arithmetic of compact correlation matrices, with rounding.  It justifies the law of `CorrOps` (D8 of DESIGN.md).
-/
namespace ENDFtk.Props

/-- A rounding to floating point numbers with a mantissa of 53 bits (IEEE 754 double): the result is a number `x (1 + d)` with `|d| <= 2^-53`.  (The numbers
    here are between 10^-8 and 10^8, or 0, so that there is no overflow or underflow.) -/
def IsRounding (rnd : ℚ → ℚ) : Prop := ∀ x, |rnd x - x| ≤ |x| / 2 ^ 53

/-- section/32/151/CompactCorrelationMatrix/src/readMatrixElements.hpp 30-39: `( value + 0.5 ) / factor`; `value + 0.5` is exact, and `factor` is `10^NDIGIT` -/
def correlationOf (rnd : ℚ → ℚ) (nd : ℕ) (v : ℤ) : ℚ :=
  if 0 < v then rnd (((v : ℚ) + 1 / 2) / 10 ^ nd) else rnd (((v : ℚ) - 1 / 2) / 10 ^ nd)

/-- section/32/151/CompactCorrelationMatrix/src/compact.hpp 35-50 -/
def convert (rnd : ℚ → ℚ) (nd : ℕ) (c : ℚ) : ℤ :=
  let value := rnd (c * 10 ^ nd)
  if |value| ≤ 1 then 0
  else if 0 < value then ⌊value⌋
  else -⌊|value|⌋

theorem pow53 : (2 : ℚ) ^ 53 = 9007199254740992 := by norm_num

/-- Two roundings. -/
theorem two_roundings {rnd : ℚ → ℚ} (h : IsRounding rnd) {x f : ℚ} (hf : 0 < f) : |rnd (rnd (x / f) * f) - x| ≤ 3 * |x| / 2 ^ 53 := by
  have h1 := h (x / f)
  have h2 := h (rnd (x / f) * f)
  rw [pow53] at *
  have e1 : |x / f| * f = |x| := by rw [abs_div, abs_of_pos hf, div_mul_cancel₀ _ (ne_of_gt hf)]
  have h3 : |rnd (x / f) * f - x| ≤ |x| / 9007199254740992 := by
    have : rnd (x / f) * f - x = (rnd (x / f) - x / f) * f := by
      rw [sub_mul, div_mul_cancel₀ _ (ne_of_gt hf)]
    rw [this, abs_mul, abs_of_pos hf]
    calc |rnd (x / f) - x / f| * f ≤ |x / f| / 9007199254740992 * f := mul_le_mul_of_nonneg_right h1 hf.le
      _ = |x / f| * f / 9007199254740992 := by ring
      _ = |x| / 9007199254740992 := by rw [e1]
  have h4 : |rnd (x / f) * f| ≤ |x| + |x| / 9007199254740992 := by
    have := abs_add_le (rnd (x / f) * f - x) x
    rw [sub_add_cancel] at this
    linarith
  have h5 := abs_sub_le (rnd (rnd (x / f) * f)) (rnd (x / f) * f) x
  have h6 := abs_nonneg x
  linarith

/-- An integer other than 0 with at most seven digits is converted to a correlation and back without change, for any rounding. -/
theorem C57_exact {rnd : ℚ → ℚ} (h : IsRounding rnd) (nd : ℕ) {v : ℤ} (hv : v ≠ 0) (hb : |v| < 10000000) :
    convert rnd nd (correlationOf rnd nd v) = v := by
  have hf : (0 : ℚ) < 10 ^ nd := by positivity
  have hbq : (-10000000 : ℚ) < v ∧ (v : ℚ) < 10000000 := by
    obtain ⟨h1, h2⟩ := abs_lt.mp hb
    exact ⟨by exact_mod_cast h1, by exact_mod_cast h2⟩
  unfold convert correlationOf
  rcases lt_or_gt_of_ne hv with hneg | hpos
  · have hq : (v : ℚ) ≤ -1 := by exact_mod_cast (by omega : v ≤ -1)
    rw [if_neg (not_lt.mpr (le_of_lt hneg))]
    have h1 := two_roundings h (x := (v : ℚ) - 1 / 2) hf
    rw [pow53, abs_of_neg (a := (v : ℚ) - 1 / 2) (by linarith)] at h1
    obtain ⟨l1, l2⟩ := abs_le.mp h1
    generalize rnd (rnd (((v : ℚ) - 1 / 2) / 10 ^ nd) * 10 ^ nd) = y at l1 l2
    have hy : y < -1 := by linarith
    rw [if_neg (by rw [abs_of_neg (by linarith)]; linarith), if_neg (by linarith), abs_of_neg (by linarith)]
    have : ⌊-y⌋ = -v := by
      rw [Int.floor_eq_iff]
      push_cast
      constructor <;> linarith
    omega
  · have hq : (1 : ℚ) ≤ v := by exact_mod_cast (by omega : 1 ≤ v)
    rw [if_pos hpos]
    have h1 := two_roundings h (x := (v : ℚ) + 1 / 2) hf
    rw [pow53, abs_of_pos (a := (v : ℚ) + 1 / 2) (by linarith)] at h1
    obtain ⟨l1, l2⟩ := abs_le.mp h1
    generalize rnd (rnd (((v : ℚ) + 1 / 2) / 10 ^ nd) * 10 ^ nd) = y at l1 l2
    have hy : 1 < y := by linarith
    rw [if_neg (by rw [abs_of_pos (by linarith)]; linarith), if_pos (by linarith), Int.floor_eq_iff]
    constructor <;> linarith

/-- What a correlation becomes when it is printed and read again: it disappears only if it is at most one unit of the last digit (up to rounding), and
    otherwise it changes by at most half a unit of the last digit (up to rounding). -/
theorem C57_precision {rnd : ℚ → ℚ} (h : IsRounding rnd) {nd : ℕ} (hn : nd ≤ 6) {c : ℚ} (hc : |c| ≤ 1) :
    (convert rnd nd c = 0 → |c| * 10 ^ nd ≤ 1 + 1 / 2 ^ 32) ∧
    (convert rnd nd c ≠ 0 → |correlationOf rnd nd (convert rnd nd c) - c| * 10 ^ nd ≤ 1 / 2 + 1 / 2 ^ 31) := by
  have hf : (0 : ℚ) < 10 ^ nd := by positivity
  have hf6 : (10 : ℚ) ^ nd ≤ 1000000 := by
    calc (10 : ℚ) ^ nd ≤ 10 ^ 6 := pow_le_pow_right₀ (by norm_num) hn
      _ = 1000000 := by norm_num
  have e32 : (2 : ℚ) ^ 32 = 4294967296 := by norm_num
  have e31 : (2 : ℚ) ^ 31 = 2147483648 := by norm_num
  rw [e32, e31]
  have h1 := h (c * 10 ^ nd)
  have hcf : |c * 10 ^ nd| = |c| * 10 ^ nd := by rw [abs_mul, abs_of_pos hf]
  have hcb : |c| * 10 ^ nd ≤ 1000000 := by
    calc |c| * 10 ^ nd ≤ 1 * 10 ^ nd := mul_le_mul_of_nonneg_right hc hf.le
      _ ≤ 1000000 := by linarith
  have hc0 : 0 ≤ |c| * 10 ^ nd := by positivity
  obtain ⟨c1, c2⟩ := abs_le.mp (le_of_eq hcf)
  rw [hcf, pow53] at h1
  unfold convert
  generalize hy : rnd (c * 10 ^ nd) = y at h1
  simp only
  obtain ⟨l1, l2⟩ := abs_le.mp h1
  by_cases hsmall : |y| ≤ 1
  · rw [if_pos hsmall]
    refine ⟨fun _ => ?_, fun hne => absurd rfl hne⟩
    have := abs_sub_abs_le_abs_sub (c * 10 ^ nd) y
    rw [hcf, abs_sub_comm] at this
    linarith
  · rw [if_neg hsmall]
    push Not at hsmall
    rcases lt_trichotomy y 0 with hneg | hz | hpos
    · rw [if_neg (by linarith), abs_of_neg hneg]
      rw [abs_of_neg hneg] at hsmall
      have f1 := Int.floor_le (-y)
      have f2 := Int.lt_floor_add_one (-y)
      have hfl : 1 ≤ ⌊-y⌋ := by rw [Int.le_floor]; push_cast; linarith
      generalize ⌊-y⌋ = k at f1 f2 hfl
      refine ⟨fun h0 => by omega, fun _ => ?_⟩
      unfold correlationOf
      rw [if_neg (by omega)]
      have hk : (1 : ℚ) ≤ k := by exact_mod_cast hfl
      have h2 := h ((((-k : ℤ) : ℚ) - 1 / 2) / 10 ^ nd)
      push_cast at h2 ⊢
      rw [pow53] at h2
      have h3 : |rnd ((-(k : ℚ) - 1 / 2) / 10 ^ nd) - (-(k : ℚ) - 1 / 2) / 10 ^ nd| * 10 ^ nd ≤ (k + 1 / 2) / 9007199254740992 := by
        calc _ ≤ |(-(k : ℚ) - 1 / 2) / 10 ^ nd| / 9007199254740992 * 10 ^ nd := mul_le_mul_of_nonneg_right h2 hf.le
          _ = |(-(k : ℚ) - 1 / 2)| / 10 ^ nd * 10 ^ nd / 9007199254740992 := by rw [abs_div, abs_of_pos hf]; ring
          _ = (k + 1 / 2) / 9007199254740992 := by rw [div_mul_cancel₀ _ (ne_of_gt hf), abs_of_neg (by linarith)]; ring
      have h4 := abs_sub_le (rnd ((-(k : ℚ) - 1 / 2) / 10 ^ nd)) ((-(k : ℚ) - 1 / 2) / 10 ^ nd) c
      have h5 : |(-(k : ℚ) - 1 / 2) / 10 ^ nd - c| * 10 ^ nd = |(-(k : ℚ) - 1 / 2) - c * 10 ^ nd| := by
        conv_lhs => rw [← abs_of_pos hf]
        rw [← abs_mul, sub_mul]
        rw [abs_of_pos hf, div_mul_cancel₀ _ (ne_of_gt hf)]
      have h6 : |(-(k : ℚ) - 1 / 2) - c * 10 ^ nd| ≤ 1 / 2 + 1000000 / 9007199254740992 := by
        rw [abs_le]; constructor <;> linarith
      have h7 := mul_le_mul_of_nonneg_right h4 hf.le
      rw [add_mul] at h7
      linarith
    · rw [hz] at hsmall; norm_num at hsmall
    · rw [if_pos hpos]
      rw [abs_of_pos hpos] at hsmall
      have f1 := Int.floor_le y
      have f2 := Int.lt_floor_add_one y
      have hfl : 1 ≤ ⌊y⌋ := by rw [Int.le_floor]; push_cast; linarith
      generalize ⌊y⌋ = k at f1 f2 hfl
      refine ⟨fun h0 => by omega, fun _ => ?_⟩
      unfold correlationOf
      rw [if_pos (by omega)]
      have hk : (1 : ℚ) ≤ k := by exact_mod_cast hfl
      have h2 := h (((k : ℚ) + 1 / 2) / 10 ^ nd)
      rw [pow53] at h2
      have h3 : |rnd (((k : ℚ) + 1 / 2) / 10 ^ nd) - ((k : ℚ) + 1 / 2) / 10 ^ nd| * 10 ^ nd ≤ (k + 1 / 2) / 9007199254740992 := by
        calc _ ≤ |((k : ℚ) + 1 / 2) / 10 ^ nd| / 9007199254740992 * 10 ^ nd := mul_le_mul_of_nonneg_right h2 hf.le
          _ = |((k : ℚ) + 1 / 2)| / 10 ^ nd * 10 ^ nd / 9007199254740992 := by rw [abs_div, abs_of_pos hf]; ring
          _ = (k + 1 / 2) / 9007199254740992 := by rw [div_mul_cancel₀ _ (ne_of_gt hf), abs_of_pos (by linarith)]
      have h4 := abs_sub_le (rnd (((k : ℚ) + 1 / 2) / 10 ^ nd)) (((k : ℚ) + 1 / 2) / 10 ^ nd) c
      have h5 : |((k : ℚ) + 1 / 2) / 10 ^ nd - c| * 10 ^ nd = |((k : ℚ) + 1 / 2) - c * 10 ^ nd| := by
        conv_lhs => rw [← abs_of_pos hf]
        rw [← abs_mul, sub_mul]
        rw [abs_of_pos hf, div_mul_cancel₀ _ (ne_of_gt hf)]
      have h6 : |((k : ℚ) + 1 / 2) - c * 10 ^ nd| ≤ 1 / 2 + 1000000 / 9007199254740992 := by
        rw [abs_le]; constructor <;> linarith
      have h7 := mul_le_mul_of_nonneg_right h4 hf.le
      rw [add_mul] at h7
      linarith

/-- The exact arithmetic is a rounding, and so is one that changes every number. -/
theorem C57_examples : IsRounding (fun x => x) ∧ IsRounding (fun x => x * (1 - 1 / 2 ^ 54)) ∧ convert (fun x => x) 2 (37 / 1000) = 3 ∧
    convert (fun x => x) 2 (-37 / 1000) = -3 ∧ convert (fun x => x) 2 (1 / 100) = 0 := by
  refine ⟨fun x => by simp; positivity, fun x => ?_, ?_, ?_, ?_⟩
  · have : x * (1 - 1 / 2 ^ 54) - x = -(x / 2 ^ 54) := by ring
    rw [this, abs_neg, abs_div, abs_of_pos (by positivity : (0 : ℚ) < 2 ^ 54)]
    have := abs_nonneg x
    have e1 : (2 : ℚ) ^ 54 = 2 * 2 ^ 53 := by norm_num
    rw [e1, pow53]
    linarith
  · unfold convert; norm_num
  · unfold convert; norm_num
  · unfold convert; norm_num

end ENDFtk.Props

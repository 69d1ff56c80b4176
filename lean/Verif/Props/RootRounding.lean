import Mathlib.Analysis.Real.Sqrt
import Mathlib.Algebra.Order.Floor.Ring
import Mathlib.Tactic.Linarith
import Mathlib.Tactic.Positivity
import Mathlib.Tactic.Ring
import Mathlib.Tactic.NormNum
import Verif.Props.CovGetters3
/-
  Part of C60: the order of a covariance matrix is computed with doubles, `( -1 + std::sqrt( 1 + 8 * n ) ) / 2`, and truncated.  The model uses the integer
  square root; here is proved that the result is the same for every 32 bit number.
-/
namespace ENDFtk.Props
open ENDFtk

/-- What is used of the rounding of doubles (IEEE 754, 53 bits, to nearest): it is monotone, keeps the numbers that need no rounding (natural numbers up to
    2^53) and changes a number by at most one part in 2^53.  (The numbers here are 0 or between 2^-53 and 2^17: no overflow or underflow.) -/
structure IsDouble (rnd : ℝ → ℝ) : Prop where
  mono : ∀ x y, x ≤ y → rnd x ≤ rnd y
  exact : ∀ n : ℕ, n ≤ 2 ^ 53 → rnd n = n
  close : ∀ x, |rnd x - x| ≤ |x| / 2 ^ 53

/-- The computation of the code, as unsigned int. -/
noncomputable def codeOrder (rnd : ℝ → ℝ) (n : ℕ) : ℕ := ⌊rnd (rnd (-1 + rnd (Real.sqrt (((1 + 8 * n) % 2 ^ 32 : ℕ) : ℝ))) / 2)⌋₊

theorem IsDouble.le {rnd : ℝ → ℝ} (h : IsDouble rnd) {x : ℝ} (hx : 0 ≤ x) : rnd x ≤ x * (1 + 1 / 2 ^ 53) := by
  have := h.close x
  rw [abs_of_nonneg hx] at this
  have := (abs_le.mp this).2
  linarith

theorem C60_order_rounded [Disco] {rnd : ℝ → ℝ} (h : IsDouble rnd) (n : ℕ) : codeOrder rnd n = TriangularMatrix.order n := by
  unfold codeOrder TriangularMatrix.order
  have hm : (1 + 8 * n) % 2 ^ 32 < 2 ^ 32 := Nat.mod_lt _ (by decide)
  have hm1 : 1 ≤ (1 + 8 * n) % 2 ^ 32 := by omega
  generalize (1 + 8 * n) % 2 ^ 32 = m at hm hm1
  obtain ⟨h1, h2⟩ := isqrt_spec m
  generalize isqrt m = r at h1 h2
  have hr1 : 1 ≤ r := by
    rcases Nat.eq_zero_or_pos r with h0 | h0
    · subst h0; omega
    · exact h0
  have hr2 : r < 2 ^ 16 := by
    by_contra hc
    have := Nat.mul_le_mul (Nat.le_of_not_lt hc) (Nat.le_of_not_lt hc)
    omega
  -- the square root
  have s1 : (r : ℝ) ≤ Real.sqrt m := Real.le_sqrt_of_sq_le (by rw [sq]; exact_mod_cast h1)
  have hR : (r : ℝ) + 1 ≤ 2 ^ 16 := by exact_mod_cast hr2
  have hR1 : (1 : ℝ) ≤ r := by exact_mod_cast hr1
  have hpos : (0 : ℝ) < 2 * ((r : ℝ) + 1) := by linarith
  have s2 : Real.sqrt m ≤ (r : ℝ) + 1 - 1 / 2 ^ 17 := by
    refine Real.sqrt_le_iff.mpr ⟨by linarith, ?_⟩
    have e : (m : ℝ) + 1 ≤ ((r : ℝ) + 1) * ((r : ℝ) + 1) := by exact_mod_cast h2
    have : ((r : ℝ) + 1 - 1 / 2 ^ 17) ^ 2 = ((r : ℝ) + 1) * ((r : ℝ) + 1) - ((r : ℝ) + 1) / 2 ^ 16 + 1 / 2 ^ 34 := by ring
    rw [this]
    have : ((r : ℝ) + 1) / 2 ^ 16 ≤ 1 := by rw [div_le_one (by positivity)]; exact hR
    have : (0 : ℝ) < 1 / 2 ^ 34 := by positivity
    linarith
  have x1 : (r : ℝ) ≤ rnd (Real.sqrt m) := by
    have := h.mono _ _ s1
    rwa [h.exact r (by omega)] at this
  have x2 : rnd (Real.sqrt m) ≤ (r : ℝ) + 1 - 1 / 2 ^ 18 := by
    have := h.le (Real.sqrt_nonneg (m : ℝ))
    have e2 : Real.sqrt m * (1 + 1 / 2 ^ 53) ≤ ((r : ℝ) + 1 - 1 / 2 ^ 17) * (1 + 1 / 2 ^ 53) := mul_le_mul_of_nonneg_right s2 (by positivity)
    have e3 : ((r : ℝ) + 1 - 1 / 2 ^ 17) * (1 + 1 / 2 ^ 53) ≤ (r : ℝ) + 1 - 1 / 2 ^ 18 := by linarith
    linarith
  generalize rnd (Real.sqrt m) = x at x1 x2
  -- minus one
  have y1 : ((r : ℝ) - 1) ≤ rnd (-1 + x) := by
    have e : ((r - 1 : ℕ) : ℝ) = (r : ℝ) - 1 := by push_cast [hr1]; ring
    have := h.mono ((r - 1 : ℕ) : ℝ) (-1 + x) (by rw [e]; linarith)
    rwa [h.exact (r - 1) (by omega), e] at this
  have y2 : rnd (-1 + x) ≤ (r : ℝ) - 1 / 2 ^ 19 := by
    have := h.le (x := -1 + x) (by linarith)
    have e2 : (-1 + x) * (1 + 1 / 2 ^ 53) ≤ ((r : ℝ) - 1 / 2 ^ 18) * (1 + 1 / 2 ^ 53) := mul_le_mul_of_nonneg_right (by linarith) (by positivity)
    have e3 : ((r : ℝ) - 1 / 2 ^ 18) * (1 + 1 / 2 ^ 53) ≤ (r : ℝ) - 1 / 2 ^ 19 := by linarith
    linarith
  generalize rnd (-1 + x) = y at y1 y2
  -- half
  obtain ⟨q, hq⟩ : ∃ q, q = (r - 1) / 2 := ⟨_, rfl⟩
  have q1 : 2 * q + 1 ≤ r := by omega
  have q2 : r ≤ 2 * q + 2 := by omega
  have q1' : 2 * (q : ℝ) + 1 ≤ r := by exact_mod_cast q1
  have q2' : (r : ℝ) ≤ 2 * q + 2 := by exact_mod_cast q2
  have z1 : (q : ℝ) ≤ rnd (y / 2) := by
    have := h.mono (q : ℝ) (y / 2) (by linarith)
    rwa [h.exact q (by omega)] at this
  have z2 : rnd (y / 2) < (q : ℝ) + 1 := by
    have := h.le (x := y / 2) (by linarith)
    have e2 : y / 2 * (1 + 1 / 2 ^ 53) ≤ (((r : ℝ) - 1 / 2 ^ 19) / 2) * (1 + 1 / 2 ^ 53) := mul_le_mul_of_nonneg_right (by linarith) (by positivity)
    have e3 : (((r : ℝ) - 1 / 2 ^ 19) / 2) * (1 + 1 / 2 ^ 53) < (q : ℝ) + 1 := by linarith
    linarith
  rw [← hq]
  exact (Nat.floor_eq_iff (by linarith [Nat.cast_nonneg (α := ℝ) q])).mpr ⟨z1, z2⟩

/-- The hypotheses can be met. -/
example : IsDouble id := ⟨fun _ _ h => h, fun _ _ => rfl, fun x => by simp; positivity⟩

/-- For the values of a triangular matrix of order `k` the code computes `k`. -/
theorem C60_order_of_triangle [Disco] {rnd : ℝ → ℝ} (h : IsDouble rnd) {n k : ℕ} (hn : 2 * n = k * (k + 1)) (hs : n < 2 ^ 29 - 1) : codeOrder rnd n = k :=
  (C60_order_rounded h n).trans (order_eq hn hs)

example [Disco] : codeOrder id 6 = 3 :=
  C60_order_of_triangle ⟨fun _ _ h => h, fun _ _ => rfl, fun x => by simp; positivity⟩ (by decide) (by decide)

end ENDFtk.Props

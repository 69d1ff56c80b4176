import Verif.Section.Corr
import Verif.DiscoInstance
/-
  A concrete instance of the arithmetic of compact correlation matrices: decimal numbers, without rounding.
-/
namespace ENDFtk

namespace Conc

def corrOf (nd : Nat) (v : Int) : DecReal := ⟨if 0 < v then 10 * v + 5 else 10 * v - 5, -(nd : Int) - 1⟩

/-- `|x| <= 1` -/
def absLeOne (x : DecReal) : Bool :=
  if 0 ≤ x.exp then decide ((x.mant * 10 ^ x.exp.toNat).natAbs ≤ 1) else decide (x.mant.natAbs ≤ 10 ^ (-x.exp).toNat)

def corrTo (nd : Nat) (c : DecReal) : Int :=
  let value : DecReal := ⟨c.mant, c.exp + nd⟩
  if absLeOne value then 0 else trunc value

theorem corrTo_corrOf (nd : Nat) (v : Int) (hv : v ≠ 0) : corrTo nd (corrOf nd v) = v := by
  have e : -(nd : Int) - 1 + nd = -1 := by omega
  have hne : ¬(0 ≤ (-1 : Int)) := by omega
  have ht : (-(-1 : Int)).toNat = 1 := by decide
  unfold corrTo corrOf
  simp only [e, absLeOne, trunc, hne, if_false, ht]
  by_cases h : 0 < v
  · rw [if_pos h, if_neg (by simp; omega)]
    rw [Int.tdiv_eq_ediv_of_nonneg (by omega)]
    simp; omega
  · rw [if_neg h, if_neg (by simp; omega)]
    rw [show 10 * v - 5 = -(10 * (-v) + 5) from by omega, Int.neg_tdiv, Int.tdiv_eq_ediv_of_nonneg (by omega)]
    simp; omega

end Conc

@[reducible] def concCorr : @CorrOps concDisco :=
  @CorrOps.mk concDisco Conc.corrOf Conc.corrTo (fun nd v _ _ hv _ => Conc.corrTo_corrOf nd v hv)

end ENDFtk

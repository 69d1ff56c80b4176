import Verif.CppInt
import Verif.Section.MF32
import Verif.Section.MF8
import Verif.Section.MF31
import Verif.Section.MF12
import Verif.Section.MF7
/-
  C72: the functions that verify the sizes of the LIST records within sections.
-/
set_option linter.unusedVariables false
set_option linter.unusedSectionVars false
set_option linter.unusedSimpArgs false
namespace ENDFtk.Props
open ENDFtk Cpp
variable [Disco]

/-- How reading ends if after the LIST record the function `v` is called: if `v` returns the component is the record, if `v` throws a `std::exception` is
    thrown; if the behaviour of `v` is undefined so is that of the constructor. -/
def readThen (v : LIST → Verdict) (t : Nums) (s : St) : Except Err (LIST × St) :=
  match readLIST t s with
  | .error e => .error e
  | .ok (l, s') =>
    match v l with
    | .returns => .ok (l, s')
    | .throws => .error .exc
    | .undefined => .error .ub

/-- The component consists of a LIST record, which is verified by `v`. -/
def VerifiedBy (c : Comp LIST) (v : LIST → Verdict) : Prop := ∀ (t : Nums) (s : St), c.read t s = readThen v t s

/-- The same for records of less than 2^31 numbers. -/
def VerifiedBySmall (c : Comp LIST) (v : LIST → Verdict) : Prop :=
  ∀ (t : Nums) (s : St), (∀ l s', readLIST t s = .ok (l, s') → l.data.length < 2147483648) → c.read t s = readThen v t s

/-- A `long` is passed as an `int`. -/
def arg (n : Int) : Val := ⟨some (toInt32 n)⟩

/-! ### the functions of the source -/
namespace Verify

/-- section/8/FissionYieldData/src/verifySize.hpp -/
def fissionYields (NPL NFP : Val) : Verdict := throwIf (ne NPL (NFP * 4)) .returns
/-- section/8/457/DecayModes/src/verifyNDK.hpp -/
def decayModes (NPL NDK : Val) : Verdict := branch (eq NDK 0) (throwIf (ne NPL 6) .returns) (throwIf (ne NPL (6 * NDK)) .returns)
/-- section/8/457/AverageDecayEnergies/src/verifyNC.hpp -/
def decayEnergies (NC : Val) : Verdict := throwIf (both (ne NC 3) (ne NC 17)) .returns
/-- section/8/457/DiscreteSpectrum/src/verifyNT.hpp -/
def discreteSpectrum (NT : Val) : Verdict := throwIf (both (ne NT 4) (both (ne NT 6) (ne NT 12))) .returns
/-- section/7/451/ElementInformation/src/verifySize.hpp -/
def element (NPL NI : Val) : Verdict := throwIf (ne NPL (NI * 6)) .returns
/-- section/28/SubshellData/src/verifySize.hpp -/
def subshell (NPL NTR : Val) : Verdict := throwIf (ne NPL ((NTR + 1) * 6)) .returns
/-- section/1/458/ThermalPointComponents/src/verify….hpp -/
def thermal (NPL : Val) : Verdict := throwIf (ne NPL 18) .returns
/-- section/2/151/BreitWignerReichMooreLValueBase/src/verifySize.hpp -/
def lvalue (NPL NRS : Val) : Verdict := throwIf (lt NPL 1) (throwIf (lt NRS 1) (throwIf (ne NPL (6 * NRS)) .returns))
/-- section/2/151/UnresolvedEnergyIndependent/LValue/src/verifySize.hpp -/
def unresolvedLvalue (NPL NJS : Val) : Verdict := throwIf (ne NPL (6 * NJS)) .returns
/-- section/2/151/RMatrixLimited/ParticlePairs/src/verifySize.hpp, ResonanceChannels/src/verifySize.hpp: `NPL / 12. != NPP` compares doubles, the
    quotient being equal to an `int` if and only if `k` times that `int` (an exact product) is NPL -/
def pairs (k : Int) (NPL NPP : Val) : Verdict := throwIf (lt NPL 1) (throwIf (lt NPP 1)
  (throwIf (NPL.get.bind fun a => NPP.get.bind fun b => some (decide (a ≠ k * b))) .returns))
/-- section/2/151/RMatrixLimited/ResonanceParameters/src/verifySize.hpp -/
def parameters (NPL : Val) : Verdict := throwIf (lt NPL 1) (throwIf (ne (NPL % 6) 0) .returns)
/-- section/2/152/src/verifySize.hpp -/
def selfShielding (NREAC NSIGZ NUNR NW : Val) : Verdict := throwIf (ne NW ((NREAC * NSIGZ + 1) * NUNR + NSIGZ)) .returns
/-- The `switch` of section/6/DiscreteTwoBodyScattering/src/readSequence.hpp, with LegendreCoefficients/src/verifySize.hpp and
    TabulatedDistribution/src/verifySize.hpp -/
def twoBody (L1 : Int) (NW NL : Val) : Verdict :=
  if L1 = 0 then throwIf (ne NW NL) .returns
  else if L1 = 12 ∨ L1 = 14 then throwIf (ne NW (2 * NL)) .returns
  else .throws
/-- section/6/DiscreteTwoBodyScattering/TabulatedDistribution/src/verifyLANG.hpp, verifySize.hpp (file 26) -/
def tabulated (LANG NW NL : Val) : Verdict := throwIf (both (ne LANG 12) (ne LANG 14)) (throwIf (ne NW (2 * NL)) .returns)
/-- The `switch` of section/6/ChargedParticleElasticScattering/src/readSequence.hpp, with NuclearAmplitudeExpansion/src/verifySize.hpp,
    LegendreCoefficients/src/verifySize.hpp and NuclearPlusInterference/src/verifySize.hpp -/
def charged (L1 : Int) (NW NL : Val) : Verdict :=
  if L1 = 1 then throwIf (both (ne NW (3 * NL + 3)) (ne NW (4 * NL + 3))) .returns
  else if L1 = 2 then throwIf (ne NW (NL + 1)) .returns
  else if L1 = 12 ∨ L1 = 14 ∨ L1 = 15 then throwIf (ne NW (2 * NL)) .returns
  else .throws
/-- section/32/151/LimitedBreitWignerLValue/src/verifySize.hpp -/
def limitedLvalue (NPL NRS : Val) : Verdict := throwIf (lt NPL 1) (throwIf (lt NRS 1) (throwIf (ne NPL (18 * NRS)) .returns))
/-- section/32/151/ShortRangeBreitWignerReichMooreBlockBase/src/verifySize.hpp -/
def shortRange (NPL MPAR NRB : Val) : Verdict := throwIf (lt NPL 1) (throwIf (either (lt MPAR 1) (lt 5 MPAR)) (throwIf (lt NRB 1)
  (throwIf (ne NPL (6 * NRB + MPAR * NRB * (MPAR * NRB + 1) / 2)) .returns)))
/-- section/32/151/ShortRangeRMatrixLimitedBlock/CovarianceMatrix/src/verifySize.hpp -/
def triangle (NPL NPARB : Val) : Verdict := throwIf (lt NPL 1) (throwIf (lt NPARB 1) (throwIf (ne NPL (NPARB * (NPARB + 1) / 2)) .returns))
/-- section/32/151/CompactBreitWignerUncertainties/src/verifySize.hpp -/
def compact (NPL NRSA : Val) : Verdict := throwIf (lt NPL 1) (throwIf (lt NRSA 1) (throwIf (ne NPL (12 * NRSA)) .returns))
/-- section/32/151/CompactRMatrixLimitedUncertainties/ResonanceParameters/src/verifySize.hpp -/
def compactParameters (NPL : Val) : Verdict := throwIf (lt NPL 1) (throwIf (ne (NPL % 12) 0) .returns)

/-- section/CovariancePairs/src/verifyLB.hpp and verifySize.hpp -/
def covariancePairs (LB LT NT NP : Val) : Verdict :=
  branch (either (eq LB 0) (either (eq LB 1) (either (eq LB 2) (either (eq LB 8) (eq LB 9)))))
    (throwIf (ne LT 0) (throwIf (ne NT (2 * NP)) .returns))
    (branch (either (eq LB 3) (eq LB 4)) (throwIf (le LT 0) (throwIf (ne NT (2 * NP)) .returns)) .throws)
/-- section/SquareMatrix/src/verifySize.hpp -/
def squareSize (LS NE NT : Val) : Verdict :=
  let num_values := NT - NE
  branch (ne LS 0) (throwIf (ne num_values (NE * (NE - 1) / 2)) .returns) (throwIf (ne num_values ((NE - 1) * (NE - 1))) .returns)
/-- section/SquareMatrix/src/verifyLB.hpp and verifySize.hpp -/
def squareMatrix (LB LS NE NT : Val) : Verdict := throwIf (ne LB 5) (squareSize LS NE NT)
/-- section/35/SquareMatrix/src/verifyLB.hpp and section/SquareMatrix/src/verifySize.hpp -/
def squareMatrix35 (LB NE NT : Val) : Verdict := throwIf (ne LB 7) (squareSize 1 NE NT)
/-- section/RectangularMatrix/src/verifyLB.hpp and verifySize.hpp -/
def rectangular (LB NT NER : Val) : Verdict := throwIf (ne LB 6) (throwIf (ne ((NT - 1) % NER) 0) .returns)
/-- The `switch` of section/ExplicitCovariance.hpp -/
def explicit (L2 : Int) (l : LIST) : Verdict :=
  if L2 = 0 ∨ L2 = 1 ∨ L2 = 2 ∨ L2 = 3 ∨ L2 = 4 ∨ L2 = 8 ∨ L2 = 9 then covariancePairs (arg l.l2) (arg l.l1) (arg l.npl) (arg l.n2)
  else if L2 = 5 then squareMatrix (arg l.l2) (arg l.l1) (arg l.n2) (arg l.npl)
  else if L2 = 6 then rectangular (arg l.l2) (arg l.npl) (arg l.n2)
  else .throws
end Verify

/-! ### lemmas -/

theorem inRange_eq (n : Int) : inRange n = if Over n then none else some n := by
  by_cases h : Over n
  · rw [if_pos h, inRange, if_neg (by unfold Over at h; omega)]
  · rw [if_neg h, inRange, if_pos (by unfold Over at h; omega)]

theorem add_val (x y : Option Int) : (⟨x⟩ + ⟨y⟩ : Val) = ⟨x.bind fun x => y.bind fun y => if Over (x + y) then none else some (x + y)⟩ := by
  simp only [← inRange_eq]; rfl
theorem sub_val (x y : Option Int) : (⟨x⟩ - ⟨y⟩ : Val) = ⟨x.bind fun x => y.bind fun y => if Over (x - y) then none else some (x - y)⟩ := by
  simp only [← inRange_eq]; rfl
theorem mul_val (x y : Option Int) : (⟨x⟩ * ⟨y⟩ : Val) = ⟨x.bind fun x => y.bind fun y => if Over (x * y) then none else some (x * y)⟩ := by
  simp only [← inRange_eq]; rfl
theorem num_val (n : Nat) : (OfNat.ofNat n : Val) = ⟨some (OfNat.ofNat n : Int)⟩ := rfl

theorem verifiedBy_checked {P ov : LIST → Prop} [DecidablePred P] [DecidablePred ov] {v : LIST → Verdict}
    (h : ∀ l, v l = if P l then .returns else if ov l then .undefined else .throws) : VerifiedBy (listC.checked P ov) v := by
  intro t s
  simp only [Comp.checked, Parser.bind_run, readThen]
  rw [show listC.read t s = readLIST t s from rfl]
  cases readLIST t s with
  | error e => rfl
  | ok q =>
    simp only [h]
    by_cases hp : P q.1
    · simp only [if_pos hp]; rfl
    · simp only [if_neg hp]
      by_cases ho : ov q.1
      · simp only [if_pos ho]; rfl
      · simp only [if_neg ho]; rfl

theorem verifiedBySmall_checked {P ov : LIST → Prop} [DecidablePred P] [DecidablePred ov] {v : LIST → Verdict}
    (h : ∀ l : LIST, l.data.length < 2147483648 → v l = if P l then .returns else if ov l then .undefined else .throws) :
    VerifiedBySmall (listC.checked P ov) v := by
  intro t s hs
  simp only [Comp.checked, Parser.bind_run, readThen]
  rw [show listC.read t s = readLIST t s from rfl]
  cases hr : readLIST t s with
  | error e => rfl
  | ok q =>
    simp only [h q.1 (hs q.1 q.2 hr)]
    by_cases hp : P q.1
    · simp only [if_pos hp]; rfl
    · simp only [if_neg hp]
      by_cases ho : ov q.1
      · simp only [if_pos ho]; rfl
      · simp only [if_neg ho]; rfl

theorem verifiedBySmall_checkedE {f : LIST → Except Err Unit} {v : LIST → Verdict}
    (h : ∀ l : LIST, l.data.length < 2147483648 → f l = match v l with | .returns => .ok () | .throws => .error .exc | .undefined => .error .ub) :
    VerifiedBySmall (listC.checkedE f) v := by
  intro t s hs
  simp only [Comp.checkedE, Parser.bind_run, readThen]
  rw [show listC.read t s = readLIST t s from rfl]
  cases hr : readLIST t s with
  | error e => rfl
  | ok q =>
    simp only [liftE, h q.1 (hs q.1 q.2 hr)]
    cases v q.1 <;> rfl

theorem npl_small {l : LIST} (h : l.data.length < 2147483648) : toInt32 l.npl = l.data.length := toInt32_nat (by omega)

theorem throwIf_false (r : Verdict) : throwIf (some false) r = r := rfl
theorem throwIf_none (r : Verdict) : throwIf none r = .undefined := rfl
theorem throwIf_some (p : Prop) [Decidable p] (r : Verdict) : throwIf (some (decide p)) r = if p then .throws else r := by
  by_cases h : p <;> simp [throwIf, h]
theorem branch_some (p : Prop) [Decidable p] (r r' : Verdict) : branch (some (decide p)) r r' = if p then r else r' := by
  by_cases h : p <;> simp [branch, h]
theorem both_some (p q : Prop) [Decidable p] [Decidable q] : both (some (decide p)) (some (decide q)) = some (decide (p ∧ q)) := by
  by_cases h : p <;> simp [both, h]
theorem both_none (q : Cond) : both none q = none := rfl
theorem either_some (p q : Prop) [Decidable p] [Decidable q] : either (some (decide p)) (some (decide q)) = some (decide (p ∨ q)) := by
  by_cases h : p <;> simp [either, h]

theorem over_half {x : Int} (h : ¬Over x) : ¬Over (Int.tdiv x 2) := by
  unfold Over at *
  have h3 : (Int.tdiv x 2).natAbs = x.natAbs / 2 := Int.natAbs_tdiv x 2
  omega

theorem half_val (x : Option Int) (h : ∀ y, x = some y → ¬Over y) : (⟨x⟩ / 2 : Val) = ⟨x.bind fun x => some (Int.tdiv x 2)⟩ := by
  cases x with
  | none => rfl
  | some y =>
    show (⟨if (2 : Int) = 0 then none else inRange (Int.tdiv y 2)⟩ : Val) = _
    rw [if_neg (by decide), inRange_eq, if_neg (over_half (h y rfl))]; rfl

/-- An `int` modulo a positive number. -/
theorem mod_val (x : Int) (k : Nat) (hk : 1 ≤ k) (h : IsInt32 x) : (⟨some x⟩ % ⟨some (k : Int)⟩ : Val) = ⟨some (Int.tmod x k)⟩ := by
  show (⟨if (k : Int) = 0 then none else (inRange (Int.tdiv x k)).bind fun _ => some (Int.tmod x k)⟩ : Val) = _
  have hb : (Int.tdiv x k).natAbs ≤ x.natAbs := by rw [Int.natAbs_tdiv]; exact Nat.div_le_self _ _
  have : ¬Over (Int.tdiv x k) := by
    unfold Over
    unfold IsInt32 at h
    have : k = 1 ∨ 2 ≤ k := by omega
    rcases this with rfl | h2
    · rw [show ((1 : Nat) : Int) = 1 from rfl, Int.tdiv_one]; simp; omega
    · have : (Int.tdiv x k).natAbs ≤ x.natAbs / 2 := by
        rw [Int.natAbs_tdiv]; exact Nat.div_le_div_left h2 (by decide)
      omega
  rw [if_neg (by omega), inRange_eq, if_neg this]; rfl

macro "verdict" "[" ds:Lean.Parser.Tactic.simpLemma,* "]" : tactic => `(tactic|
  (simp only [$ds,*, eq, ne, lt, le, arg, add_val, sub_val, mul_val, num_val, Option.bind_some, Option.bind_none, if_true, if_false, if_pos, if_neg, not_false_eq_true,
    throwIf_none, throwIf_some, branch_some, both_some, either_some, and_true, true_and, and_false, false_and, or_true, true_or, or_false, false_or, not_true_eq_false, throwIf_false]))

macro "decided" : tactic => `(tactic|
  ((repeat' split) <;> first | rfl | (exfalso; (try simp only [Over, IsInt32] at *); omega)))

theorem C72_fission_yields : VerifiedBy yieldsC (fun l => Verify.fissionYields (arg l.npl) (arg l.n2)) := verifiedBy_checked fun l => by
  have := isInt32_toInt32 l.npl
  by_cases h : Over (toInt32 l.n2 * 4) <;> verdict [Verify.fissionYields, yieldsOk, yieldsOv, h] <;> decided

theorem C72_decay_modes : VerifiedBy decayModesC (fun l => Verify.decayModes (arg l.npl) (arg l.n2)) := verifiedBy_checked fun l => by
  have := isInt32_toInt32 l.npl
  by_cases h : Over (6 * toInt32 l.n2) <;> verdict [Verify.decayModes, decayModesOk, decayModesOv, h] <;> decided

/-- The average decay energies: NC is the `int` NPL / 2. -/
theorem C72_decay_energies : VerifiedBy decayEnergiesC (fun l => Verify.decayEnergies (arg ((l.data.length : Int) / 2))) := verifiedBy_checked fun l => by
  have e : l.npl = l.data.length := rfl
  verdict [Verify.decayEnergies, decayEnergiesOk, e] <;> decided

theorem C72_discrete_spectrum : VerifiedBy discreteC (fun l => Verify.discreteSpectrum (arg l.npl)) := verifiedBy_checked fun l => by
  verdict [Verify.discreteSpectrum, discreteOk] <;> decided

theorem C72_element : VerifiedBy elementC (fun l => Verify.element (arg l.npl) (arg l.n2)) := verifiedBy_checked fun l => by
  have := isInt32_toInt32 l.npl
  by_cases h : Over (toInt32 l.n2 * 6) <;> verdict [Verify.element, elementOk, elementOv, h] <;> decided

theorem C72_subshell : VerifiedBy subshellC (fun l => Verify.subshell (arg l.npl) (arg l.n2)) := verifiedBy_checked fun l => by
  have := isInt32_toInt32 l.npl
  have := isInt32_toInt32 l.n2
  by_cases h1 : Over (toInt32 l.n2 + 1) <;> by_cases h2 : Over ((toInt32 l.n2 + 1) * 6) <;>
    verdict [Verify.subshell, subshellOk, subshellOv, h1, h2] <;> decided

theorem C72_thermal : VerifiedBy thermalC (fun l => Verify.thermal (arg l.npl)) := verifiedBy_checked fun l => by
  verdict [Verify.thermal] <;> decided

theorem C72_lvalue : VerifiedBy lvalueC (fun l => Verify.lvalue (arg l.npl) (arg l.n2)) := verifiedBy_checked fun l => by
  have := isInt32_toInt32 l.npl
  by_cases h : Over (6 * toInt32 l.n2) <;> verdict [Verify.lvalue, lvalueOk, lvalueOv, h] <;> decided

theorem C72_unresolved_lvalue : VerifiedBy (listC.checked lvalueAOk lvalueAOv) (fun l => Verify.unresolvedLvalue (arg l.npl) (arg l.n2)) :=
  verifiedBy_checked fun l => by
    have := isInt32_toInt32 l.npl
    by_cases h : Over (6 * toInt32 l.n2) <;> verdict [Verify.unresolvedLvalue, lvalueAOk, lvalueAOv, h] <;> decided

theorem C72_particle_pairs : VerifiedBy particlePairsC (fun l => Verify.pairs 12 (arg l.npl) (arg l.l1)) := verifiedBy_checked fun l => by
  verdict [Verify.pairs, particlePairsOk] <;> decided

theorem C72_channels : VerifiedBy channelsC (fun l => Verify.pairs 6 (arg l.npl) (arg l.n2)) := verifiedBy_checked fun l => by
  verdict [Verify.pairs, channelsOk] <;> decided

theorem C72_limited_lvalue : VerifiedBy limitedLValueC (fun l => Verify.limitedLvalue (arg l.npl) (arg l.n2)) := verifiedBy_checked fun l => by
  have := isInt32_toInt32 l.npl
  by_cases h : Over (18 * toInt32 l.n2) <;> verdict [Verify.limitedLvalue, limitedLValueOk, limitedLValueOv, h] <;> decided

theorem C72_compact : VerifiedBy compactUncertaintiesC (fun l => Verify.compact (arg l.npl) (arg l.n2)) := verifiedBy_checked fun l => by
  have := isInt32_toInt32 l.npl
  by_cases h : Over (12 * toInt32 l.n2) <;> verdict [Verify.compact, compactOk, compactOv, h] <;> decided

theorem C72_two_body : VerifiedBy (listC.checked twoBodyOk twoBodyOv) (fun l => Verify.twoBody l.l1 (arg l.npl) (arg l.n2)) :=
  verifiedBy_checked fun l => by
    have := isInt32_toInt32 l.npl
    by_cases h : Over (2 * toInt32 l.n2) <;> verdict [Verify.twoBody, twoBodyOk, twoBodyOv, h] <;> decided

theorem C72_tabulated : VerifiedBy (listC.checked twoBody26Ok twoBody26Ov) (fun l => Verify.tabulated (arg l.l1) (arg l.npl) (arg l.n2)) :=
  verifiedBy_checked fun l => by
    have := isInt32_toInt32 l.npl
    by_cases h : Over (2 * toInt32 l.n2) <;> verdict [Verify.tabulated, twoBody26Ok, twoBody26Ov, h] <;> decided

/-- (For larger records `3 * NL` can overflow although `3 * NL + 3` is equal to NPL as an `int`.) -/
theorem C72_charged : VerifiedBySmall (listC.checked chargedOk chargedOv) (fun l => Verify.charged l.l1 (arg l.npl) (arg l.n2)) :=
  verifiedBySmall_checked fun l hs => by
    have := isInt32_toInt32 l.npl
    have := npl_small hs
    have := isInt32_toInt32 l.n2
    by_cases h1 : l.l1 = 1
    · by_cases h7 : toInt32 l.npl = 3 * toInt32 l.n2 + 3
      · have e7 : ∀ q, both (some (decide (toInt32 l.npl ≠ 3 * toInt32 l.n2 + 3))) q = some false := fun q => by simp [both, h7]
        have f7 := eq_true h7
        by_cases h3 : Over (3 * toInt32 l.n2) <;> by_cases h4 : Over (3 * toInt32 l.n2 + 3) <;>
          verdict [Verify.charged, chargedOk, chargedOv, h1, h3, h4, e7, f7, ne_eq] <;> (try simp only [both]) <;> decided
      · have e7 : ∀ q, both (some (decide (toInt32 l.npl ≠ 3 * toInt32 l.n2 + 3))) q = q := fun q => by simp [both, h7]
        by_cases h3 : Over (3 * toInt32 l.n2) <;> by_cases h4 : Over (3 * toInt32 l.n2 + 3) <;> by_cases h5 : Over (4 * toInt32 l.n2) <;>
          by_cases h6 : Over (4 * toInt32 l.n2 + 3) <;> verdict [Verify.charged, chargedOk, chargedOv, h1, h3, h4, h5, h6, e7, both_none] <;> decided
    · by_cases h2 : l.l1 = 2
      · by_cases h : Over (toInt32 l.n2 + 1) <;> verdict [Verify.charged, chargedOk, chargedOv, h2, h] <;> decided
      · by_cases h : Over (2 * toInt32 l.n2) <;> verdict [Verify.charged, chargedOk, chargedOv, h1, h2, h] <;> decided

theorem C72_parameters : VerifiedBy rmlParametersC (fun l => Verify.parameters (arg l.npl)) := verifiedBy_checked fun l => by
  have e : (⟨some (toInt32 l.npl)⟩ % 6 : Val) = ⟨some (Int.tmod (toInt32 l.npl) 6)⟩ := mod_val _ 6 (by decide) (isInt32_toInt32 _)
  simp only [arg, Verify.parameters, e]
  verdict [rmlParametersOk] <;> decided

theorem C72_compact_parameters : VerifiedBy (listC.checked compactRmlParametersOk) (fun l => Verify.compactParameters (arg l.npl)) := verifiedBy_checked fun l => by
  have e : (⟨some (toInt32 l.npl)⟩ % 12 : Val) = ⟨some (Int.tmod (toInt32 l.npl) 12)⟩ := mod_val _ 12 (by decide) (isInt32_toInt32 _)
  simp only [arg, Verify.compactParameters, e]
  verdict [compactRmlParametersOk] <;> decided

theorem C72_self_shielding : VerifiedBy dilutionC (fun l => Verify.selfShielding (arg l.l1) (arg l.l2) (arg l.n2) (arg l.npl)) := verifiedBy_checked fun l => by
  by_cases h1 : Over (toInt32 l.l1 * toInt32 l.l2)
  · verdict [Verify.selfShielding, dilutionSizeOk, dilutionOv, h1] <;> decided
  by_cases h2 : Over (toInt32 l.l1 * toInt32 l.l2 + 1)
  · verdict [Verify.selfShielding, dilutionSizeOk, dilutionOv, h1, h2] <;> decided
  by_cases h3 : Over ((toInt32 l.l1 * toInt32 l.l2 + 1) * toInt32 l.n2)
  · verdict [Verify.selfShielding, dilutionSizeOk, dilutionOv, h1, h2, h3] <;> decided
  by_cases h4 : Over ((toInt32 l.l1 * toInt32 l.l2 + 1) * toInt32 l.n2 + toInt32 l.l2)
  · verdict [Verify.selfShielding, dilutionSizeOk, dilutionOv, h1, h2, h3, h4] <;> decided
  · verdict [Verify.selfShielding, dilutionSizeOk, dilutionOv, h1, h2, h3, h4] <;> decided

theorem C72_triangle : VerifiedBy triangleC (fun l => Verify.triangle (arg l.npl) (arg l.n2)) := verifiedBy_checked fun l => by
  by_cases h1 : Over (toInt32 l.n2 + 1)
  · have h2 : 1 ≤ toInt32 l.n2 → Over (toInt32 l.n2 * (toInt32 l.n2 + 1)) := by
      intro h
      have := Int.mul_le_mul_of_nonneg_right h (show 0 ≤ toInt32 l.n2 + 1 by omega)
      unfold Over at *; omega
    rw [Verify.triangle]
    simp only [arg, add_val, mul_val, num_val, Option.bind_some, h1, if_true, Option.bind_none]
    rw [show (⟨none⟩ / ⟨some (OfNat.ofNat 2)⟩ : Val) = ⟨none⟩ from rfl]
    by_cases ha : 1 ≤ toInt32 l.npl <;> by_cases hb : 1 ≤ toInt32 l.n2
    · have := h2 hb
      verdict [triangleOk, triangleOv, h1, this, ha, hb] <;> decided
    all_goals verdict [triangleOk, triangleOv, h1, ha, hb] <;> decided
  by_cases h2 : Over (toInt32 l.n2 * (toInt32 l.n2 + 1))
  · rw [Verify.triangle]
    simp only [arg, add_val, mul_val, num_val, Option.bind_some, h1, h2, if_true, if_false, Option.bind_none]
    rw [show (⟨none⟩ / ⟨some (OfNat.ofNat 2)⟩ : Val) = ⟨none⟩ from rfl]
    verdict [triangleOk, triangleOv, h1, h2] <;> decided
  · rw [Verify.triangle]
    have e : (⟨some (toInt32 l.n2 * (toInt32 l.n2 + 1))⟩ / ⟨some (OfNat.ofNat 2)⟩ : Val) = ⟨some (Int.tdiv (toInt32 l.n2 * (toInt32 l.n2 + 1)) 2)⟩ :=
      half_val _ (by rintro y ⟨⟩; exact h2)
    simp only [arg, add_val, mul_val, num_val, Option.bind_some, h1, h2, if_true, if_false, Option.bind_none, e]
    verdict [triangleOk, triangleOv, h1, h2] <;> decided

theorem C72_short_range : VerifiedBySmall shortRangeC (fun l => Verify.shortRange (arg l.npl) (arg l.l1) (arg l.n2)) :=
  verifiedBySmall_checked fun l hs => by
    have := isInt32_toInt32 l.npl
    have hn := npl_small hs
    have hq := mulSucc_nonneg (toInt32 l.l1 * toInt32 l.n2)
    by_cases ha : toInt32 l.npl < 1
    · verdict [Verify.shortRange, shortRangeOk, shortRangeOv, eq_true ha, eq_false (show ¬1 ≤ toInt32 l.npl by omega)]
    by_cases hb : toInt32 l.l1 < 1 ∨ 5 < toInt32 l.l1
    · have : ¬(1 ≤ toInt32 l.l1 ∧ toInt32 l.l1 ≤ 5) := by omega
      have e1 : ∀ p q : Prop, (p ∧ 1 ≤ toInt32 l.l1 ∧ toInt32 l.l1 ≤ 5 ∧ q) = False := fun p q => eq_false fun h => this ⟨h.2.1, h.2.2.1⟩
      verdict [Verify.shortRange, shortRangeOk, shortRangeOv, eq_false ha, eq_true hb, e1]
    by_cases hc : toInt32 l.n2 < 1
    · verdict [Verify.shortRange, shortRangeOk, shortRangeOv, eq_false ha, eq_false hb, eq_true hc, eq_false (show ¬1 ≤ toInt32 l.n2 by omega)]
    have e1 : (1 ≤ toInt32 l.npl) = True := eq_true (by omega)
    have e2 : (1 ≤ toInt32 l.l1) = True := eq_true (by omega)
    have e3 : (toInt32 l.l1 ≤ 5) = True := eq_true (by omega)
    have e4 : (1 ≤ toInt32 l.n2) = True := eq_true (by omega)
    rw [Verify.shortRange]
    simp only [arg, add_val, mul_val, num_val, Option.bind_some]
    by_cases h2 : Over (toInt32 l.l1 * toInt32 l.n2)
    · by_cases h1 : Over (6 * toInt32 l.n2)
      all_goals
        simp only [h1, h2, if_true, if_false, Option.bind_none, Option.bind_some]
        rw [show (⟨none⟩ / ⟨some (OfNat.ofNat 2)⟩ : Val) = ⟨none⟩ from rfl]
        have : Over (toInt32 l.l1 * toInt32 l.n2 * (toInt32 l.l1 * toInt32 l.n2 + 1)) := by
          have hp := Int.mul_le_mul (a := 1) (b := 1) (c := toInt32 l.l1) (d := toInt32 l.n2) (by omega) (by omega) (by omega) (by omega)
          have := Int.mul_le_mul_of_nonneg_right (show 1 ≤ toInt32 l.l1 * toInt32 l.n2 by omega) (show 0 ≤ toInt32 l.l1 * toInt32 l.n2 + 1 by omega)
          unfold Over at *; omega
        verdict [shortRangeOk, shortRangeOv, h1, h2, this, e1, e2, e3, e4, eq_false ha, eq_false hb, eq_false hc]
    by_cases h3 : Over (toInt32 l.l1 * toInt32 l.n2 + 1)
    · by_cases h1 : Over (6 * toInt32 l.n2)
      all_goals
        simp only [h1, h2, h3, if_true, if_false, Option.bind_none, Option.bind_some]
        rw [show (⟨none⟩ / ⟨some (OfNat.ofNat 2)⟩ : Val) = ⟨none⟩ from rfl]
        have : Over (toInt32 l.l1 * toInt32 l.n2 * (toInt32 l.l1 * toInt32 l.n2 + 1)) := by
          have hp := Int.mul_le_mul (a := 1) (b := 1) (c := toInt32 l.l1) (d := toInt32 l.n2) (by omega) (by omega) (by omega) (by omega)
          have := Int.mul_le_mul_of_nonneg_right (show 1 ≤ toInt32 l.l1 * toInt32 l.n2 by omega) (show 0 ≤ toInt32 l.l1 * toInt32 l.n2 + 1 by omega)
          unfold Over at *; omega
        verdict [shortRangeOk, shortRangeOv, h1, h2, h3, this, e1, e2, e3, e4, eq_false ha, eq_false hb, eq_false hc]
    by_cases h4 : Over (toInt32 l.l1 * toInt32 l.n2 * (toInt32 l.l1 * toInt32 l.n2 + 1))
    · by_cases h1 : Over (6 * toInt32 l.n2)
      all_goals
        simp only [h1, h2, h3, h4, if_true, if_false, Option.bind_none, Option.bind_some]
        rw [show (⟨none⟩ / ⟨some (OfNat.ofNat 2)⟩ : Val) = ⟨none⟩ from rfl]
        verdict [shortRangeOk, shortRangeOv, h1, h2, h3, h4, e1, e2, e3, e4, eq_false ha, eq_false hb, eq_false hc]
    have e : (⟨some (toInt32 l.l1 * toInt32 l.n2 * (toInt32 l.l1 * toInt32 l.n2 + 1))⟩ / ⟨some (OfNat.ofNat 2)⟩ : Val) =
        ⟨some (Int.tdiv (toInt32 l.l1 * toInt32 l.n2 * (toInt32 l.l1 * toInt32 l.n2 + 1)) 2)⟩ := half_val _ (by rintro y ⟨⟩; exact h4)
    have ht : 0 ≤ Int.tdiv (toInt32 l.l1 * toInt32 l.n2 * (toInt32 l.l1 * toInt32 l.n2 + 1)) 2 := Int.tdiv_nonneg hq (by decide)
    simp only [h2, h3, h4, if_false, Option.bind_some, e, add_val]
    by_cases h1 : Over (6 * toInt32 l.n2) <;>
      by_cases h5 : Over (6 * toInt32 l.n2 + Int.tdiv (toInt32 l.l1 * toInt32 l.n2 * (toInt32 l.l1 * toInt32 l.n2 + 1)) 2) <;>
      verdict [shortRangeOk, shortRangeOv, h1, h2, h3, h4, h5, e1, e2, e3, e4, eq_false ha, eq_false hb, eq_false hc] <;> decided

/-- How the verification ends, as the result of a parser. -/
def result : Verdict → Except Err Unit
  | .returns => .ok ()
  | .throws => .error .exc
  | .undefined => .error .ub

theorem verifiedBySmall_result {f : LIST → Except Err Unit} {v : LIST → Verdict} (h : ∀ l : LIST, l.data.length < 2147483648 → f l = result (v l)) :
    VerifiedBySmall (listC.checkedE f) v :=
  verifiedBySmall_checkedE fun l hl => by rw [h l hl]; cases v l <;> rfl

theorem result_ite (p : Prop) [Decidable p] (a b : Verdict) : result (if p then a else b) = if p then result a else result b := by
  split <;> rfl

/-- `2 * NP` of CovariancePairs -/
theorem pairs_size (l : LIST) : result (throwIf (ne (arg l.npl) (2 * arg l.n2)) .returns) =
    if Over (2 * toInt32 l.n2) then .error .ub else if toInt32 l.npl ≠ 2 * toInt32 l.n2 then .error .exc else .ok () := by
  by_cases h : Over (2 * toInt32 l.n2)
  · verdict [h]; rfl
  · verdict [h]; rw [result_ite]; rfl

theorem covariancePairs_result (l : LIST) :
    covariancePairsCheck l = result (Verify.covariancePairs (arg l.l2) (arg l.l1) (arg l.npl) (arg l.n2)) := by
  have e := pairs_size l
  unfold Verify.covariancePairs
  generalize throwIf (ne (arg l.npl) (2 * arg l.n2)) .returns = w at e ⊢
  unfold covariancePairsCheck
  rw [← e]
  verdict [if_true]
  simp only [result_ite]
  rfl

theorem squareSize_result (ls ne' nt : Int) (h : IsInt32 ls) :
    squareSizeCheck ls ne' nt = result (Verify.squareSize ⟨some ls⟩ ⟨some ne'⟩ ⟨some nt⟩) := by
  unfold squareSizeCheck Verify.squareSize
  by_cases h1 : Over (nt - ne')
  · by_cases h0 : ls = 0
    · verdict [h1, h0]; rfl
    · verdict [h1, h0, ne_eq, not_false_eq_true]; rfl
  by_cases h2 : Over (ne' - 1)
  · by_cases h0 : ls = 0
    · verdict [h1, h2, h0]; rfl
    · simp only [ne, sub_val, mul_val, num_val, Option.bind_some, h1, h2, if_true, if_false, Option.bind_none, or_true]
      rw [show (⟨none⟩ / ⟨some (OfNat.ofNat 2)⟩ : Val) = ⟨none⟩ from rfl]
      verdict [h0, ne_eq, not_false_eq_true]; rfl
  by_cases h0 : ls = 0
  · by_cases h3 : Over ((ne' - 1) * (ne' - 1))
    · verdict [h1, h2, h0, h3]; rfl
    · verdict [h1, h2, h0, h3, ne_eq, not_false_eq_true]; rw [result_ite]; rfl
  · by_cases h3 : Over (ne' * (ne' - 1))
    · simp only [ne, sub_val, mul_val, num_val, Option.bind_some, h1, h2, h3, if_true, if_false, Option.bind_none, or_true]
      rw [show (⟨none⟩ / ⟨some (OfNat.ofNat 2)⟩ : Val) = ⟨none⟩ from rfl]
      verdict [h0, ne_eq, not_false_eq_true]; rfl
    · have e : (⟨some (ne' * (ne' - 1))⟩ / ⟨some (OfNat.ofNat 2)⟩ : Val) = ⟨some (Int.tdiv (ne' * (ne' - 1)) 2)⟩ := half_val _ (by rintro y ⟨⟩; exact h3)
      simp only [ne, sub_val, mul_val, num_val, Option.bind_some, h1, h2, h3, if_true, if_false, Option.bind_none, or_true, e]
      verdict [h0, ne_eq, not_false_eq_true]; rw [result_ite]; rfl

theorem squareMatrix_result (l : LIST) : squareMatrixCheck l = result (Verify.squareMatrix (arg l.l2) (arg l.l1) (arg l.n2) (arg l.npl)) := by
  unfold squareMatrixCheck Verify.squareMatrix
  rw [squareSize_result _ _ _ (isInt32_toInt32 _)]
  show (if toInt32 l.l2 ≠ 5 then _ else result (Verify.squareSize (arg l.l1) (arg l.n2) (arg l.npl))) = _
  generalize Verify.squareSize (arg l.l1) (arg l.n2) (arg l.npl) = w
  verdict [if_true]
  rw [result_ite]; rfl

/-- A non-negative `int`, or -1, modulo any `int`. -/
theorem mod_val_any (x y : Int) (h : IsInt32 x) (hx : -1 ≤ x) : (⟨some x⟩ % ⟨some y⟩ : Val) = ⟨if y = 0 then none else some (Int.tmod x y)⟩ := by
  show (⟨if y = 0 then none else (inRange (Int.tdiv x y)).bind fun _ => some (Int.tmod x y)⟩ : Val) = _
  by_cases h0 : y = 0
  · rw [if_pos h0, if_pos h0]
  · have hb : (Int.tdiv x y).natAbs ≤ x.natAbs := by rw [Int.natAbs_tdiv]; exact Nat.div_le_self _ _
    have : ¬Over (Int.tdiv x y) := by
      unfold Over
      unfold IsInt32 at h
      generalize Int.tdiv x y = q at hb
      omega
    rw [if_neg h0, if_neg h0, inRange_eq, if_neg this]; rfl

theorem rectangular_value (a x y : Int) (h : IsInt32 (x - 1)) (hx : -1 ≤ x - 1) :
    result (Verify.rectangular ⟨some a⟩ ⟨some x⟩ ⟨some y⟩) =
      if a ≠ 6 then .error .exc else if y = 0 then .error .ub else if Int.tmod (x - 1) y ≠ 0 then .error .exc else .ok () := by
  have h1 : ¬Over (x - 1) := by unfold Over; unfold IsInt32 at h; omega
  have e : (⟨some x⟩ - 1 : Val) = ⟨some (x - 1)⟩ := by
    show (⟨some x⟩ - ⟨some 1⟩ : Val) = _
    rw [sub_val]; simp only [Option.bind_some, h1, if_false]
  unfold Verify.rectangular
  rw [e, mod_val_any _ _ h hx]
  by_cases h0 : y = 0
  · verdict [h0]; rw [result_ite]; rfl
  · verdict [h0, ne_eq]; simp only [result_ite]; rfl

theorem rectangular_result (l : LIST) (hs : l.data.length < 2147483648) :
    rectangularMatrixCheck l = result (Verify.rectangular (arg l.l2) (arg l.npl) (arg l.n2)) := by
  have hn := npl_small hs
  unfold arg
  rw [rectangular_value _ _ _ (by unfold IsInt32; omega) (by omega)]
  rfl

/-- Covariance data of files 31, 33 and 40: the type of data is selected by LB, then LB and the size are verified. -/
theorem C72_explicit_covariance : VerifiedBySmall explicitC (fun l => Verify.explicit l.l2 l) := verifiedBySmall_result fun l hs => by
  unfold explicitCheck Verify.explicit
  simp only [result_ite, covariancePairs_result, squareMatrix_result, rectangular_result l hs]
  rfl

theorem C72_square_matrix_35 : VerifiedBySmall squareMatrix35C (fun l => Verify.squareMatrix35 (arg l.l2) (arg l.n2) (arg l.npl)) :=
  verifiedBySmall_result fun l hs => by
    unfold squareMatrix35Check Verify.squareMatrix35
    rw [squareSize_result _ _ _ (by decide)]
    show _ = result (throwIf (ne (arg l.l2) 7) (Verify.squareSize ⟨some 1⟩ (arg l.n2) (arg l.npl)))
    rw [show (⟨some 1⟩ : Val) = 1 from rfl]
    show (if toInt32 l.l2 ≠ 7 then _ else result (Verify.squareSize 1 (arg l.n2) (arg l.npl))) = _
    generalize Verify.squareSize 1 (arg l.n2) (arg l.npl) = w
    verdict [if_true]
    rw [result_ite]; rfl

/-- Long range covariances of file 32. -/
theorem C72_long_range : VerifiedBySmall longRangeC (fun l =>
    if l.l2 = -1 ∨ l.l2 = 0 ∨ l.l2 = 1 ∨ l.l2 = 2 then Verify.covariancePairs (arg l.l2) (arg l.l1) (arg l.npl) (arg l.n2)
    else if l.l2 = 5 then Verify.squareMatrix (arg l.l2) (arg l.l1) (arg l.n2) (arg l.npl)
    else .throws) := verifiedBySmall_result fun l hs => by
  unfold longRangeCheck
  simp only [result_ite, covariancePairs_result, squareMatrix_result]
  rfl

/-- Transition probabilities of file 12: LG is the `int` NPL / NT - 1, computed with `long`s. -/
theorem C72_transitions : VerifiedBySmall transitionC (fun l =>
    if l.n2 = 0 then .undefined
    else throwIf (both (ne (arg (Int.tdiv l.data.length l.n2 - 1)) 1) (ne (arg (Int.tdiv l.data.length l.n2 - 1)) 2)) .returns) :=
  verifiedBySmall_result fun l hs => by
    have e : l.npl = l.data.length := rfl
    unfold transitionCheck transitionLG
    rw [e]
    verdict [if_true]
    simp only [result_ite, ne_eq]
    rfl

namespace Verify
/-- section/34/ReactionBlock/src/verifySize.hpp -/
def legendreSize (NL NL1 NSS : Val) (diag : Bool) : Verdict :=
  if diag then throwIf (ne NL NL1) (throwIf (ne (NL * (NL + 1) / 2) NSS) .returns)
  else throwIf (ne (NL * NL1) NSS) .returns
end Verify

theorem legendreSize_result (nl nl1 nss : Int) (diag : Bool) (h : IsInt32 nl) (hn : IsInt32 nss) :
    (if legendreSizeOk nl nl1 nss diag then .ok () else .error (if legendreSizeOv nl nl1 diag then .ub else .exc)) =
      result (Verify.legendreSize ⟨some nl⟩ ⟨some nl1⟩ ⟨some nss⟩ diag) := by
  unfold legendreSizeOk legendreSizeOv Verify.legendreSize
  cases diag
  · simp only [Bool.false_eq_true, if_false, ne, mul_val, Option.bind_some]
    by_cases h1 : Over (nl * nl1)
    · have : nl * nl1 ≠ nss := by
        rintro rfl
        unfold Over at h1; unfold IsInt32 at hn; omega
      simp only [h1, if_true, Option.bind_none, beq_iff_eq, this, if_false]; rfl
    · by_cases h2 : nl * nl1 = nss
      · subst h2
        simp only [h1, if_false, Option.bind_some, beq_self_eq_true, if_true, ne_eq, not_true_eq_false, decide_false]; rfl
      · simp only [h1, if_false, Option.bind_some, beq_iff_eq, h2, ne_eq, not_false_eq_true, decide_true]; rfl
  · have hs : Over (nl + 1) → Over (nl * (nl + 1)) := by
      intro h0
      have : nl = 2147483647 := by unfold Over at h0; unfold IsInt32 at h; omega
      subst this
      decide
    have e : (⟨some nl⟩ * (⟨some nl⟩ + 1) / 2 : Val) = ⟨if Over (nl * (nl + 1)) then none else some (Int.tdiv (nl * (nl + 1)) 2)⟩ := by
      have ea : (⟨some nl⟩ + 1 : Val) = ⟨if Over (nl + 1) then none else some (nl + 1)⟩ := add_val (some nl) (some 1)
      rw [ea, mul_val]
      by_cases h0 : Over (nl + 1)
      · rw [if_pos h0, if_pos (hs h0)]; rfl
      · rw [if_neg h0]
        by_cases h1 : Over (nl * (nl + 1))
        · rw [if_pos h1]; simp only [Option.bind_some, if_pos h1]; rfl
        · rw [if_neg h1]; simp only [Option.bind_some, if_neg h1]
          rw [half_val _ (by rintro y ⟨⟩; exact h1)]; rfl
    rw [e]
    simp only [if_true, ne, Option.bind_some]
    by_cases h2 : nl = nl1
    · subst h2
      by_cases h1 : Over (nl * (nl + 1))
      · rw [show decide (Over (nl * (nl + 1))) = true from decide_eq_true h1, if_pos h1]
        simp only [h1, if_true, Bool.not_true, Bool.and_false, Bool.false_and, Bool.false_eq_true, if_false, true_and, ne_eq, not_true_eq_false, decide_false, Option.bind_none]; rfl
      · by_cases h3 : Int.tdiv (nl * (nl + 1)) 2 = nss
        · simp only [h1, h3, beq_self_eq_true, if_false, decide_false, Bool.not_false, Bool.and_true, Bool.and_self, if_true, ne_eq, not_true_eq_false, Option.bind_some]; rfl
        · simp only [h1, beq_self_eq_true, if_false, decide_false, Bool.not_false, Bool.and_true, Bool.true_and, beq_iff_eq, h3, and_false, ne_eq, not_true_eq_false, not_false_eq_true, decide_true, Option.bind_some]; rfl
    · simp only [h2, false_and, if_false, ne_eq, not_false_eq_true, decide_true, Bool.and_eq_true, beq_iff_eq]; rfl

/-- Blocks of file 34: the control record, the L-blocks, whose number is computed with `long`s and narrowed, and the verification. -/
def readReaction34 (mt : Int) (t : Nums) (s : St) : Except Err (ReactionBlock34 × St) :=
  match readCont t s with
  | .error e => .error (catchStd e)
  | .ok (c, s1) =>
    match (seqC legendreBlockC (toInt32 (if mt = c.l2 then Int.tdiv (c.n1 * (c.n2 + 1)) 2 else c.n1 * c.n2))).read t s1 with
    | .error e => .error (catchStd e)
    | .ok (bs, s2) =>
      match Verify.legendreSize (arg c.n1) (arg c.n2) (arg bs.length) (decide (mt = toInt32 c.l2)) with
      | .returns => .ok (⟨toInt32 c.l2, toInt32 c.n1, toInt32 c.n2, bs⟩, s2)
      | .throws => .error .exc
      | .undefined => .error .ub

/-- Files of covariances of angular distributions: the number of L-blocks. -/
theorem C72_reaction_block (mt : Int) (t : Nums) (s : St) : (reactionBlock34C mt).read t s = readReaction34 mt t s := by
  unfold readReaction34 reactionBlock34C
  simp only [Parser.mapErr, Parser.bind_run]
  cases readCont t s with
  | error e => rfl
  | ok q =>
    obtain ⟨c, s1⟩ := q
    dsimp only
    cases (seqC legendreBlockC (toInt32 (if mt = c.l2 then Int.tdiv (c.n1 * (c.n2 + 1)) 2 else c.n1 * c.n2))).read t s1 with
    | error e => rfl
    | ok q =>
      obtain ⟨bs, s2⟩ := q
      dsimp only
      have := legendreSize_result (toInt32 c.n1) (toInt32 c.n2) (asInt bs.length) (mt == toInt32 c.l2) (isInt32_toInt32 _) (isInt32_toInt32 _)
      have e : Verify.legendreSize (arg c.n1) (arg c.n2) (arg bs.length) (decide (mt = toInt32 c.l2)) =
        Verify.legendreSize ⟨some (toInt32 c.n1)⟩ ⟨some (toInt32 c.n2)⟩ ⟨some (asInt bs.length)⟩ (mt == toInt32 c.l2) := rfl
      rw [e]
      generalize Verify.legendreSize ⟨some (toInt32 c.n1)⟩ ⟨some (toInt32 c.n2)⟩ ⟨some (asInt bs.length)⟩ (mt == toInt32 c.l2) = v at this ⊢
      by_cases ho : legendreSizeOk (toInt32 c.n1) (toInt32 c.n2) (asInt bs.length) (mt == toInt32 c.l2) = true
      · rw [if_pos ho] at this ⊢
        cases v <;> first | rfl | cases this
      · rw [if_neg ho] at this ⊢
        by_cases hv : legendreSizeOv (toInt32 c.n1) (toInt32 c.n2) (mt == toInt32 c.l2)
        · rw [if_pos hv] at this ⊢
          cases v <;> first | rfl | cases this
        · rw [if_neg hv] at this ⊢
          cases v <;> first | rfl | cases this

end ENDFtk.Props

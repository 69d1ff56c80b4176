import Verif.Props.BuildExamples2
import Verif.Props.Build6
import Verif.Props.CovGettersExamples
import Verif.Props.ResCovCounterexamples
/-
  C61, concrete sections 32/151: each type of parameters is made from data, meets the hypotheses of C61_mf32mt151_partial, and is read back; and what the constructors accept
  although it cannot be read back.
-/
set_option linter.unusedVariables false
set_option maxRecDepth 100000
namespace ENDFtk.Props
attribute [local instance] concDisco concCorr

instance : DecidablePred Make.CovParamsInts := fun ⟨k, x⟩ => by cases k <;> (simp only [Make.CovParamsInts]; exact inferInstance)
instance : DecidablePred Make.CovReadable := fun ⟨k, x⟩ => by cases k <;> (simp only [Make.CovReadable]; exact inferInstance)
instance : DecidablePred Make.CovRangeInts := fun b => by unfold Make.CovRangeInts; exact inferInstance

/-- The section meets the hypotheses of C61_mf32mt151_partial; it is written with MAT 125, and what is read is written as `out`. -/
def hypotheses32 (s : Sect (List CovIsotope)) : Bool :=
  decide ((∀ x ∈ s.data, ∀ r ∈ x.ranges, Make.CovReadable r.parameters) ∧ (∀ m ∈ matrices s, Faithful m) ∧ IsInt32 s.za ∧
    SeqInts (fun x => SeqInts Make.CovRangeInts x.ranges) s.data ∧ Reps (mf32mt151.realsSect s))

/-- Written with MAT 125, read completely, and what is read is written as the section with its matrices rounded. -/
def readBack32 (s : Sect (List CovIsotope)) : Bool :=
  match mf32mt151.print s 125 32 with
  | .ok out => match mf32mt151.parse ⟨out, 0⟩ with
    | .ok (s', st) => decide (st.rest = [] ∧ mf32mt151.print s' 125 32 = mf32mt151.print (roundedSect s) 125 32)
    | .error _ => false
  | .error _ => false

/-- Written with MAT 125, the reals survive being written in 11 columns, but parsing what is written throws. -/
def unreadable32 (s : Sect (List CovIsotope)) : Bool :=
  match mf32mt151.print s 125 32 with
  | .ok out => match mf32mt151.parse ⟨out, 0⟩ with
    | .ok _ => false
    | .error e => e.isStd && decide (Reps (mf32mt151.realsSect s))
  | .error _ => false

/-- One isotope with one range. -/
def oneRange (p : CovParams) (P : Sect (List CovIsotope) → Bool) : Bool :=
  Makes (Make.covRange one (Conc.ofInt 20) 1 p) (fun r => Makes (Make.mf32mt151Ranges 92235 one false [r]) P)

def limited1 : Except Err LIST := LimitedBreitWignerLValue.make one 1 (d2 1) (d2 3) (d2 5) (d2 7) (d2 9) (d2 11) (d2 13) (d2 15) (d2 17) (d2 19) (d2 21) (d2 23) (d2 25) (d2 27)
  (d2 29) (d2 31) (d2 33)
def short1 : Except Err LIST := ShortRangeBreitWignerBlock.make 2 (d2 1) (d2 3) (d2 5) (d2 7) (d2 9) (d2 11) (dr [1, 2, 3, 4, 5, 6, 7, 8, 9, 10])
def shortRm1 : Except Err LIST := ShortRangeReichMooreBlock.make 1 (d2 1) (d2 3) (d2 5) (d2 7) (d2 9) (d2 11) (dr [1, 2, 3])
def compact1 : Except Err LIST := CompactBreitWignerUncertainties.make one one true (d2 1) (d2 3) (d2 5) (d2 7) (d2 9) (d2 11) (d2 13) (d2 15) (d2 17) (d2 19)
def compactRm1 : Except Err LIST := CompactReichMooreUncertainties.make one one (d2 1) (d2 3) (d2 5) (d2 7) (d2 9) (d2 11) (d2 13) (d2 15) (d2 17) (d2 19) (d2 21)
/-- correlations 0.505, 0.009 (which is rounded to 0) and 0.6012 -/
def matrix1 : Except Err CorrMatrix := CorrMatrix.make 10 [1, 1, 2] [3, 5, 4] [corr 505 (-3), corr 9 (-3), corr 6012 (-4)] 2
def rmlPairs (njsx : Int) : Except Err LIST := CompactParticlePairs.make njsx (d2 1) (d2 3) (d2 5) (d2 7) (d2 9) (d2 11) (d2 13) (d2 15) (d2 17) [1, 0] [0, 1] [2, 102]
def rmlChannels : Except Err LIST := ResonanceChannels.make one one [1, 2] [0, 1] (dr [3, 4]) (dr [5, 6]) (dr [7, 8]) (dr [9, 10]) 0 0
def rmlParameters : Except Err LIST := CompactParameters.make (d2 1) [dr [3, 4], dr [5, 6]] (d2 7) [dr [8, 9], dr [10, 11]]

example : Makes limited1 (fun l => Makes (Make.limitedSingle one one (some one) [l, l]) (fun p => oneRange p (fun s => hypotheses32 s && readBack32 s)) &&
  Makes (Make.limitedMulti one one none [l]) (fun p => oneRange p (fun s => hypotheses32 s && readBack32 s)) &&
  !Makes (Make.limitedMulti one one none []) (fun _ => true)) = true := by decide +kernel
example : Makes short1 (fun l => Makes (CovariancePairs.make2 1 (d2 1) (d2 3)) (fun c =>
  oneRange (Make.generalSingle one one one (some one) 3 [l, l] [c]) (fun s => hypotheses32 s && readBack32 s) &&
  oneRange (Make.generalMulti one one one none 0 [] []) (fun s => hypotheses32 s && readBack32 s))) = true := by decide +kernel
example : Makes shortRm1 (fun l => Makes (RadiusUncertainties.make one (d2 3)) (fun d => Makes (SquareMatrix.make 1 (d2 1) [one]) (fun c =>
  oneRange (Make.generalReichMoore one one one (some d) 3 [l] [c]) (fun s => hypotheses32 s && readBack32 s)))) = true := by decide +kernel
example : Makes (ShortRangeParameters.make (d2 1) [dr [3, 4, 5], dr [6, 7, 8]]) (fun p => Makes (TriangularMatrix.make 0 (dr [1, 2, 3])) (fun c =>
  oneRange (Make.generalRml one [Make.shortRangeRml [p, p] c]) (fun s => hypotheses32 s && readBack32 s))) = true := by decide +kernel
example : Makes compact1 (fun u => Makes matrix1 (fun m =>
  oneRange (Make.compactSingle one one none u m) (fun s => hypotheses32 s && readBack32 s && decide (m.rounded.elems.length = 2)) &&
  oneRange (Make.compactMulti one one (some one) u m) (fun s => hypotheses32 s && readBack32 s))) = true := by decide +kernel
example : Makes compactRm1 (fun u => Makes matrix1 (fun m => Makes (RadiusUncertainties.make one (d2 3)) (fun d =>
  oneRange (Make.compactReichMoore one one true (some d) u m) (fun s => hypotheses32 s && readBack32 s)))) = true := by decide +kernel
example : Makes (rmlPairs 1) (fun pp => Makes rmlChannels (fun c => Makes rmlParameters (fun p => Makes (Make.compactRmlUncertainties pp [(c, p)]) (fun u => Makes matrix1 (fun m =>
  oneRange (Make.compactRml true none u m) (fun s => hypotheses32 s && readBack32 s)))))) = true := by decide +kernel
example : Makes (UnresolvedCovLValue.make one 1 (d2 1) (d2 3) (d2 5) (d2 7) (d2 9) (d2 11)) (fun l => Makes (TriangularMatrix.make 3 (dr [1, 2, 3, 4, 5, 6])) (fun c =>
  oneRange (Make.unresolvedRelative one one [l, l] c) (fun s => hypotheses32 s && readBack32 s))) = true := by decide +kernel
/-- covariances of the scattering radius, and two isotopes -/
example : Makes limited1 (fun l => Makes (Make.limitedSingle one one none [l]) (fun p => Makes (CovariancePairs.make2 1 (d2 1) (d2 3)) (fun c =>
  Makes (Make.covRange one (Conc.ofInt 20) 2 p (some (Make.radiusCovariances [c]))) (fun r =>
    Makes (Make.mf32mt151 92235 one [Make.covIsotope one one true [r, r], Make.covIsotope one one false []]) (fun s => hypotheses32 s && readBack32 s))))) = true := by decide +kernel
/-- no NAPS 2 without covariances of the scattering radius -/
example : Makes limited1 (fun l => Makes (Make.limitedSingle one one none [l]) (fun p => !Makes (Make.covRange one (Conc.ofInt 20) 2 p) (fun _ => true))) = true := by decide +kernel

/-- A long range block with LB = 8 is accepted by the constructors and written, but the section cannot be read back. -/
theorem C61_cov_long_range : Makes short1 (fun l => Makes (CovariancePairs.make2 8 (d2 1) (d2 3)) (fun c =>
  oneRange (Make.generalSingle one one one none 3 [l] [c]) unreadable32)) = true := by decide +kernel
/-- Particle pairs that announce two spin groups with one spin group are accepted and written, but the section cannot be read back. -/
theorem C61_cov_spin_groups : Makes (rmlPairs 2) (fun pp => Makes rmlChannels (fun c => Makes rmlParameters (fun p => Makes (Make.compactRmlUncertainties pp [(c, p)]) (fun u =>
  Makes matrix1 (fun m => oneRange (Make.compactRml true none u m) unreadable32))))) = true := by decide +kernel
/-- Uncertainties of the scattering radius with R-matrix limited parameters are accepted and written, but the section cannot be read back. -/
theorem C61_cov_rml_radius : Makes (rmlPairs 1) (fun pp => Makes rmlChannels (fun c => Makes rmlParameters (fun p => Makes (Make.compactRmlUncertainties pp [(c, p)]) (fun u =>
  Makes matrix1 (fun m => Makes (RadiusUncertainties.make one (d2 3)) (fun d => oneRange (Make.compactRml true (some d) u m) unreadable32)))))) = true := by decide +kernel

end ENDFtk.Props

import Verif.Props.BuildExamples
import Verif.Props.Build4
import Verif.Props.Build5
/-
  C61, concrete sections of files 2, 31, 33, 34, 35 and 40: each constructor accepts a non-trivial case that meets the hypotheses of its theorem (so the section can be
  written and read back), and what the constructors accept although it cannot be read back.
-/
set_option linter.unusedVariables false
set_option maxRecDepth 100000
namespace ENDFtk.Props
attribute [local instance] concDisco

instance : DecidablePred Make.ReactionInts := fun b => by unfold Make.ReactionInts; exact inferInstance
instance : DecidablePred Make.LegendreBlockInts := fun b => by unfold Make.LegendreBlockInts; exact inferInstance
instance : DecidablePred Make.Reaction34Ints := fun b => by unfold Make.Reaction34Ints; exact inferInstance
instance : DecidablePred Make.LevelInts := fun b => by unfold Make.LevelInts; exact inferInstance
instance : DecidablePred Make.LValueCInts := fun b => by unfold Make.LValueCInts; exact inferInstance
instance : DecidablePred Make.BackgroundInts := fun b => by cases b <;> (unfold Make.BackgroundInts; exact inferInstance)
instance : DecidablePred Make.SpinGroupInts := fun b => by unfold Make.SpinGroupInts; exact inferInstance
instance : DecidablePred Make.ParamsInts := fun b => by cases b <;> (unfold Make.ParamsInts; exact inferInstance)
instance : DecidablePred Make.RangeInts := fun b => by unfold Make.RangeInts; exact inferInstance
instance : DecidablePred Make.IsotopeInts := fun b => by unfold Make.IsotopeInts; exact inferInstance

/-! ### section 152 of file 2 -/

example : Makes (Make.mf2mt152 92235 one true 2 (Conc.ofInt 293) (dr [10, 1]) (dr [5, 6]) [dr [1, 2], dr [3, 4]] [dr [1, 2], dr [3, 4]] [dr [1, 2], dr [3, 4]] [dr [1, 2], dr [3, 4]]
    [dr [1, 2], dr [3, 4]]) (fun s => decide s.data.data.Ints && readBack .mf2mt152 s) = true := by decide +kernel
example : Makes (Make.mf2mt152Single 92235 one true 2 (Conc.ofInt 293) (dr [5, 6]) (dr [1, 2]) (dr [1, 2]) (dr [1, 2]) (dr [1, 2]) (dr [1, 2]))
    (fun s => decide s.data.data.Ints) = true := by decide +kernel

/-! ### covariances -/

def pairs1 : Except Err LIST := CovariancePairs.make2 1 xs2 ys2
def square1 : Except Err LIST := SquareMatrix.make 1 (dr [1, 2, 3]) (dr [1, 2, 3])
def redundant1 : Except Err Derived := DerivedRedundant.make one (Conc.ofInt 2) (dr [1, 1]) [16, 17]
def ratio (lty : Int) : Except Err Derived := DerivedRatio.make lty one (Conc.ofInt 2) 9228 18 0 0 xs2 ys2
example : Makes pairs1 (fun p => Makes square1 (fun q => Makes redundant1 (fun r => Makes (ratio 1) (fun t =>
    Makes (Make.mf33 102 92235 one [Make.reactionBlock 0 0 0 102 [r, t] [p, q], Make.reactionBlock 0 0 0 18 [] [p]]) (fun s =>
      decide (SeqInts Make.ReactionInts s.data.2) && readBack .mf33 s) &&
    Makes (Make.mf31 452 92235 one [Make.reactionBlock 0 0 0 452 [r] [p]]) (fun s => decide (SeqInts Make.ReactionInts s.data) && readBack .mf31 s) &&
    Makes (Make.mf33Lumped 52 92235 one 851) (fun s => readBack .mf33 s) &&
    Makes (Make.mf40 102 92235 one 0 [Make.levelBlock one one 92236 0 [Make.reactionBlock 10 0 0 102 [] [p]]]) (fun s =>
      decide (SeqInts Make.LevelInts s.data.2) && readBack .mf40 s))))) = true := by decide +kernel
/-- Derived ratio data with an LTY that the format does not have are made and written: with LTY 7 the section cannot be read back, with LTY 0 the data are read as the
    redundant covariance data of a sum. -/
theorem C61_derived_lty : Makes (ratio 7) (fun t => Makes (Make.mf33 102 92235 one [Make.reactionBlock 0 0 0 102 [t] []]) (fun s => unreadable .mf33 s)) = true ∧
    Makes (ratio 0) (fun t => Makes (Make.mf33 102 92235 one [Make.reactionBlock 0 0 0 102 [t] []]) (fun s => match mf33.print s 125 33 with
      | .ok out => match mf33.parse ⟨out, 0⟩ with
        | .ok (⟨_, _, _, (_, [b])⟩, _) => b.derived.all fun d => d.lty = 0
        | _ => false
      | _ => false)) = true := by decide +kernel
example : Makes pairs1 (fun p => Makes (Make.reactionBlock34 2 2 1 1 [Make.legendreBlock 1 1 0 [p]]) (fun a => Makes (Make.reactionBlock34 2 4 2 1 [Make.legendreBlock 1 1 0 [p],
    Make.legendreBlock 2 1 0 [p]]) (fun b => Makes (Make.mf34 2 92235 one 1 [a, b]) (fun s => decide (SeqInts Make.Reaction34Ints s.data.2) && readBack .mf34 s)))) = true := by
  decide +kernel
/-- A Legendre covariance block whose constructor was given another MT number than the section it is put in is made and written, but it cannot be read back: the number of
    blocks depends on whether the two MT numbers are the same. -/
theorem C61_mf34_other_mt : Makes pairs1 (fun p => Makes (Make.reactionBlock34 4 2 2 2 [Make.legendreBlock 1 1 0 [p], Make.legendreBlock 1 2 0 [p], Make.legendreBlock 2 1 0 [p],
    Make.legendreBlock 2 2 0 [p]]) (fun a => Makes (Make.mf34 2 92235 one 1 [a]) (fun s => unreadable .mf34 s) && Makes (Make.mf34 4 92235 one 1 [a]) (fun s => readBack .mf34 s))) = true := by
  decide +kernel
example : Makes (SquareMatrix.make35 one (Conc.ofInt 20) (dr [1, 2, 3]) (dr [1, 2, 3])) (fun l => Makes (Make.mf35 18 92235 one [l, l]) (fun s =>
    decide (SeqInts LIST.Ints s.data) && readBack .mf35 s)) = true := by decide +kernel

/-! ### resonance parameters -/

def bwLValue : Except Err LIST := BreitWignerLValue.make one (Conc.ofInt 0) 0 false xs2 (dr [1, 1]) (dr [3, 3]) (dr [1, 1]) (dr [2, 2]) (dr [0, 0])
def rmLValue : Except Err LIST := ReichMooreLValue.make one one 1 xs2 (dr [1, 1]) (dr [3, 3]) (dr [1, 1]) (dr [2, 2]) (dr [0, 0])
def aLValue : Except Err LIST := UnresolvedALValue.make one 0 xs2 (dr [1, 1]) [1, 2] (dr [3, 3]) (dr [1, 1])
def bJValue : Except Err LIST := UnresolvedBJValue.make 0 one one 1 2 one one (dr [1, 2, 3])
def cJValue : Except Err LIST := UnresolvedCJValue.make one 1 0 2 0 2 xs2 (dr [1, 1]) (dr [1, 1]) (dr [1, 1]) (dr [1, 1]) (dr [1, 1])
def radius2 : Except Err TAB1 := Make.scatteringRadius [2] [2] xs2 ys2

/-- a resolved range (with an energy dependent radius) and an unresolved one (case A), and a section with Reich-Moore parameters -/
example : Makes bwLValue (fun l => Makes (Make.singleLevel one one [l, l]) (fun p => Makes (Make.multiLevel one one [l]) (fun q => Makes aLValue (fun a => Makes (Make.unresolvedA one one true [a]) (fun u =>
    Makes radius2 (fun r => Makes (Make.resonanceRange one (Conc.ofInt 2) 2 p (some r)) (fun r1 => Makes (Make.resonanceRange (Conc.ofInt 2) (Conc.ofInt 3) 1 q) (fun r2 =>
    Makes (Make.resonanceRange (Conc.ofInt 3) (Conc.ofInt 4) 0 u) (fun r3 => Makes (Make.mf2mt151 92000 one [Make.isotope 92235 one false [r1, r2, r3], Make.isotope 92238 one true [r1]])
      (fun s => decide (SeqInts Make.IsotopeInts s.data) && readBack .mf2mt151 s)))))))))) = true := by decide +kernel
example : Makes rmLValue (fun l => Makes (Make.reichMoore one one true 2 [l, l]) (fun p => Makes (Make.resonanceRange one (Conc.ofInt 2) 1 p) (fun r =>
    Makes (Make.mf2mt151Ranges 92235 one false [r]) (fun s => decide (SeqInts Make.IsotopeInts s.data) && readBack .mf2mt151 s)) &&
    !Makes (Make.reichMoore one one true 1 [l, l]) (fun _ => true) && !Makes (Make.resonanceRange one one 2 p) (fun _ => true))) = true := by decide +kernel
example : Makes bJValue (fun j => Makes (Make.lvalueB one 0 [j, j]) (fun l => Makes (Make.unresolvedB one one false (dr [1, 2, 3]) [l]) (fun p => Makes cJValue (fun k => Makes (Make.lvalueC one 0 [k]) (fun m =>
    Makes (Make.unresolvedC one one false [m, m]) (fun q => Makes (Make.resonanceRange one one 0 p) (fun r1 => Makes (Make.resonanceRange one one 0 q) (fun r2 =>
    Makes (Make.mf2mt151Ranges 92235 one true [r1, r2]) (fun s => decide (SeqInts Make.IsotopeInts s.data) && readBack .mf2mt151 s))) &&
    !Makes (Make.unresolvedB one one false (dr [1, 2]) [l]) (fun _ => true))))))) = true := by decide +kernel

def pairs2 : Except Err LIST := ParticlePairs.make (dr [0, 1]) (dr [236, 235]) (dr [0, 0]) (dr [92, 92]) (dr [1, 0]) (dr [0, 3]) (dr [0, 0]) (dr [1, 1]) (dr [6, 0]) [0, 1] [0, 1] [102, 2]
def channels2 (kbk : Int) : Except Err LIST := ResonanceChannels.make one one [1, 2] [0, 0] (dr [0, 3]) (dr [0, 0]) (dr [1, 1]) (dr [1, 1]) kbk 0
def widths2 : Except Err LIST := ResonanceParameters.make xs2 [dr [1, 2], dr [3, 4]]
def table1 : Except Err (Int × Background) := Make.tabulatedBackground 2 [2] [2] xs2 ys2 ys2
/-- R-matrix limited parameters: a spin group without background, one with two background R-matrices that were not given in the order of the channels -/
example : Makes pairs2 (fun pp => Makes (channels2 0) (fun c0 => Makes (channels2 2) (fun c2 => Makes widths2 (fun w => Makes table1 (fun t =>
    Makes (Make.backgroundChannels 2 [t, Make.sammyBackground 1 one one one one one one one]) (fun b => Makes (Make.spinGroupShort c0 w) (fun g => Makes (Make.spinGroup c2 w b) (fun h =>
    Makes (Make.rMatrixLimited false true 3 pp [g, h]) (fun p => Makes (Make.resonanceRange one one 1 p) (fun r => Makes (Make.mf2mt151Ranges 92235 one false [r]) (fun s =>
      decide (SeqInts Make.IsotopeInts s.data) && readBack .mf2mt151 s))) &&
    !Makes (Make.spinGroup c0 w b) (fun _ => true) && !Makes (Make.spinGroupShort c2 w) (fun _ => true) && !Makes (Make.backgroundChannels 2 [t, t]) (fun _ => true) &&
    !Makes (Make.backgroundChannels 1 [t]) (fun _ => true) && !Makes (Make.backgroundChannels 2 [Make.noBackground 0]) (fun _ => true)))))))))  = true := by decide +kernel
example : Makes (Make.mf2mt151Special 92235 one one (Conc.ofInt 20) one one) (fun s => decide (SeqInts Make.IsotopeInts s.data) && readBack .mf2mt151 s) = true := by decide +kernel
/-- An isotope whose LFW flag is not the one of its unresolved resonance parameters is made and written, but it cannot be read back. -/
theorem C61_mf2mt151_lfw : Makes aLValue (fun a => Makes (Make.unresolvedA one one true [a]) (fun u => Makes (Make.resonanceRange one one 0 u) (fun r =>
    Makes (Make.mf2mt151Ranges 92235 one true [r]) (fun s => unreadable .mf2mt151 s) && Makes (Make.mf2mt151Ranges 92235 one false [r]) (fun s => readBack .mf2mt151 s)))) = true ∧
  Makes bJValue (fun j => Makes (Make.lvalueB one 0 [j]) (fun l => Makes (Make.unresolvedB one one false (dr [1, 2, 3]) [l]) (fun u => Makes (Make.resonanceRange one one 0 u) (fun r =>
    Makes (Make.mf2mt151Ranges 92235 one false [r]) (fun s => unreadable .mf2mt151 s))))) = true := by decide +kernel

end ENDFtk.Props

import Verif.Props.UpdateDirectory
import Verif.Props.TreeExamples
/-
  A concrete material that meets the hypotheses of C19-C22, and counterexamples where the code does not satisfy them, with the concrete number format
  `concDisco`.
-/
set_option linter.unusedVariables false
namespace ENDFtk.Props
attribute [local instance] concDisco

/-- Two lines of 66 columns. -/
def exDesc : List Text := ["some description", " of the material"].map (fun x => executeOrder66 x.toList)

def exInfo (desc : List Text) (index : List Dir) : Sect Info451 :=
  ⟨92235, nf ⟨2330248, -4⟩, 451, ⟨2, 1, 0, 5, ⟨nf ⟨0, 0⟩, nf ⟨0, 0⟩, 0, 0, 0, 6⟩, ⟨nf ⟨1, 0⟩, nf ⟨20000000, 0⟩, 1, 0, 10, 7⟩,
    ⟨nf ⟨0, 0⟩, nf ⟨0, 0⟩, 0, 0, desc.length, index.length⟩, desc, index⟩⟩

def exContent (x : Sect Info451) : Text :=
  match mf1mt451.print x 9228 1 with
  | .ok t => t
  | .error _ => []

/-- A section of MF 3 with the given number of further lines. -/
def exOther (mf mt : Int) (n : Nat) : TSection :=
  ⟨9228, mf, mt, unlines ((exHead 9228 mf mt).text :: List.replicate n (exLine "some text" ⟨9228, mf, mt⟩ 2) ++ [(exSend 9228 mf).text])⟩

def exMat (x : Sect Info451) : TMaterial :=
  ⟨9228, [(1, ⟨9228, 1, [(451, ⟨9228, 1, 451, exContent x⟩), (452, exOther 1 452 3)]⟩),
    (3, ⟨9228, 3, [(1, exOther 3 1 1), (2, exOther 3 2 4), (102, exOther 3 102 0)]⟩)]⟩

/-- An index with wrong line counts, without MT452 and MT2, with a section that does not exist. -/
def exOld : Sect Info451 := exInfo exDesc [⟨1, 451, 9, 1⟩, ⟨3, 1, 77, 4⟩, ⟨3, 18, 4, 9⟩, ⟨3, 102, 5, 3⟩]

instance (m : TMaterial) : Decidable (Keyed m) := by unfold Keyed; exact inferInstance
instance (x : Int) : Decidable (IsInt32 x) := by unfold IsInt32; exact inferInstance
instance (x : List Dir) : Decidable (DirOrdered x) := by unfold DirOrdered; exact inferInstance

/-- C19-C22: the material is ready for updateDirectory. -/
theorem exReady : Ready (exMat exOld) ⟨9228, 1, 451, exContent exOld⟩ exOld where
  keyed := by decide +kernel
  mat := by decide +kernel
  mf := by decide +kernel
  mt := by
    intro f hf
    have : f = ⟨9228, 1, [(451, ⟨9228, 1, 451, exContent exOld⟩), (452, exOther 1 452 3)]⟩ := by
      have : (exMat exOld).file 1 = .ok ⟨9228, 1, [(451, ⟨9228, 1, 451, exContent exOld⟩), (452, exOther 1 452 3)]⟩ := by decide +kernel
      exact Except.ok.inj (hf.symm.trans this)
    subst this
    decide +kernel
  ints := by decide +kernel
  size := by decide +kernel
  sec := by decide +kernel
  parses := by decide +kernel
  reps := by decide +kernel

example : exOld.data.desc ≠ [] := by decide +kernel

/-- C22: the old index is ordered. -/
theorem exOrdered : DirOrdered exOld.data.index := by decide +kernel

/-- The directory of a material, if it can be read. -/
def indexOf (m : TMaterial) : Option (List (Int × Int × Int × Int)) :=
  match m.section' 1 451 with
  | .ok s => (s.parse mf1mt451).toOption.map (fun x => x.data.index.map (fun e => (e.mf, e.mt, e.nc, e.mod)))
  | .error _ => none

/-- The descriptive lines of a material, if they can be read. -/
def descOf (m : TMaterial) : Option (List Text) :=
  match m.section' 1 451 with
  | .ok s => (s.parse mf1mt451).toOption.map (fun x => x.data.desc)
  | .error _ => none

/-- What the theorems say about this material. -/
example : indexOf (updateDirectory (exMat exOld) true).2 =
    some [(1, 451, 11, 1), (1, 452, 4, 0), (3, 1, 2, 4), (3, 2, 5, 0), (3, 102, 1, 3)] ∧ descOf (updateDirectory (exMat exOld) true).2 = some exDesc := by
  decide +kernel

/-! ### counterexamples -/

/-- A material without descriptive lines (NWD = 0). -/
def exNone : Sect Info451 := exInfo [] [⟨1, 451, 5, 0⟩]

/-- Counterexample to C20: without descriptive lines (NWD = 0) a blank one is added. -/
theorem C20_no_description :
    (exMat exNone).section' 1 451 = .ok ⟨9228, 1, 451, exContent exNone⟩ ∧ descOf (exMat exNone) = some [] ∧
    (updateDirectory (exMat exNone) false).1 = .ok () ∧ descOf (updateDirectory (exMat exNone) false).2 = some [blanks 66] := by decide +kernel

/-- Counterexample to C19: in that case the directory gives one line less for MT451 than it has. -/
theorem C19_no_description :
    ((updateDirectory (exMat exNone) false).2.section' 1 451).toOption.map TSection.nc = some 10 ∧
    (indexOf (updateDirectory (exMat exNone) false).2).map List.head? = some (some (1, 451, 9, 0)) := by decide +kernel

/-- Counterexample to C21: in that case a second call changes the material again. -/
theorem C21_no_description :
    (updateDirectory (exMat exNone) false).1 = .ok () ∧
    (updateDirectory (updateDirectory (exMat exNone) false).2 false).1 = .ok () ∧
    (updateDirectory (updateDirectory (exMat exNone) false).2 false).2 ≠ (updateDirectory (exMat exNone) false).2 := by decide +kernel

/-- A material with a section before MT451 in MF1. -/
def exEarly : TMaterial :=
  ⟨9228, [(1, ⟨9228, 1, [(450, exOther 1 450 2), (451, ⟨9228, 1, 451, exContent exOld⟩)]⟩)]⟩

/-- Counterexample to C19 if MT451 is not the first section: the entry of the first section is overwritten, MT451 is listed twice. -/
theorem C19_not_first :
    (updateDirectory exEarly false).1 = .ok () ∧ indexOf (updateDirectory exEarly false).2 = some [(1, 451, 8, 0), (1, 451, 10, 0)] := by decide +kernel

/-- Counterexample to C22 for an index that is not ordered: the MOD numbers of MT2 and MT102 are listed, but not found. -/
theorem C22_unordered :
    indexOf (updateDirectory (exMat (exInfo exDesc [⟨3, 102, 5, 3⟩, ⟨3, 2, 5, 6⟩, ⟨3, 1, 77, 4⟩])) true).2 =
      some [(1, 451, 11, 0), (1, 452, 4, 0), (3, 1, 2, 4), (3, 2, 5, 0), (3, 102, 1, 0)] := by decide +kernel

/-- C23: a material without MT451. -/
example : (exMat exOld).hasMFMT 1 451 = true ∧ ((exMat exOld).removeSection 1 451).hasMFMT 1 451 = false := by decide +kernel

/-- C23: a material whose MT451 announces no directory records (NXC = 0) can't be parsed. -/
example : (TSection.mk 9228 1 451 (exContent (exInfo exDesc []))).parse mf1mt451 = .error .exc := by decide +kernel

end ENDFtk.Props

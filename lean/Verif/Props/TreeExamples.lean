import Verif.Props.TreeReindex
import Verif.Props.TreeContent
import Verif.Props.RecordsExamples
/-
  Concrete cases that meet the hypotheses of the tree theorems, and the counterexamples to C08, C13, C17, with the concrete number
  format `concDisco`.
-/
set_option linter.unusedVariables false
namespace ENDFtk

/-! ### the layout predicates can be decided -/
section
variable [Disco]

instance (t : Nums) (l : Text) : Decidable (HasTail t l) := by unfold HasTail; exact inferInstance

instance decSome {α : Type} (o : Option α) : Decidable (∃ n, o = some n) :=
  match o with
  | some a => isTrue ⟨a, rfl⟩
  | none => isFalse (by simp)

instance (t : Nums) (l : Text) : Decidable (TextLine t l) := by unfold TextLine; exact inferInstance
instance (c : Cont) (l : Text) : Decidable (ShowsCont c l) := by unfold ShowsCont; exact inferInstance
instance (d : Division) (l : Text) : Decidable (DivLine d l) := by unfold DivLine; exact inferInstance
instance (c : Cont) : Decidable (ZeroCols c) := by unfold ZeroCols; exact inferInstance
instance (l : DLine) : Decidable l.IsHead := by unfold DLine.IsHead; exact inferInstance
instance (l : DLine) : Decidable l.IsSend := by unfold DLine.IsSend; exact inferInstance
instance (l : DLine) : Decidable l.IsFend := by unfold DLine.IsFend; exact inferInstance
instance (l : DLine) : Decidable l.IsMend := by unfold DLine.IsMend; exact inferInstance
instance (l : DLine) : Decidable l.IsTend := by unfold DLine.IsTend; exact inferInstance

/-- The numbers of a line, if readable. -/
def numsOf (l : Text) : Option Nums :=
  match parseInt (cols 67 70 l), parseInt (cols 71 72 l), parseInt (cols 73 75 l) with
  | some a, some b, some c => some ⟨a, b, c⟩
  | _, _, _ => none

theorem numsOf_iff {t : Nums} {l : Text} : HasTail t l ↔ numsOf l = some t := by
  unfold HasTail numsOf
  cases parseInt (cols 67 70 l) <;> cases parseInt (cols 71 72 l) <;> cases parseInt (cols 73 75 l) <;> simp
  obtain ⟨a, b, c⟩ := t
  simp

theorem exText_iff {P : Nums → Prop} {l : Text} :
    (∃ t, TextLine t l ∧ P t) ↔ '\n' ∉ l ∧ (∃ n, parseInt (cols 76 80 l) = some n) ∧ ∃ t, numsOf l = some t ∧ P t := by
  constructor
  · rintro ⟨t, ⟨h1, h2, h3⟩, h4⟩; exact ⟨h1, h3, t, numsOf_iff.mp h2, h4⟩
  · rintro ⟨h1, h3, t, h2, h4⟩; exact ⟨t, ⟨h1, numsOf_iff.mpr h2, h3⟩, h4⟩

instance decSomeP {α : Type} {P : α → Prop} [DecidablePred P] (o : Option α) : Decidable (∃ n, o = some n ∧ P n) :=
  match o with
  | some a => if h : P a then isTrue ⟨a, rfl, h⟩ else isFalse (by rintro ⟨n, e, h'⟩; cases e; exact h h')
  | none => isFalse (by simp)

instance {P : Nums → Prop} [DecidablePred P] (l : Text) : Decidable (∃ t, TextLine t l ∧ P t) := decidable_of_iff' _ exText_iff

instance (s : SecL) : Decidable s.Valid := by unfold SecL.Valid; exact inferInstance
instance (f : FileL) : Decidable f.Valid := by unfold FileL.Valid; exact inferInstance
instance (m : MatL) : Decidable m.Valid := by unfold MatL.Valid; exact inferInstance
instance {α : Type} (l : List α) : Decidable (l = []) := by cases l with
  | nil => exact isTrue rfl
  | cons a l => exact isFalse (by simp)
instance (m n : MatL) : Decidable (m.CanFollow n) := by unfold MatL.CanFollow; exact inferInstance
instance decChained : (l : List MatL) → Decidable (Chained l)
  | [] => isTrue trivial
  | [_] => isTrue trivial
  | m :: n :: l => by unfold Chained; have := decChained (n :: l); exact inferInstance
instance (t : TapeL) : Decidable t.Valid := by unfold TapeL.Valid; exact inferInstance

end

namespace Props
attribute [local instance] concDisco

/-! ### a tape -/

/-- A line: 66 columns of data, then the numbers and a sequence number. -/
def exLine (data : String) (t : Nums) (ns : Int := 0) : Text :=
  executeOrder66 data.toList ++ Conc.writeInt 4 t.mat ++ Conc.writeInt 2 t.mf ++ Conc.writeInt 3 t.mt ++ Conc.writeInt 5 ns

def exHead (mat mf mt : Int) : DLine :=
  ⟨exLine " 9.223500+4 2.330248+2          0          0          1          2" ⟨mat, mf, mt⟩ 1,
   ⟨⟨⟨9223500, -2⟩, ⟨2330248, -4⟩, 0, 0, 1, 2⟩, ⟨mat, mf, mt⟩⟩⟩

def exSend (mat mf : Int) : DLine := ⟨exLine "" ⟨mat, mf, 0⟩ 99999, ⟨zeroCont, ⟨mat, mf, 0⟩⟩⟩
/-- A FEND line without sequence number and written with zeros. -/
def exFend (mat : Int) : DLine :=
  ⟨exLine " 0.000000+0 0.000000+0          0          0          0          0" ⟨mat, 0, 0⟩, ⟨⟨nf ⟨0, 0⟩, nf ⟨0, 0⟩, 0, 0, 0, 0⟩, ⟨mat, 0, 0⟩⟩⟩
def exMend : DLine := ⟨exLine "" ⟨0, 0, 0⟩, ⟨zeroCont, ⟨0, 0, 0⟩⟩⟩
def exTend : DLine := ⟨exLine "" ⟨-1, 0, 0⟩, ⟨zeroCont, ⟨-1, 0, 0⟩⟩⟩

/-- A section with two lines of data. -/
def exSec (mat mf mt : Int) : SecL :=
  ⟨exHead mat mf mt, [exLine "some text" ⟨mat, mf, mt⟩ 2, exLine " 1.0       abc" ⟨mat, mf, mt⟩ 3], (exSend mat mf).text, []⟩

/-- Two materials with the same number and one with another, several files and sections, not in ascending order. -/
def exTape : TapeL :=
  ⟨exLine "this is a tape" ⟨1, 0, 0⟩, 1,
   [⟨⟨exSec 9228 1 451, [exSec 9228 1 452], [exFend 9228]⟩, [⟨exSec 9228 3 102, [exSec 9228 3 1, exSec 9228 3 2], [exFend 9228]⟩], [exMend]⟩,
    ⟨⟨exSec 125 3 1, [], [exFend 125]⟩, [], [exMend]⟩,
    ⟨⟨exSec 9228 4 2, [], [exFend 9228]⟩, [⟨exSec 9228 2 151, [], [exFend 9228]⟩], [exMend]⟩],
   exTend⟩

/-- C01, C02, C07: the layout is valid. -/
theorem exTape_valid : exTape.Valid := by decide +kernel

/-- and the tree can be looked at: the third material of the tape is the second one with MAT 9228. -/
example : ∃ t, TTape.ofBuffer (unlines exTape.lines) 0 = .ok t ∧ t.numberMAT 9228 = 2 ∧
    (t.material 9228).toOption.map (fun ms => ms.map TMaterial.fileNumbers) = some [[1, 3], [2, 4]] := by
  refine ⟨exTape.tree, ?_, ?_⟩
  · decide +kernel
  · decide +kernel

/-- C04: the same tape with repeated end records. -/
def exRepeated : TapeL :=
  { exTape with mats :=
   [⟨⟨{ exSec 9228 1 451 with extra := [exSend 9228 1, exSend 9228 1] }, [exSec 9228 1 452], [exFend 9228, exFend 9228]⟩,
     [⟨exSec 9228 3 102, [exSec 9228 3 1, exSec 9228 3 2], [exFend 9228]⟩], [exMend, exMend, exMend]⟩,
    ⟨⟨exSec 125 3 1, [], [exFend 125]⟩, [], [exMend]⟩,
    ⟨⟨exSec 9228 4 2, [], [exFend 9228]⟩, [⟨exSec 9228 2 151, [], [exFend 9228]⟩], [exMend]⟩] }

/-- Two lists related element by element: decidable. -/
def All2.dec {α β : Type} {R : α → β → Prop} (d : ∀ a b, Decidable (R a b)) : (l : List α) → (m : List β) → Decidable (All2 R l m)
  | [], [] => isTrue .nil
  | [], _ :: _ => isFalse (by intro h; cases h)
  | _ :: _, [] => isFalse (by intro h; cases h)
  | a :: l, b :: m =>
    match d a b, All2.dec d l m with
    | isTrue h, isTrue h' => isTrue (.cons h h')
    | isFalse h, _ => isFalse (by intro x; cases x; contradiction)
    | _, isFalse h => isFalse (by intro x; cases x; contradiction)

instance {α β : Type} {R : α → β → Prop} [d : ∀ a b, Decidable (R a b)] (l : List α) (m : List β) : Decidable (All2 R l m) := All2.dec d l m

theorem repeated_iff {R : DLine → Prop} {a b : List DLine} : Repeated R a b ↔ (a = [] ∧ b = []) ∨ (a ≠ [] ∧ b ≠ [] ∧ ∀ l ∈ b, R l) := by
  constructor
  · rintro (_ | ⟨h1, h2, h3⟩)
    · exact .inl ⟨rfl, rfl⟩
    · exact .inr ⟨h1, h2, h3⟩
  · rintro (⟨rfl, rfl⟩ | ⟨h1, h2, h3⟩)
    · exact .none
    · exact .some h1 h2 h3

instance {R : DLine → Prop} [DecidablePred R] (a b : List DLine) : Decidable (Repeated R a b) := decidable_of_iff' _ repeated_iff
instance : DecidableEq DLine := fun a b =>
  decidable_of_iff (a.text = b.text ∧ a.div = b.div) (by cases a; cases b; simp)
instance : DecidableEq SecL := fun a b =>
  decidable_of_iff (a.head = b.head ∧ a.body = b.body ∧ a.send = b.send ∧ a.extra = b.extra) (by cases a; cases b; simp)
instance (L L' : TapeL) : Decidable (RepeatedEnds L L') := by unfold RepeatedEnds; exact inferInstance
instance (L L' : TapeL) : Decidable (OmittedEnds L L') := by unfold OmittedEnds; exact inferInstance

example : exTape.Valid ∧ RepeatedEnds exTape exRepeated ∧ exRepeated.lines ≠ exTape.lines := by decide +kernel

/-- C05: the same tape without some FEND and MEND records. -/
def exOmitted : TapeL :=
  { exTape with mats :=
   [⟨⟨exSec 9228 1 451, [exSec 9228 1 452], []⟩, [⟨exSec 9228 3 102, [exSec 9228 3 1, exSec 9228 3 2], [exFend 9228]⟩], []⟩,
    ⟨⟨exSec 125 3 1, [], []⟩, [], [exMend]⟩,
    ⟨⟨exSec 9228 4 2, [], []⟩, [⟨exSec 9228 2 151, [], []⟩], []⟩] }

example : exTape.Valid ∧ OmittedEnds exTape exOmitted ∧ Chained exOmitted.mats ∧ exOmitted.lines ≠ exTape.lines := by decide +kernel

/-- C06: a material whose last file has no FEND yet, followed by a HEAD line with an MT of that file. -/
def exOpen : MatL := ⟨⟨exSec 9228 1 451, [], [exFend 9228]⟩, [⟨exSec 9228 3 102, [exSec 9228 3 1], []⟩], []⟩

example : exOpen.Valid ∧ Chained (exTape.mats ++ [exOpen]) ∧ exOpen.last.fends = [] ∧ exOpen.mends = [] ∧ (exHead 9228 3 102).IsHead ∧
    (exHead 9228 3 102).div.tail.mf = exOpen.last.mf ∧ (∃ S ∈ exOpen.last.secs, S.nums.mt = (exHead 9228 3 102).div.tail.mt) := by
  decide +kernel

/-- C06: the HEAD line has the MF of an earlier file of the material. -/
example : (exHead 9228 1 456).IsHead ∧ (exHead 9228 1 456).div.tail.mf ≠ exOpen.last.mf ∧ (exHead 9228 1 456).div.tail.mat = exOpen.mat ∧
    (∃ F ∈ exOpen.files, F.mf = (exHead 9228 1 456).div.tail.mf) := by decide +kernel

/-- C08: a buffer with consistent HEAD lines. -/
example : exTape.Valid ∧ ∀ M ∈ exTape.mats, ∀ F ∈ M.files, ∀ S ∈ F.secs, S.nums.mat = M.mat := by decide +kernel

/-- Counterexample to C08: the second section of the file has another MAT, and is found under the MAT of the file. -/
def exMixed : TapeL := ⟨exLine "this is a tape" ⟨1, 0, 0⟩, 1, [⟨⟨exSec 9228 3 1, [exSec 125 3 102], [exFend 9228]⟩, [], [exMend]⟩], exTend⟩

/-- Counterexample to C08: there is a buffer for which the section found under MAT 9228, MF 3, MT 102 reports MAT 125. -/
theorem C08_section_mat_differs : ∃ (b : Text) (t : TTape) (m : TMaterial) (s : TSection), TTape.ofBuffer b = .ok t ∧
    t.material 9228 = .ok [m] ∧ m.section' 3 102 = .ok s ∧ s.mat = 125 := by
  refine ⟨unlines exMixed.lines, exMixed.tree, _, _, ?_, rfl, rfl, ?_⟩
  · decide +kernel
  · decide +kernel

/-! ### modifications -/

def exTSec (mat mf mt : Int) : TSection := (exSec mat mf mt).tree

/-- C10, C11, C12: a history with successful and failing calls. -/
def exFile : TFile :=
  let f := TFile.empty 9228 3
  let f := (f.insert (exTSec 9228 3 102)).2
  let f := (f.insert (exTSec 9228 3 1)).2
  let f := (f.insert (exTSec 9228 3 1)).2
  let f := (f.insert (exTSec 125 3 2)).2
  let f := (f.insertOrReplace (exTSec 9228 3 16)).2
  f.remove 102

example : exFile.sectionNumbers = [1, 16] := by decide +kernel

/-- Counterexample to C13: inserting a section with another MAT fails, and leaves an empty file behind. -/
theorem C13_failed_insert_changes_material : ∃ (m : TMaterial) (s : TSection), (m.insertSection s).1 = .error .exc ∧
    m.hasMF 3 = false ∧ (m.insertSection s).2.hasMF 3 = true :=
  ⟨TMaterial.empty 9228, exTSec 125 3 1, by decide +kernel⟩

/-! ### clean -/

theorem exTSec_good (mat mf mt : Int) (h : (exSec mat mf mt).Valid) : GoodSection (exTSec mat mf mt) :=
  ⟨(exSec mat mf mt).head, (exSec mat mf mt).body, (exSec mat mf mt).send, rfl, h.1, rfl, h.2.1, h.2.2.1⟩

/-- C09: a tape built by insertions, with an empty file and an empty material. -/
def exBuilt : TTape :=
  let m := TMaterial.empty 9228
  let m := (m.insertSection (exTSec 9228 3 102)).2
  let m := (m.insertSection (exTSec 9228 1 451)).2
  let m := (m.insertFile (TFile.empty 9228 2)).2
  ((TTape.empty (Tpid.make "a new tape".toList 12)).insert m).insert (TMaterial.empty 125)

theorem exBuilt_good : GoodTape exBuilt := by
  have e := (C09_empty "a new tape".toList (by decide +kernel) 12 9228 (by decide)).1
  have m0 := (C09_empty "a new tape".toList (by decide +kernel) 12 9228 (by decide)).2
  have m125 := (C09_empty "a new tape".toList (by decide +kernel) 12 125 (by decide)).2
  have m1 := ((C09_material_ops _ m0).1 (exTSec 9228 3 102) (exTSec_good _ _ _ (by decide +kernel))).1
  have m2 := ((C09_material_ops _ m1).1 (exTSec 9228 1 451) (exTSec_good _ _ _ (by decide +kernel))).1
  have m3 := ((C09_material_ops _ m2).2.1 (TFile.empty 9228 2) (C09_empty_file _ _)).1
  exact ((C09_tape_ops _ ((C09_tape_ops _ e).1 _ m3).1).1 _ m125).1

example : prune exBuilt ≠ exBuilt := by decide +kernel

/-- C16: the section is ready to be cleaned, and cleaning changes it (sequence numbers). -/
theorem exConsistent : Consistent (exTSec 9228 3 102) ∧ (exTSec 9228 3 102).clean.2 ≠ exTSec 9228 3 102 := by
  refine ⟨⟨(exSec 9228 3 102).head.text :: (exSec 9228 3 102).body, (exSec 9228 3 102).send, ?_⟩, by decide +kernel⟩
  exact ⟨rfl, by simp, by decide +kernel, by decide +kernel, by decide +kernel, by decide +kernel, by decide +kernel⟩

/-- Counterexample to C17: the third line of the section carries another MT; `clean` throws and the section has lost that line and those after it. -/
theorem C17_lost_lines : ∃ s : TSection, s.clean.1 = .error .exc ∧ s.content.count '\n' = 4 ∧ s.clean.2.content.count '\n' = 1 :=
  ⟨⟨9228, 3, 102, unlines [(exHead 9228 3 102).text, exLine "data" ⟨9228, 3, 103⟩, exLine "data" ⟨9228, 3, 102⟩, exLine "" ⟨9228, 3, 0⟩]⟩,
   by decide +kernel⟩

end Props
end ENDFtk

def f(x): return f"{x:>11}"
def line(mat,mf,mt,*a): return ''.join(f(x) for x in a).ljust(66)+f"{mat:4d}{mf:2d}{mt:3d}     "
M=125
def mf3(mt,e,q): return [line(M,3,mt,1001,'0.9',0,0,0,0),line(M,3,mt,q,'-0.3',0,0,2,4),line(M,3,mt,2,5,4,2),
  line(M,3,mt,'12.5','0.1','20.4','7.7','20.4','8.2'),line(M,3,mt,e,'9.9'),line(M,3,0)]
mf2=[line(M,2,151,1001,'0.9',0,0,1,0),line(M,2,151,1001,1,0,0,1,0),line(M,2,151,'0.1','999.9',0,0,0,0),line(M,2,151,'0.5','1.2',0,0,0,0),line(M,2,0)]
mf32=[line(M,32,151,1001,'0.9',0,0,1,0),line(M,32,151,1001,'1',0,0,1,0),line(M,32,151,'0.1','999.9',2,1,0,0),
  line(M,32,151,'0.5','1.2',0,0,1,0),line(M,32,151,'0.9','0',0,0,6,1),line(M,32,151,'0.1','0.2','0.3','0.4','0.5','0.6'),line(M,32,151,'0','0',1,0,1,1),line(M,32,151,'0.7'),line(M,32,0)]
mf33=[line(M,33,102,1001,'0.9',0,0,0,1),line(M,33,102,0,0,0,1,0,1),line(M,33,102,0,0,1,5,6,3),line(M,33,102,'0.1','1.5','1000.7','0.3','0.2','0.1'),line(M,33,0)]
fend=[line(M,0,0)]; mend=[line(0,0,0)]; tend=[line(-1,0,0)]
tape=[ "a tape whose reals have digits to lose".ljust(66)+f"{7:4d}{0:2d}{0:3d}     "]+mf2+fend+mf3(1,'20.5','-0.1')+mf3(102,'99.3','3.3')+fend+mf32+fend+mf33+fend+mend+tend
def T(ls): return "(txt\n"+'\n'.join('    "'+l+'\\n"' for l in ls)+")"
out='''import Verif.Props.Rewrite
import Verif.Rounded.Instance
import Verif.Txt
/-
  C67, concrete sections and a tape with reals that lose digits when they are written (with the instance `tenths`: the reals are tenths and are written as
  integers).  They meet the hypotheses of the theorems in Props/Rewrite.lean but not those of C41 and C46.
-/
set_option linter.unusedVariables false
set_option maxRecDepth 100000
namespace ENDFtk.Props.RewriteExamples

instance [Disco] (i : Int) (x : ResParams) : Decidable (x.lfwOk i) := by cases x <;> unfold ResParams.lfwOk <;> exact inferInstance
instance [Disco] (T : SectionType) (x : T.Data) : Decidable (T.WholeSmall x) := by cases T <;> unfold SectionType.WholeSmall <;> exact inferInstance
instance [Disco] [CorrOps] (x : AnySection) : Decidable x.Small := by
  obtain ⟨T, x⟩ := x
  cases T with
  | std T => unfold AnySection.Small SecType.WholeSmall; exact inferInstance
  | cov => unfold AnySection.Small SecType.WholeSmall; exact inferInstance
instance [Disco] [CorrOps] (f : PFile) : Decidable f.Small := by unfold PFile.Small; exact inferInstance
instance [Disco] [CorrOps] (m : PMaterial) : Decidable m.Small := by unfold PMaterial.Small; exact inferInstance
instance [Disco] [CorrOps] (t : PTape) : Decidable t.Small := by unfold PTape.Small; exact inferInstance

attribute [local instance] tenths tenthsRounding tenthsCorr

instance rewriteDecMatrix (m : CorrMatrix) : Decidable (ENDFtk.Faithful m) := by unfold ENDFtk.Faithful CorrMatrix.Printable; exact inferInstance
instance rewriteDecFaithful (x : AnySection) : Decidable x.Faithful := by
  obtain ⟨T, x⟩ := x
  cases T with
  | std T => cases T <;> unfold AnySection.Faithful <;> exact inferInstance
  | cov => unfold AnySection.Faithful; exact inferInstance
instance {α : Type} : (l : List α) → Decidable (l ≠ [])
  | [] => isFalse (fun h => h rfl)
  | _ :: _ => isTrue (by simp)

/-- The text is read as a section with the reals of `x`, rounded, and not the same; and it is printed as the same text. -/
def Same (T : SectionType) (mat : Int) (u : Text) (x : Sect T.Data) : Prop :=
  match T.defn.parse ⟨u, 0⟩ with
  | .ok (y, _) => T.defn.print y mat T.defn.mf = .ok u ∧ T.defn.realsSect y ≠ T.defn.realsSect x ∧ T.defn.realsSect y = (T.defn.realsSect x).map rnd
  | .error _ => False

instance (T : SectionType) (mat : Int) (u : Text) (x : Sect T.Data) : Decidable (Same T mat u x) := by
  unfold Same; split <;> exact inferInstance

/-- Reading and printing the text changes it: digits are lost; reading and printing the new text does not change it. -/
def SettlesAfterOnce (T : SectionType) (mat : Int) (s u : Text) : Prop :=
  match T.defn.parse ⟨s, 0⟩ with
  | .ok (x, _) => T.defn.print x mat T.defn.mf = .ok u ∧ s ≠ u ∧ ¬ Reps (T.defn.realsSect x) ∧ SevenDigits x.za ∧ T.WholeSmall x.data ∧
      Same T mat u x
  | .error _ => False

instance (T : SectionType) (mat : Int) (s u : Text) : Decidable (SettlesAfterOnce T mat s u) := by
  unfold SettlesAfterOnce; split <;> exact inferInstance

'''
import math
def rw(ls):
    # rounded away from zero, real columns = those with a point in this text (all others unchanged)
    r=[]
    for l in ls:
        h=l[:66]; o=''
        for i in range(6):
            c=h[11*i:11*i+11].strip()
            if '.' in c:
                v=float(c); v=math.ceil(abs(v))*(1 if v>0 else -1); o+=f(v)
            else: o+=h[11*i:11*i+11]
        r.append(o+l[66:])
    return r
def end(ls): return ls
out+=f'theorem rewrite_mf3 : SettlesAfterOnce .mf3 125 {T(mf3(102,"20.5","-0.1"))} {T(rw(mf3(102,"20.5","-0.1")))} := by decide +kernel\n\n'
out+=f'theorem rewrite_mf33 : SettlesAfterOnce .mf33 125 {T(mf33)} {T(rw(mf33))} := by decide +kernel\n\n'
out+='''/-- The tape meets the hypotheses of `C67_read_tape`, but not `Rep`, the hypothesis of C46. -/
def TapeSettles (mats : List (Int × List Int)) (s : Text) : Prop :=
  match PTape.read ⟨s, 0⟩ with
  | .ok (t, _) => t.materials.map (fun m => (m.mat, m.files.keys)) = mats ∧ t.materials.length < 2147483648 ∧
      (∀ m ∈ t.materials, m.files ≠ [] ∧ ∀ f ∈ m.files', f.sections ≠ [] ∧ ∀ x ∈ f.sections', x.Faithful) ∧ t.Small ∧
      (∀ m ∈ t.materials, ∀ f ∈ m.files', ∀ x ∈ f.sections', ¬ Reps (x.1.defn.realsSect x.2)) ∧ t.print ≠ .ok s
  | .error _ => False

instance (a b : Except Err Text) : Decidable (a ≠ b) := by unfold Ne; exact inferInstance
instance (mats : List (Int × List Int)) (s : Text) : Decidable (TapeSettles mats s) := by
  unfold TapeSettles; split <;> exact inferInstance

'''
out+=f'def rewriteTape : Text := {T(tape)}\n\ntheorem rewrite_tape : TapeSettles [(125, [2, 3, 32, 33])] rewriteTape := by decide +kernel\n\n'
out+='''/-- Hence `C67_read_tape` applies to it. -/
example : ∃ (s : Text) (t : PTape) (s' : St), PTape.read ⟨s, 0⟩ = .ok (t, s') ∧ t.materials ≠ [] ∧
    ∃ (u : Text) (v : PTape), t.print = .ok u ∧ u ≠ s ∧ (∀ r n, ∃ k, PTape.read ⟨u ++ r, n⟩ = .ok (v, ⟨r, k⟩)) ∧ v.print = .ok u ∧ t.RoundsTo v := by
  refine ⟨rewriteTape, ?_⟩
  have h := rewrite_tape
  unfold TapeSettles at h
  split at h
  · rename_i t s' e
    obtain ⟨h1, h2, h3, h4, _, h6⟩ := h
    obtain ⟨u, v, e1, e2, e3, e4⟩ := C67_read_tape e h2 h3 h4
    exact ⟨t, s', e, by rintro hm; rw [hm] at h1; simp at h1, u, v, e1, by rintro rfl; exact h6 e1, e2, e3, e4⟩
  · exact h.elim

end ENDFtk.Props.RewriteExamples
'''
open('Props/RewriteExamples.lean','w').write(out)

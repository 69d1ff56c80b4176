import re
R='/repo/src/ENDFtk/'
def fn(path,name):
    s=open(R+path).read()
    i=s.index('std::string %s() {'%name)
    j=s.index('\n}',i)
    return [m for m in re.findall(r'"((?:[^"\\]|\\.)*)"',s[i:j])]
def lean(ls): return 'txt\n'+'\n'.join('    "%s"'%l for l in ls)
out=open('/verif/lean/Verif/Props/ParsedExamples.lean','w')
out.write('''import Verif.Props.Parsed
import Verif.Props.SectionExamples
import Verif.Props.ResCovExamples
/-
  Concrete files, a material and a tape: texts of the unit tests in /repo/src/ENDFtk/{file,Material,Tape}/**/test.  They meet the hypotheses of the theorems in
  Verif/Props/Parsed.lean, are completely consumed and printed as the same text.  (Generated from the test files.)
-/
set_option linter.unusedVariables false
set_option maxRecDepth 100000
namespace ENDFtk.Props
attribute [local instance] concDisco concCorr

instance (i : Int) (x : ResParams) : Decidable (x.lfwOk i) := by cases x <;> unfold ResParams.lfwOk <;> exact inferInstance
instance (x : AnySection) : Decidable x.Faithful := by
  obtain ⟨T, x⟩ := x
  cases T with
  | std T => cases T <;> unfold AnySection.Faithful <;> exact inferInstance
  | cov => unfold AnySection.Faithful; exact inferInstance
instance (x : AnySection) : Decidable x.Rep := by unfold AnySection.Rep; exact inferInstance
instance (f : PFile) : Decidable f.Rep := by unfold PFile.Rep; exact inferInstance
instance (m : PMaterial) : Decidable m.Rep := by unfold PMaterial.Rep; exact inferInstance
instance (t : PTape) : Decidable t.Rep := by unfold PTape.Rep; exact inferInstance
instance {α : Type} : (l : List α) → Decidable (l ≠ [])
  | [] => isFalse (fun h => h rfl)
  | _ :: _ => isTrue (by simp)

/-- Read as a file with these MT numbers and completely consumed; meets the hypotheses of `C46_read_file_round_trip`; printed as the same text. -/
def FileRoundTrips (mf mat : Int) (mts : List Int) (s : Text) : Prop :=
  match readFileFrom mf ⟨s, 0⟩ with
  | .ok (f, st) => st.rest = [] ∧ f.sections.keys = mts ∧ (∀ x ∈ f.sections', x.Faithful) ∧ f.Rep ∧ f.print mat = .ok s
  | .error _ => False

instance (mf mat : Int) (mts : List Int) (s : Text) : Decidable (FileRoundTrips mf mat mts s) := by
  unfold FileRoundTrips; split <;> exact inferInstance

/-- Rejected with `std::exception`. -/
def FileRejected (mf : Int) (s : Text) : Prop :=
  match readFileFrom mf ⟨s, 0⟩ with
  | .ok _ => False
  | .error e => e.isStd = true

instance (mf : Int) (s : Text) : Decidable (FileRejected mf s) := by
  unfold FileRejected; split <;> exact inferInstance

/-- Meets the hypotheses of `C46_read_tape_round_trip_partial`, and the materials those of `C46_read_material_round_trip_partial`. -/
def TapeRoundTrips (mats : List (Int × List Int)) (s : Text) : Prop :=
  match PTape.read ⟨s, 0⟩ with
  | .ok (t, st) => st.rest = [] ∧ t.materials.map (fun m => (m.mat, m.files.keys)) = mats ∧ t.materials.length < 2147483648 ∧
      (∀ m ∈ t.materials, m.files ≠ [] ∧ ∀ f ∈ m.files', f.sections ≠ [] ∧ ∀ x ∈ f.sections', x.Faithful) ∧ t.Rep ∧ t.print = .ok s
  | .error _ => False

instance (mats : List (Int × List Int)) (s : Text) : Decidable (TapeRoundTrips mats s) := by
  unfold TapeRoundTrips; split <;> exact inferInstance

''')
def ex(name,prop,ls):
    out.write('theorem %s : %s (%s) := by decide +kernel\n\n'%(name,prop,lean(ls)))
F=lambda p:fn(p,'validFEND')
c=fn('Tape/test/Tape.test.cpp','chunk')
import collections
cnt=collections.Counter((l[70:72],l[72:75]) for l in c)
print(cnt)
keep=[]
for l in c:
    k=(l[70:72],l[72:75])
    big=cnt[k]>60 and not k[0]==' 1'
    keep.append((big,l))
# drop big sections with their SEND
res=[];skip=False
for b,l in keep:
    if b: skip=True; continue
    if skip and l[72:75]=='  0' and l[70:72]!=' 0': skip=False; continue
    skip=False
    if res and l[66:75]==res[-1][66:75] and l[70:75]==' 0  0': continue
    res.append(l)
# shorten the description to 3 lines: NWD
i=[k for k,l in enumerate(res) if l[70:75]==' 1451'][3]
nwd=int(res[i][44:55]); res[i]=res[i][:44]+'%11d'%3+res[i][55:]
del res[i+4:i+1+nwd]
# a second material, with another number
body=res[1:-1]
def renum(l,m):
    return l if l[66:70]=='   0' else l[:66]+'%4d'%m+l[70:]
res=[res[0]]+body+[renum(l,9) for l in body if True]+[res[-1]]
print(len(res),sorted(set(l[70:75] for l in res)))
ex('tape_chunk','TapeRoundTrips [(131, [1, 2, 3]), (9, [1, 2, 3])]',res)
c=fn('file/Type/test/Type.test.cpp','chunk'); p='file/Type/test/Type.test.cpp'
ex('file3_chunk','FileRoundTrips 3 125 [1, 2, 102]',c+fn(p,'validFEND'))
for e in ('SEND','MEND','TEND'): ex('file3_'+e,'FileRejected 3',c+fn(p,'valid'+e))
# duplicate section
i=[k for k,l in enumerate(c) if l[72:75]=='  0'][0]
ex('file3_duplicate','FileRejected 3',c[:i+1]+c[:i+1]+fn(p,'validFEND'))
p='file/8/test/8.test.cpp'; c=fn(p,'chunk457')
ex('file8_chunk457','FileRoundTrips 8 %d [457]'%int(c[0][66:70]),c+fn(p,'validFEND'))
for e in ('SEND','MEND','TEND','HEAD'): ex('file8_'+e,'FileRejected 8',c+fn(p,'valid'+e))
p='file/1/test/1.test.cpp'; c=fn(p,'chunk451')
ex('file1_chunk451','FileRoundTrips 1 %d [451]'%int(c[0][66:70]),c+fn(p,'validFEND'))
for e in ('SEND','MEND','TEND','HEAD'): ex('file1_'+e,'FileRejected 1',c+fn(p,'valid'+e))
p='file/7/test/7.test.cpp'; c=fn(p,'chunk24')
ex('file7_chunk24','FileRoundTrips 7 %d [2, 4]'%int(c[0][66:70]),c+fn(p,'validFEND'))
c=[l[l.index('"')+1:l.rindex('"')] for l in open('/verif/lean/Verif/Props/ResCovExamples.lean').read().split('theorem CompactReichMoore_section')[1].split(':= by')[0].split('\n') if '"' in l]
fe=[fn('file/Type/test/Type.test.cpp','validFEND')[0]]
fe=[fe[0][:66]+'9222'+fe[0][70:]]
ex('file32_chunk','FileRoundTrips 32 9222 [151]',c+fe)
ex('file32_wrong_mt','FileRejected 32',[l.replace('922232151','922232152') for l in c]+fe)
out.write('''/-- Read as a material, printed, and the printed text is rejected. -/
def PrintedUnreadable (s : Text) : Prop :=
  match readMaterialFrom ⟨s, 0⟩ with
  | .ok (m, st) => st.rest = [] ∧ match m.print with
    | .ok p => match readMaterialFrom ⟨p, 0⟩ with
      | .ok _ => False
      | .error e => e.isStd = true
    | .error _ => False
  | .error _ => False

instance (s : Text) : Decidable (PrintedUnreadable s) := by
  unfold PrintedUnreadable
  split
  · refine @instDecidableAnd _ _ inferInstance ?_
    split
    · split <;> exact inferInstance
    · exact inferInstance
  · exact inferInstance

/-- A material with a file 8 that begins with MT 102 (which is skipped): it can be read, but what it is printed as cannot. -/
''')
c=fn('file/Type/test/Type.test.cpp','chunk'); p='file/Type/test/Type.test.cpp'
i=[k for k,l in enumerate(c) if l[72:75]=='  0'][0]
f8=[' 1.001000+3 9.991673-1          0          0          1          0 125 8102     \\n',' 1.002000+3 0.000000+0          3          0          0          0 125 8102     \\n',
 '                                                                   125 8  0     \\n']
ex('C46_skipped_file8','PrintedUnreadable',c[:i+1]+fn(p,'validFEND')+f8+fn(p,'validFEND')+fn(p,'validMEND'))
out.write('end ENDFtk.Props\n')

import Verif.Rounded.Base
import Verif.Parsed.Spec
/-
  Specification for C67: which integers must have at most seven digits, and when an object is the same as another one up to rounding.
  (`Rounding`, `rnd` and `SevenDigits` are in Rounded/Base.lean.)
-/
set_option linter.unusedVariables false
set_option linter.unusedSectionVars false
namespace ENDFtk
variable [Disco]

namespace SectionType

/-- The integers that the section keeps as such, but writes as reals, have at most seven digits: ZAI in 2/151, XMF1 and XLFS1 in files 31, 33, 40. -/
def WholeSmall : (T : SectionType) → T.Data → Prop
  | .mf2mt151 => fun b => ∀ x ∈ b, SevenDigits x.zai
  | .mf31 => fun b => ∀ x ∈ b, SevenDigits x.xmf1 ∧ SevenDigits x.xlfs1
  | .mf33 => fun b => ∀ x ∈ b.2, SevenDigits x.xmf1 ∧ SevenDigits x.xlfs1
  | .mf40 => fun b => ∀ l ∈ b.2, ∀ x ∈ l.reactions, SevenDigits x.xmf1 ∧ SevenDigits x.xlfs1
  | _ => fun _ => True

end SectionType

variable [CorrOps] [Rounding]

namespace SecType

/-- The integers that are written as reals have at most seven digits. -/
def WholeSmall : (T : SecType) → T.Data → Prop
  | .std T => T.WholeSmall
  | .cov => fun _ => True

end SecType

namespace AnySection

/-- ZA and the other integers that are written as reals have at most seven digits. -/
def Small (x : AnySection) : Prop := SevenDigits x.2.za ∧ x.1.WholeSmall x.2.data

/-- The same section up to rounding: same type, ZA and MT, the same reals rounded. -/
def RoundsTo (x y : AnySection) : Prop :=
  y.1 = x.1 ∧ y.2.za = x.2.za ∧ y.mt = x.mt ∧ y.1.defn.realsSect y.2 = (x.1.defn.realsSect x.2).map ENDFtk.rnd

end AnySection

namespace PFile

def Small (f : PFile) : Prop := ∀ x ∈ f.sections', x.Small
/-- The same file up to rounding. -/
def RoundsTo (f g : PFile) : Prop := g.mf = f.mf ∧ All2 AnySection.RoundsTo f.sections' g.sections'

end PFile

namespace PMaterial

def Small (m : PMaterial) : Prop := ∀ f ∈ m.files', f.Small
/-- The same material up to rounding. -/
def RoundsTo (m n : PMaterial) : Prop := n.mat = m.mat ∧ All2 PFile.RoundsTo m.files' n.files'

end PMaterial

namespace PTape

def Small (t : PTape) : Prop := ∀ m ∈ t.materials, m.Small
/-- The same tape up to rounding, and apart from the tape number. -/
def RoundsTo (t u : PTape) : Prop := u.id.text = t.id.text ∧ All2 PMaterial.RoundsTo t.materials u.materials

end PTape
end ENDFtk

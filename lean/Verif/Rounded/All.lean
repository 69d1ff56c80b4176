import Verif.Rounded.Spec
import Verif.Rounded.Low
import Verif.Rounded.Mid
import Verif.Rounded.High
/-
  Rounded sections, for all section types.
-/
set_option linter.unusedVariables false
set_option linter.unusedSectionVars false
set_option linter.unusedSimpArgs false
namespace ENDFtk
variable [Disco] [Rounding]

namespace SectionType

/-- The data with each real rounded to what 11 columns can hold. -/
def rounded : (T : SectionType) → T.Data → T.Data
  | .mf1mt451 => Info451.rnd
  | .mf1mt452 => Nubar.rnd
  | .mf1mt455 => Delayed.rnd
  | .mf1mt456 => Nubar.rnd
  | .mf1mt458 => Release.rnd
  | .mf1mt460 => Photons.rnd
  | .mf2mt151 => List.map Isotope.rnd
  | .mf2mt152 => Dilution.rnd
  | .mf3 => TAB1.rnd
  | .mf4 => MF4Data.rnd
  | .mf5 => List.map Partial5.rnd
  | .mf6 => MF6Data.rnd
  | .mf7mt2 => Elastic.rnd
  | .mf7mt4 => ScatteringData.rnd
  | .mf7mt451 => List.map LIST.rnd
  | .mf8mt454 => List.map LIST.rnd
  | .mf8mt457 => DecayData.rnd
  | .mf8mt459 => List.map LIST.rnd
  | .mf9 => Products.rnd
  | .mf10 => Products.rnd
  | .mf12 => PhotonProduction.rnd
  | .mf13 => TotalPartials.rnd
  | .mf14 => MF14Data.rnd
  | .mf15 => List.map Partial15.rnd
  | .mf23 => TAB1.rnd
  | .mf26 => List.map Product26.rnd
  | .mf27 => TAB1.rnd
  | .mf28 => List.map LIST.rnd
  | .mf31 => List.map ReactionBlock.rnd
  | .mf33 => fun b => (b.1, b.2.map ReactionBlock.rnd)
  | .mf34 => fun b => (b.1, b.2.map ReactionBlock34.rnd)
  | .mf35 => List.map LIST.rnd
  | .mf40 => fun b => (b.1, b.2.map LevelBlock.rnd)

theorem rounds : (T : SectionType) → T.defn.Rounds T.rounded T.WholeSmall
  | .mf1mt451 => mf1mt451_rounds
  | .mf1mt452 => mf1nubar_rounds 452
  | .mf1mt455 => mf1mt455_rounds
  | .mf1mt456 => mf1nubar_rounds 456
  | .mf1mt458 => mf1mt458_rounds
  | .mf1mt460 => mf1mt460_rounds
  | .mf2mt151 => mf2mt151_rounds
  | .mf2mt152 => mf2mt152_rounds
  | .mf3 => mf3_rounds
  | .mf4 => mf4_rounds
  | .mf5 => mf5_rounds
  | .mf6 => mf6_rounds
  | .mf7mt2 => mf7mt2_rounds
  | .mf7mt4 => mf7mt4_rounds
  | .mf7mt451 => mf7mt451_rounds
  | .mf8mt454 => mf8yields_rounds 454
  | .mf8mt457 => mf8mt457_rounds
  | .mf8mt459 => mf8yields_rounds 459
  | .mf9 => mfProducts_rounds 9
  | .mf10 => mfProducts_rounds 10
  | .mf12 => mf12_rounds
  | .mf13 => mf13_rounds
  | .mf14 => mf14_rounds
  | .mf15 => mf15_rounds
  | .mf23 => mf23_rounds
  | .mf26 => mf26_rounds
  | .mf27 => mf27_rounds
  | .mf28 => mf28_rounds
  | .mf31 => mf31_rounds
  | .mf33 => mf33_rounds
  | .mf34 => mf34_rounds
  | .mf35 => mf35_rounds
  | .mf40 => mf40_rounds

end SectionType


/-! ### sections -/

/-- The section with each real rounded. -/
def Sect.rnd {β : Type} (m : β → β) (x : Sect β) : Sect β := ⟨x.za, ENDFtk.rnd x.awr, x.mt, m x.data⟩

namespace SecDef.Rounds
variable {β : Type} {D : SecDef β} {m : β → β} {P : β → Prop} {x : Sect β}

theorem validSect (hD : D.Rounds m P) (h : D.ValidSect x) : D.ValidSect (x.rnd m) := by
  obtain ⟨⟨h1, h2, h3, h4, h5, h6⟩, h7⟩ := h
  refine ⟨⟨h1, h2, ?_, h4, h5, hD.valid h6⟩, hD.mtOk _ _ h7⟩
  have := Rounding.lt h3
  rwa [Rounding.zero] at this

theorem print (hD : D.Rounds m P) (h : SevenDigits x.za) (mat mf : Int) : D.print (x.rnd m) mat mf = D.print x mat mf := by
  have e : D.lines (x.rnd m) mat mf = D.lines x mat mf := by
    unfold SecDef.lines
    rw [show D.body (x.rnd m).awr (x.rnd m).data = D.body (ENDFtk.rnd x.awr) (m x.data) from rfl, hD.body]
    have : D.headCont (x.rnd m) = (D.headCont x).rnd := by
      unfold SecDef.headCont Cont.rnd
      rw [show (x.rnd m).data = m x.data from rfl, hD.head, rnd_ofInt h]
      rfl
    rw [this, printCont_rnd]
    rfl
  unfold SecDef.print
  rw [e]

theorem realsSect (hD : D.Rounds m P) (h : SevenDigits x.za) (hp : P x.data) : D.realsSect (x.rnd m) = (D.realsSect x).map ENDFtk.rnd := by
  unfold SecDef.realsSect
  rw [List.map_cons, List.map_cons, rnd_ofInt h, show (x.rnd m).data = m x.data from rfl, hD.reals hp]
  rfl

theorem reps (hD : D.Rounds m P) (h : SevenDigits x.za) (hp : P x.data) : Reps (D.realsSect (x.rnd m)) := by
  rw [hD.realsSect h hp]; exact reps_rnd _

end SecDef.Rounds
end ENDFtk

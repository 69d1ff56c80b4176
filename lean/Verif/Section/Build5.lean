import Verif.Section.Build
import Verif.Section.MF2
/-
  The public constructors from data, part 5: the resonance parameters, section 151 of file 2.
-/
set_option linter.unusedVariables false
set_option linter.unusedSectionVars false
set_option linter.unusedSimpArgs false
namespace ENDFtk
variable [Disco]
namespace Make

/-! ### resolved resonances, LRF = 1, 2, 3 -/

/-- section/2/151/BreitWignerReichMooreBase/src/ctor.hpp 18-23, verifySize.hpp 1-11 -/
def breitWignerBase (spi ap : Dbl) (lad : Bool) (nlsc : Int) (lvalues : List LIST) : Except Err (BwHeader × Unit × List LIST) :=
  if 1 ≤ asInt lvalues.length then .ok (⟨spi, ap, lad, nlsc⟩, (), lvalues) else .error .exc

/-- section/2/151/SingleLevelBreitWigner/src/ctor.hpp 16-20: LAD and NLSC are 0 -/
def singleLevel (spi ap : Dbl) (lvalues : List LIST) : Except Err ResParams := (breitWignerBase spi ap false 0 lvalues).map .slbw
/-- section/2/151/MultiLevelBreitWigner/src/ctor.hpp 16-20 -/
def multiLevel (spi ap : Dbl) (lvalues : List LIST) : Except Err ResParams := (breitWignerBase spi ap false 0 lvalues).map .mlbw
/-- section/2/151/ReichMoore/src/ctor.hpp 18-24, verifyNLSC.hpp 1-12 -/
def reichMoore (spi ap : Dbl) (lad : Bool) (nlsc : Int) (lvalues : List LIST) : Except Err ResParams :=
  (breitWignerBase spi ap lad nlsc lvalues).bind fun b => if asInt lvalues.length ≤ nlsc then .ok (.reichMoore b) else .error .exc

/-! ### unresolved resonances -/

/-- section/2/151/UnresolvedEnergyIndependent/src/ctor.hpp 17-19, UnresolvedBase/src/ctor.hpp 17-20, UnresolvedBaseWithoutSpin/src/ctor.hpp 14-20, verifySize.hpp 1-11 -/
def unresolvedA (spi ap : Dbl) (lssf : Bool) (lvalues : List LIST) : Except Err ResParams :=
  if 1 ≤ asInt lvalues.length then .ok (.caseA (⟨spi, ap, lssf⟩, (), lvalues)) else .error .exc

/-- section/2/151/UnresolvedEnergyDependent/LValue/src/ctor.hpp 9-10, UnresolvedLValueBase/src/ctor.hpp 9-13, verifySize.hpp 1-11 -/
def lvalueC (awri : Dbl) (l : Int) (jvalues : List LIST) : Except Err LValueC :=
  if 1 ≤ asInt jvalues.length then .ok (⟨awri, l⟩, (), jvalues) else .error .exc

/-- section/2/151/UnresolvedEnergyDependent/src/ctor.hpp 17-19, UnresolvedBase/src/ctor.hpp 17-20, UnresolvedBaseWithoutSpin/src/ctor.hpp 14-20 -/
def unresolvedC (spi ap : Dbl) (lssf : Bool) (lvalues : List LValueC) : Except Err ResParams :=
  if 1 ≤ asInt lvalues.length then .ok (.caseC (⟨spi, ap, lssf⟩, (), lvalues)) else .error .exc

/-- section/2/151/UnresolvedEnergyDependentFissionWidths/LValue/src/ctor.hpp 9-13, verifySize.hpp 1-16 (for all j values the number of energies of the first one),
    UnresolvedLValueBase/src/ctor.hpp 9-13 -/
def lvalueB (awri : Dbl) (l : Int) (jvalues : List LIST) : Except Err LValueC :=
  if 1 ≤ asInt jvalues.length then
    if ∀ j ∈ jvalues, some (jvalueBNE j) = (jvalues.head?).map jvalueBNE then .ok (⟨awri, l⟩, (), jvalues) else .error .exc
  else .error .exc

/-- section/2/151/UnresolvedEnergyDependentFissionWidths/src/ctor.hpp 5-11, 31-39, verifySize.hpp 1-14, UnresolvedBaseWithoutSpin/src/ctor.hpp 14-20 -/
def unresolvedB (spi ap : Dbl) (lssf : Bool) (energies : List Dbl) (lvalues : List LValueC) : Except Err ResParams :=
  if 1 ≤ asInt lvalues.length then
    if ∀ l ∈ lvalues, toUInt32 (energies.length : Int) = lvalueBNE l then .ok (.caseB (⟨spi, ap, ofBool lssf, 0, lvalues.length, energies⟩, lvalues)) else .error .exc
  else .error .exc

/-! ### resolved resonances, LRF = 7 -/

/-- section/2/151/RMatrixLimited/NoBackgroundRMatrix/src/ctor.hpp 14 -/
def noBackground (index : Int) : Int × Background := (index, .none)
/-- section/2/151/RMatrixLimited/SammyBackgroundRMatrix/src/ctor.hpp 32-35 -/
def sammyBackground (index : Int) (ed eu r0 r1 r2 s0 s1 : Dbl) : Int × Background := (index, .sammy ed eu [r0, r1, r2, s0, s1])
/-- section/2/151/RMatrixLimited/FrohnerBackgroundRMatrix/src/ctor.hpp 30-32 -/
def frohnerBackground (index : Int) (ed eu r0 s0 ga : Dbl) : Int × Background := (index, .frohner ed eu [r0, s0, ga])
/-- section/2/151/RMatrixLimited/TabulatedBackgroundRMatrix/src/ctor.hpp 6-14, 36-55, verify.hpp 1-40 (the numbers of points and of interpolation regions are the same,
    so that only differences that are reported are left) -/
def tabulatedBackground (index : Int) (bounds ints : List Int) (energies re im : List Dbl) : Except Err (Int × Background) :=
  (TAB1.make Disco.zero Disco.zero 0 0 bounds ints energies re).bind fun x =>
  (TAB1.make Disco.zero Disco.zero 0 0 bounds ints energies im).bind fun y =>
    if tabulatedOk (x, y) then .ok (index, .tabulated x y) else .error .exc

/-- A background R-matrix with its channel index, made by one of these constructors. -/
inductive BackgroundBuilt : Int × Background → Prop
  | none (index : Int) : BackgroundBuilt (noBackground index)
  | sammy (index : Int) (ed eu r0 r1 r2 s0 s1 : Dbl) : BackgroundBuilt (sammyBackground index ed eu r0 r1 r2 s0 s1)
  | frohner (index : Int) (ed eu r0 s0 ga : Dbl) : BackgroundBuilt (frohnerBackground index ed eu r0 s0 ga)
  | tabulated {index : Int} {bounds ints : List Int} {energies re im : List Dbl} {x : Int × Background}
      (h : tabulatedBackground index bounds ints energies re im = .ok x) : BackgroundBuilt x

/-- The loop of section/2/151/RMatrixLimited/BackgroundChannels/src/makeBackgroundMatrices.hpp 8-28: LCH is converted to `unsigned int`; an index that is out of range
    or used before is an error -/
def placeBackgrounds : List (Option Background) → List (Int × Background) → Except Err (List (Option Background))
  | bs, [] => .ok bs
  | bs, x :: xs =>
    let lch := toUInt32 x.1
    if lch ≤ 0 ∨ (bs.length : Int) < lch then .error .exc
    else match bs[(lch - 1).toNat]? with
      | some (some _) => .error .exc
      | _ => placeBackgrounds (bs.set (lch - 1).toNat (some x.2)) xs

/-- section/2/151/RMatrixLimited/BackgroundChannels/src/ctor.hpp 20-24, makeBackgroundMatrices.hpp 1-31 (the index in an element is its position plus one: if there are
    fewer than 2^31 channels) -/
def backgroundChannels (nch : Nat) (channels : List (Int × Background)) : Except Err (List (Option Background)) :=
  placeBackgrounds (List.replicate nch none) channels

/-- section/2/151/RMatrixLimited/SpinGroup/src/ctor.hpp 8-16, verify.hpp 1-20 (all four numbers are converted to `int`) -/
def spinGroup (channels parameters : LIST) (background : List (Option Background)) : Except Err SpinGroup :=
  if toInt32 channels.l1 ≠ asInt (countPresent background) then .error .exc
  else if channelsNCH channels ≠ asInt background.length then .error .exc
  else .ok ((channels, parameters), background)

/-- section/2/151/RMatrixLimited/SpinGroup/src/ctor.hpp 24-27: no background R-matrices -/
def spinGroupShort (channels parameters : LIST) : Except Err SpinGroup :=
  spinGroup channels parameters (List.replicate (toUInt32 (channels.npl / 6)).toNat none)

/-- section/2/151/RMatrixLimited/src/ctor.hpp 18-26, verifySize.hpp 1-11 -/
def rMatrixLimited (ifg krl : Bool) (krm : Int) (pairs : LIST) (groups : List SpinGroup) : Except Err ResParams :=
  if 1 ≤ asInt groups.length then .ok (.rml (⟨ifg, krl, krm⟩, pairs, groups)) else .error .exc

/-! ### what is made by these constructors -/

/-- Made by the constructor of BreitWignerLValue. -/
def BwLValueBuilt (x : LIST) : Prop := ∃ awri qx l lrx energies spins gt gn gg gf, BreitWignerLValue.make awri qx l lrx energies spins gt gn gg gf = .ok x
/-- Made by the constructor of ReichMooreLValue. -/
def RmLValueBuilt (x : LIST) : Prop := ∃ awri apl l energies spins gn gg gfa gfb, ReichMooreLValue.make awri apl l energies spins gn gg gfa gfb = .ok x
/-- Made by the constructor of UnresolvedEnergyIndependent::LValue. -/
def LValueABuilt (x : LIST) : Prop := ∃ awri l spins spacing amun gn gg, UnresolvedALValue.make awri l spins spacing amun gn gg = .ok x
/-- Made by the constructors of UnresolvedEnergyDependentFissionWidths::JValue and LValue. -/
def LValueBBuilt (x : LValueC) : Prop := ∃ awri l jvalues,
  (∀ j ∈ jvalues, ∃ l spin d amun amuf gn gg gf, UnresolvedBJValue.make l spin d amun amuf gn gg gf = .ok j) ∧ lvalueB awri l jvalues = .ok x
/-- Made by the constructors of UnresolvedEnergyDependent::JValue and LValue. -/
def LValueCBuilt (x : LValueC) : Prop := ∃ awri l jvalues,
  (∀ j ∈ jvalues, ∃ spin amun amug amuf amux int energies d gn gg gf gx, UnresolvedCJValue.make spin amun amug amuf amux int energies d gn gg gf gx = .ok j) ∧
  lvalueC awri l jvalues = .ok x

/-- Made by one of the constructors of ResonanceChannels. -/
inductive ChannelsBuilt : LIST → Prop
  | two {spin parity : Dbl} {ppi l : List Int} {s b apt ape : List Dbl} {kbk kps : Int} {x : LIST}
      (h : ResonanceChannels.make spin parity ppi l s b apt ape kbk kps = .ok x) : ChannelsBuilt x
  | one {spin parity : Dbl} {ppi l : List Int} {s b ap : List Dbl} {kbk kps : Int} {x : LIST}
      (h : ResonanceChannels.make1 spin parity ppi l s b ap kbk kps = .ok x) : ChannelsBuilt x

/-- Made by one of the constructors of SpinGroup from what the constructors of its components made. -/
inductive SpinGroupBuilt : SpinGroup → Prop
  | full {channels parameters : LIST} {nch : Nat} {rmatrices : List (Int × Background)} {background : List (Option Background)} {energies : List Dbl}
      {widths : List (List Dbl)} {x : SpinGroup} (hc : ChannelsBuilt channels) (hp : ResonanceParameters.make energies widths = .ok parameters) (hn : nch < 4294967296)
      (hr : ∀ r ∈ rmatrices, BackgroundBuilt r) (hb : backgroundChannels nch rmatrices = .ok background) (h : spinGroup channels parameters background = .ok x) :
      SpinGroupBuilt x
  | short {channels parameters : LIST} {energies : List Dbl} {widths : List (List Dbl)} {x : SpinGroup} (hc : ChannelsBuilt channels)
      (hp : ResonanceParameters.make energies widths = .ok parameters) (h : spinGroupShort channels parameters = .ok x) : SpinGroupBuilt x

/-- Resonance parameters made by one of the constructors (section/2/151/SpecialCase/src/ctor.hpp 15-16 for the special case) from components that are made by the
    constructors. -/
inductive ParamsBuilt : ResParams → Prop
  | special (spi ap : Dbl) : ParamsBuilt (.special spi ap)
  | slbw {spi ap : Dbl} {lvalues : List LIST} {x : ResParams} (hl : ∀ l ∈ lvalues, BwLValueBuilt l) (h : singleLevel spi ap lvalues = .ok x) : ParamsBuilt x
  | mlbw {spi ap : Dbl} {lvalues : List LIST} {x : ResParams} (hl : ∀ l ∈ lvalues, BwLValueBuilt l) (h : multiLevel spi ap lvalues = .ok x) : ParamsBuilt x
  | reichMoore {spi ap : Dbl} {lad : Bool} {nlsc : Int} {lvalues : List LIST} {x : ResParams} (hl : ∀ l ∈ lvalues, RmLValueBuilt l)
      (h : reichMoore spi ap lad nlsc lvalues = .ok x) : ParamsBuilt x
  | rml {ifg krl : Bool} {krm : Int} {pairs : LIST} {groups : List SpinGroup} {x : ResParams}
      (hp : ∃ ma mb za zb ia ib pa pb q pnt shf mt, ParticlePairs.make ma mb za zb ia ib pa pb q pnt shf mt = .ok pairs)
      (hg : ∀ g ∈ groups, SpinGroupBuilt g) (h : rMatrixLimited ifg krl krm pairs groups = .ok x) : ParamsBuilt x
  | caseA {spi ap : Dbl} {lssf : Bool} {lvalues : List LIST} {x : ResParams} (hl : ∀ l ∈ lvalues, LValueABuilt l) (h : unresolvedA spi ap lssf lvalues = .ok x) :
      ParamsBuilt x
  | caseB {spi ap : Dbl} {lssf : Bool} {energies : List Dbl} {lvalues : List LValueC} {x : ResParams} (hl : ∀ l ∈ lvalues, LValueBBuilt l)
      (h : unresolvedB spi ap lssf energies lvalues = .ok x) : ParamsBuilt x
  | caseC {spi ap : Dbl} {lssf : Bool} {lvalues : List LValueC} {x : ResParams} (hl : ∀ l ∈ lvalues, LValueCBuilt l) (h : unresolvedC spi ap lssf lvalues = .ok x) :
      ParamsBuilt x

/-! ### integers that can be written -/

/-- The integers of the l value and of its j values fit. -/
def LValueCInts (b : LValueC) : Prop := IsInt32 b.1.l ∧ SeqInts LIST.Ints b.2.2

/-- The integers of the tables fit. -/
def BackgroundInts : Background → Prop
  | .tabulated x y => x.Ints ∧ y.Ints
  | _ => True

/-- The integers of the spin group fit. -/
def SpinGroupInts (b : SpinGroup) : Prop := b.1.1.Ints ∧ IsInt32 b.1.1.l1 ∧ b.1.2.Ints ∧ ∀ r, some r ∈ b.2 → BackgroundInts r

/-- The integers of the parameters fit. -/
def ParamsInts : ResParams → Prop
  | .special _ _ => True
  | .slbw b | .mlbw b | .reichMoore b => IsInt32 b.1.nlsc ∧ SeqInts LIST.Ints b.2.2
  | .rml b => IsInt32 b.1.krm ∧ b.2.1.Ints ∧ SeqInts SpinGroupInts b.2.2
  | .caseA b => SeqInts LIST.Ints b.2.2
  | .caseB b => b.1.Ints ∧ SeqInts LValueCInts b.2
  | .caseC b => SeqInts LValueCInts b.2.2

/-! ### resonance ranges, isotopes and the section -/

/-- section/2/151/ScatteringRadius/src/ctor.hpp 9-18 -/
def scatteringRadius (bounds ints : List Int) (energies radii : List Dbl) : Except Err TAB1 := TAB1.make Disco.zero Disco.zero 0 0 bounds ints energies radii

/-- section/2/151/ResonanceRange/src/ctor.hpp 14-22, verifyOptions.hpp 1-39 (`scatteringRadius` is `std::nullopt` by default) -/
def resonanceRange (el eh : Dbl) (naps : Int) (parameters : ResParams) (radius : Option TAB1 := none) : Except Err ResRange :=
  if optionsOk ⟨el, eh, naps, parameters, radius⟩ then .ok ⟨el, eh, naps, parameters, radius⟩ else .error .exc

/-- A range made by the constructor from what the constructors of its components made. -/
def RangeBuilt (x : ResRange) : Prop := ∃ el eh naps parameters radius, ParamsBuilt parameters ∧
  (∀ r, radius = some r → ∃ bounds ints energies radii, scatteringRadius bounds ints energies radii = .ok r) ∧ resonanceRange el eh naps parameters radius = .ok x

/-- The integers of the range fit. -/
def RangeInts (x : ResRange) : Prop := ParamsInts x.parameters ∧ ∀ r, x.radius = some r → r.Ints

/-- section/2/151/Isotope/src/ctor.hpp 9-11: nothing is verified -/
def isotope (zai : Int) (abn : Dbl) (lfw : Bool) (ranges : List ResRange) : Isotope := ⟨zai, abn, lfw, ranges⟩

/-- The integers of the isotope fit. -/
def IsotopeInts (x : Isotope) : Prop := IsInt32 x.zai ∧ SeqInts RangeInts x.ranges

/-- section/2/151/src/ctor.hpp 16-20, verifyNIS.hpp 1-10 -/
def mf2mt151 (za : Int) (awr : Dbl) (isotopes : List Isotope) : Except Err (Sect (List Isotope)) :=
  ENDFtk.mf2mt151.build 151 za awr (if 1 ≤ asInt isotopes.length then .ok isotopes else .error .exc)

/-- section/2/151/src/ctor.hpp 30-35: one isotope, with the ZA of the section and abundance 1 -/
def mf2mt151Ranges (za : Int) (awr : Dbl) (lfw : Bool) (ranges : List ResRange) : Except Err (Sect (List Isotope)) :=
  mf2mt151 za awr [isotope za (Disco.ofInt 1) lfw ranges]

/-- section/2/151/src/ctor.hpp 46-50: one isotope with a scattering radius only (NAPS and LFW are 0) -/
def mf2mt151Special (za : Int) (awr el eh spin ap : Dbl) : Except Err (Sect (List Isotope)) :=
  (resonanceRange el eh 0 (.special spin ap)).bind fun r => mf2mt151 za awr [isotope za (Disco.ofInt 1) false [r]]

end Make
end ENDFtk

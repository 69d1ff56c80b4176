import Verif.Section.Build
import Verif.Section.Build4
import Verif.Section.Build5
import Verif.Section.Getters32
import Verif.Section.MF32Rounded
/-
  The public constructors from data, part 6: the covariances of resonance parameters, section 151 of file 32.
-/
set_option linter.unusedVariables false
set_option linter.unusedSectionVars false
set_option linter.unusedSimpArgs false
namespace ENDFtk
variable [Disco] [CorrOps]
namespace Make

/-! ### LCOMP = 0 -/

/-- section/32/151/LimitedSingleLevelBreitWigner/src/ctor.hpp 17-37, LimitedCovarianceBase/src/ctor.hpp 6-13, 32-48, verifySize.hpp 1-11: two constructors, with and
    without DAP -/
def limitedSingle (spi ap : Dbl) (dap : Option Dbl) (lvalues : List LIST) : Except Err CovParams :=
  if 1 ≤ asInt lvalues.length then .ok ⟨.limitedSLBW, (spi, ap), dap, lvalues⟩ else .error .exc
/-- section/32/151/LimitedMultiLevelBreitWigner/src/ctor.hpp 17-36 -/
def limitedMulti (spi ap : Dbl) (dap : Option Dbl) (lvalues : List LIST) : Except Err CovParams :=
  if 1 ≤ asInt lvalues.length then .ok ⟨.limitedMLBW, (spi, ap), dap, lvalues⟩ else .error .exc

/-! ### LCOMP = 1 -/

/-- section/32/151/GeneralSingleLevelBreitWigner/src/ctor.hpp 20-48, GeneralCovarianceBase/src/ctor.hpp 6-16, 38-62, verifySize.hpp (never rejects): NLS is an
    `unsigned int` -/
def generalSingle (awri spi ap : Dbl) (dap : Option Dbl) (nls : Int) (short long : List LIST) : CovParams := ⟨.generalSLBW, (spi, ap, nls), dap, awri, short, long⟩
/-- section/32/151/GeneralMultiLevelBreitWigner/src/ctor.hpp 20-48 -/
def generalMulti (awri spi ap : Dbl) (dap : Option Dbl) (nls : Int) (short long : List LIST) : CovParams := ⟨.generalMLBW, (spi, ap, nls), dap, awri, short, long⟩
/-- section/32/151/GeneralReichMoore/src/ctor.hpp 20-49 -/
def generalReichMoore (awri spi ap : Dbl) (dap : Option LIST) (nls : Int) (short long : List LIST) : CovParams := ⟨.generalRM, (spi, ap, nls), dap, awri, short, long⟩
/-- section/32/151/ShortRangeRMatrixLimitedBlock/src/ctor.hpp 15-18 -/
def shortRangeRml (parameters : List LIST) (covariances : LIST) : Unit × List LIST × LIST := ((), parameters, covariances)
/-- section/32/151/GeneralRMatrixLimited/src/ctor.hpp 35-37 -/
def generalRml (awri : Dbl) (short : List (Unit × List LIST × LIST)) : CovParams := ⟨.generalRML, (Disco.zero, Disco.zero, 0), none, awri, short, []⟩

/-! ### LCOMP = 2 -/

/-- section/32/151/CompactSingleLevelBreitWigner/src/ctor.hpp 18-43, CompactCovarianceBase/src/ctor.hpp 6-12, 34-57 -/
def compactSingle (spi ap : Dbl) (dap : Option Dbl) (parameters : LIST) (matrix : CorrMatrix) : CovParams := ⟨.compactSLBW, (spi, ap, 0, 0), dap, parameters, matrix⟩
/-- section/32/151/CompactMultiLevelBreitWigner/src/ctor.hpp 18-44 -/
def compactMulti (spi ap : Dbl) (dap : Option Dbl) (parameters : LIST) (matrix : CorrMatrix) : CovParams := ⟨.compactMLBW, (spi, ap, 0, 0), dap, parameters, matrix⟩
/-- section/32/151/CompactReichMoore/src/ctor.hpp 19-51 -/
def compactReichMoore (spi ap : Dbl) (lad : Bool) (dap : Option LIST) (parameters : LIST) (matrix : CorrMatrix) : CovParams :=
  ⟨.compactRM, (spi, ap, ofBool lad, 0), dap, parameters, matrix⟩
/-- section/32/151/CompactRMatrixLimitedUncertainties/src/ctor.hpp 15-22, verifySize.hpp 1-11: NJSX of the particle pairs is not compared with the number of spin groups -/
def compactRmlUncertainties (pairs : LIST) (groups : List (LIST × LIST)) : Except Err (LIST × List (LIST × LIST)) :=
  if 1 ≤ asInt groups.length then .ok (pairs, groups) else .error .exc
/-- section/32/151/CompactRMatrixLimited/src/ctor.hpp 17-47: N1 is the number of spin groups, an `unsigned int` -/
def compactRml (ifg : Bool) (dap : Option LIST) (parameters : LIST × List (LIST × LIST)) (matrix : CorrMatrix) : CovParams :=
  ⟨.compactRML, (Disco.zero, Disco.zero, ofBool ifg, toUInt32 (parameters.2.length : Nat)), dap, parameters, matrix⟩

/-! ### unresolved resonances -/

/-- section/32/151/UnresolvedRelativeCovariances/src/ctor.hpp 17-22 -/
def unresolvedRelative (spi ap : Dbl) (lvalues : List LIST) (matrix : LIST) : CovParams := ⟨.unresolved, (spi, ap), lvalues, matrix⟩

/-! ### what is made by these constructors -/

/-- Made by the constructor of LimitedBreitWignerLValue. -/
def LimitedBuilt (x : LIST) : Prop := ∃ awri l energies spins gt gn gg gf de2 dn2 dndg dg2 dndf dgdf df2 djdn djdg djdf dj2,
  LimitedBreitWignerLValue.make awri l energies spins gt gn gg gf de2 dn2 dndg dg2 dndf dgdf df2 djdn djdg djdf dj2 = .ok x
/-- Made by the constructor of ShortRangeBreitWignerBlock. -/
def ShortBwBuilt (x : LIST) : Prop := ∃ mpar energies spins gt gn gg gf values, ShortRangeBreitWignerBlock.make mpar energies spins gt gn gg gf values = .ok x
/-- Made by the constructor of ShortRangeReichMooreBlock. -/
def ShortRmBuilt (x : LIST) : Prop := ∃ mpar energies spins gn gg gfa gfb values, ShortRangeReichMooreBlock.make mpar energies spins gn gg gfa gfb values = .ok x
/-- Made by the constructors of the components of ShortRangeRMatrixLimitedBlock. -/
def ShortRmlBuilt (x : Unit × List LIST × LIST) : Prop :=
  (∀ p ∈ x.2.1, ∃ energies parameters, ShortRangeParameters.make energies parameters = .ok p) ∧ ∃ values, TriangularMatrix.make 0 values = .ok x.2.2

/-- A long range block (section/32/151.hpp 56: CovariancePairs or SquareMatrix), made by one of the constructors. -/
inductive LongBuilt : LIST → Prop
  | pairs {lb : Int} {energies fvalues : List Dbl} {l : LIST} (hl : IsInt32 lb) (h : CovariancePairs.make2 lb energies fvalues = .ok l) : LongBuilt l
  | pairs4 {lb : Int} {ek fk el fl : List Dbl} {l : LIST} (hl : IsInt32 lb) (h : CovariancePairs.make4 lb ek fk el fl = .ok l) : LongBuilt l
  | square {ls : Int} {energies values : List Dbl} {l : LIST} (h : SquareMatrix.make ls energies values = .ok l) : LongBuilt l

/-- Made by the constructor of ReichMooreScatteringRadiusUncertainties. -/
def DapListBuilt (x : LIST) : Prop := ∃ dap us, RadiusUncertainties.make dap us = .ok x
/-- Made by the constructor of CompactBreitWignerUncertainties. -/
def CompactBwBuilt (x : LIST) : Prop := ∃ awri qx lrx energies spins gt gn gg gf der dgn dgg dgf,
  CompactBreitWignerUncertainties.make awri qx lrx energies spins gt gn gg gf der dgn dgg dgf = .ok x
/-- Made by the constructor of CompactReichMooreUncertainties. -/
def CompactRmBuilt (x : LIST) : Prop := ∃ awri apl energies spins gn gg gfa gfb der dgn dgg dgfa dgfb,
  CompactReichMooreUncertainties.make awri apl energies spins gn gg gfa gfb der dgn dgg dgfa dgfb = .ok x
/-- Made by one of the constructors of section/32/151/CompactRMatrixLimitedUncertainties/ResonanceChannels/src/ctor.hpp 34-79 (those of file 2 with KBK = KPS = 0;
    section/32/151/CompactRMatrixLimitedUncertainties/ResonanceChannels.hpp includes generateList.hpp and verifySize.hpp of section/2/151/RMatrixLimited/ResonanceChannels). -/
inductive CompactChannelsBuilt : LIST → Prop
  | two {spin parity : Dbl} {ppi l : List Int} {s b apt ape : List Dbl} {x : LIST} (h : ResonanceChannels.make spin parity ppi l s b apt ape 0 0 = .ok x) : CompactChannelsBuilt x
  | one {spin parity : Dbl} {ppi l : List Int} {s b ap : List Dbl} {x : LIST} (h : ResonanceChannels.make1 spin parity ppi l s b ap 0 0 = .ok x) : CompactChannelsBuilt x
/-- Made by the constructors of the components of CompactRMatrixLimitedUncertainties. -/
def CompactRmlBuilt (x : LIST × List (LIST × LIST)) : Prop :=
  ∃ pairs groups, (∃ njsx ma mb za zb ia ib pa pb q pnt shf mt, CompactParticlePairs.make njsx ma mb za zb ia ib pa pb q pnt shf mt = .ok pairs) ∧
    (∀ g ∈ groups, CompactChannelsBuilt g.1 ∧ ∃ energies parameters denergies dparameters, CompactParameters.make energies parameters denergies dparameters = .ok g.2) ∧
    compactRmlUncertainties pairs groups = .ok x
/-- Made by the constructor of CompactCorrelationMatrix. -/
def MatrixBuilt (m : CorrMatrix) : Prop := ∃ order i j c ndigit, CorrMatrix.make order i j c ndigit = .ok m
/-- Made by the constructor of UnresolvedRelativeCovariances::LValue. -/
def UnresolvedCovBuilt (x : LIST) : Prop := ∃ awri l spins spacing gno gg gf gx, UnresolvedCovLValue.make awri l spins spacing gno gg gf gx = .ok x

/-- Parameters made by one of the constructors from components that are made by the constructors. -/
inductive CovParamsBuilt : CovParams → Prop
  | limitedSingle {spi ap : Dbl} {dap : Option Dbl} {lvalues : List LIST} {x : CovParams} (hl : ∀ l ∈ lvalues, LimitedBuilt l)
      (h : limitedSingle spi ap dap lvalues = .ok x) : CovParamsBuilt x
  | limitedMulti {spi ap : Dbl} {dap : Option Dbl} {lvalues : List LIST} {x : CovParams} (hl : ∀ l ∈ lvalues, LimitedBuilt l)
      (h : limitedMulti spi ap dap lvalues = .ok x) : CovParamsBuilt x
  | generalSingle {awri spi ap : Dbl} {dap : Option Dbl} {nls : Int} {short long : List LIST} (hn : 0 ≤ nls ∧ nls < 4294967296) (hs : ∀ l ∈ short, ShortBwBuilt l)
      (hl : ∀ l ∈ long, LongBuilt l) : CovParamsBuilt (generalSingle awri spi ap dap nls short long)
  | generalMulti {awri spi ap : Dbl} {dap : Option Dbl} {nls : Int} {short long : List LIST} (hn : 0 ≤ nls ∧ nls < 4294967296) (hs : ∀ l ∈ short, ShortBwBuilt l)
      (hl : ∀ l ∈ long, LongBuilt l) : CovParamsBuilt (generalMulti awri spi ap dap nls short long)
  | generalReichMoore {awri spi ap : Dbl} {dap : Option LIST} {nls : Int} {short long : List LIST} (hn : 0 ≤ nls ∧ nls < 4294967296) (hd : ∀ d, dap = some d → DapListBuilt d)
      (hs : ∀ l ∈ short, ShortRmBuilt l) (hl : ∀ l ∈ long, LongBuilt l) : CovParamsBuilt (generalReichMoore awri spi ap dap nls short long)
  | generalRml {awri : Dbl} {short : List (Unit × List LIST × LIST)} (hs : ∀ x ∈ short, ShortRmlBuilt x) : CovParamsBuilt (generalRml awri short)
  | compactSingle {spi ap : Dbl} {dap : Option Dbl} {parameters : LIST} {matrix : CorrMatrix} (hp : CompactBwBuilt parameters) (hm : MatrixBuilt matrix) :
      CovParamsBuilt (compactSingle spi ap dap parameters matrix)
  | compactMulti {spi ap : Dbl} {dap : Option Dbl} {parameters : LIST} {matrix : CorrMatrix} (hp : CompactBwBuilt parameters) (hm : MatrixBuilt matrix) :
      CovParamsBuilt (compactMulti spi ap dap parameters matrix)
  | compactReichMoore {spi ap : Dbl} {lad : Bool} {dap : Option LIST} {parameters : LIST} {matrix : CorrMatrix} (hd : ∀ d, dap = some d → DapListBuilt d)
      (hp : CompactRmBuilt parameters) (hm : MatrixBuilt matrix) : CovParamsBuilt (compactReichMoore spi ap lad dap parameters matrix)
  | compactRml {ifg : Bool} {dap : Option LIST} {parameters : LIST × List (LIST × LIST)} {matrix : CorrMatrix} (hd : ∀ d, dap = some d → DapListBuilt d)
      (hp : CompactRmlBuilt parameters) (hm : MatrixBuilt matrix) : CovParamsBuilt (compactRml ifg dap parameters matrix)
  | unresolved {spi ap : Dbl} {lvalues : List LIST} {mpar : Int} {values : List Dbl} {matrix : LIST} (hl : ∀ l ∈ lvalues, UnresolvedCovBuilt l)
      (hm : TriangularMatrix.make mpar values = .ok matrix) : CovParamsBuilt (unresolvedRelative spi ap lvalues matrix)

/-! ### integers that can be written -/

/-- The integers of the parameters fit. -/
def CovParamsInts : CovParams → Prop
  | ⟨.limitedSLBW, x⟩ | ⟨.limitedMLBW, x⟩ => SeqInts LIST.Ints x.2.2
  | ⟨.generalSLBW, x⟩ | ⟨.generalMLBW, x⟩ => SeqInts LIST.Ints x.2.2.2.1 ∧ SeqInts LIST.Ints x.2.2.2.2
  | ⟨.generalRM, x⟩ => (∀ d, x.2.1 = some d → d.Ints) ∧ SeqInts LIST.Ints x.2.2.2.1 ∧ SeqInts LIST.Ints x.2.2.2.2
  | ⟨.generalRML, x⟩ => SeqInts (fun b => SeqInts LIST.Ints b.2.1 ∧ b.2.2.Ints) x.2.2.2.1
  | ⟨.compactSLBW, x⟩ | ⟨.compactMLBW, x⟩ => x.2.2.1.Ints
  | ⟨.compactRM, x⟩ => (∀ d, x.2.1 = some d → d.Ints) ∧ x.2.2.1.Ints
  | ⟨.compactRML, x⟩ => x.2.2.1.1.Ints ∧ IsInt32 x.2.2.1.1.l2 ∧ SeqInts (fun g => g.1.Ints ∧ g.2.Ints) x.2.2.1.2
  | ⟨.unresolved, x⟩ => SeqInts LIST.Ints x.2.1 ∧ x.2.2.Ints

/-! ### what can be read back -/

/-- What the constructors of the parameters do not verify, although parameters without it cannot be read: the long range blocks have LB 0, 1, 2 or 5, and the R-matrix limited
    parameters of the compact format have no uncertainty of the scattering radius, and as many spin groups as the particle pairs announce (NJSX). -/
def CovReadable : CovParams → Prop
  | ⟨.generalSLBW, x⟩ | ⟨.generalMLBW, x⟩ => ∀ l ∈ x.2.2.2.2, l.l2 = 0 ∨ l.l2 = 1 ∨ l.l2 = 2 ∨ l.l2 = 5
  | ⟨.generalRM, x⟩ => ∀ l ∈ x.2.2.2.2, l.l2 = 0 ∨ l.l2 = 1 ∨ l.l2 = 2 ∨ l.l2 = 5
  | ⟨.compactRML, x⟩ => x.2.1 = none ∧ x.2.2.1.1.l2 = x.2.2.1.2.length
  | _ => True

/-! ### resonance ranges, isotopes and the section -/

/-- section/32/151/ScatteringRadiusCovariances/src/ctor.hpp 6-7 -/
def radiusCovariances (data : List LIST) : Unit × List LIST := ((), data)

/-- section/32/151/ResonanceRange/src/ctor.hpp 15-23, verifyOptions.hpp 1-39 -/
def covRange (el eh : Dbl) (naps : Int) (parameters : CovParams) (radius : Option (Unit × List LIST) := none) : Except Err CovRange :=
  if covOptionsOk radius.isSome naps parameters.type.lru parameters.type.lrf then .ok ⟨el, eh, naps, parameters, radius⟩ else .error .exc

/-- A range made by the constructor from what the constructors of its components made. -/
def CovRangeBuilt (x : CovRange) : Prop := ∃ el eh naps parameters radius, CovParamsBuilt parameters ∧
  (∀ r, radius = some r → ∃ data, (∀ l ∈ data, ExplicitBuilt l) ∧ r = radiusCovariances data) ∧ covRange el eh naps parameters radius = .ok x

/-- The integers of the range fit. -/
def CovRangeInts (x : CovRange) : Prop := CovParamsInts x.parameters ∧ ∀ r, x.radius = some r → SeqInts LIST.Ints r.2

/-- section/32/151/Isotope/src/ctor.hpp 9-11: nothing is verified -/
def covIsotope (zai abn : Dbl) (lfw : Bool) (ranges : List CovRange) : CovIsotope := ⟨zai, abn, lfw, ranges⟩

/-- section/32/151/src/ctor.hpp 16-20, verifyNIS.hpp 1-10 -/
def mf32mt151 (za : Int) (awr : Dbl) (isotopes : List CovIsotope) : Except Err (Sect (List CovIsotope)) :=
  ENDFtk.mf32mt151.build 151 za awr (if 1 ≤ asInt isotopes.length then .ok isotopes else .error .exc)

/-- section/32/151/src/ctor.hpp 30-34: one isotope, with the ZA of the section and abundance 1 -/
def mf32mt151Ranges (za : Int) (awr : Dbl) (lfw : Bool) (ranges : List CovRange) : Except Err (Sect (List CovIsotope)) :=
  mf32mt151 za awr [covIsotope (Disco.ofInt za) (Disco.ofInt 1) lfw ranges]

end Make
end ENDFtk

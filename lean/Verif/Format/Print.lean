import Verif.Format.Spec
/-
  What is printed for a section, as a list of records.  `toInt32` is the conversion to `int` (of a size).
-/
namespace ENDFtk
variable [Disco]
namespace Fmt

/-- `bool` as a number -/
def ofBool (b : Bool) : Int := if b then 1 else 0

/-- A size as `int` -/
def size {α : Type} (l : List α) : Int := toInt32 l.length

/-- TAB2 and its records. -/
def tab2P {α : Type} (f : α → List Rec) (b : ISeq α) : List Rec := .tab2 b.tab2 :: b.seq.flatMap f

def listP (l : LIST) : List Rec := [.list l]
def tab1P (l : TAB1) : List Rec := [.tab1 l]

/-! ### file 1 -/

def nubarP : Nubar → List Rec
  | .poly r => [.list r]
  | .tab r => [.tab1 r]

/-- LNU -/
def lnu : Nubar → Int
  | .poly _ => 1
  | .tab _ => 2

def decayP : Decay → List Rec
  | .indep r => [.list r]
  | .dep b => tab2P listP b

def releaseP : Release → List Rec
  | .thermal r => [.list r]
  | .poly r => [.list r]
  | .tab b => .list b.values :: b.comps.flatMap (fun o => o.toList.map .tab1)

def photonsP : Photons → List Rec
  | .discrete l => l.map .tab1
  | .continuous r => [.list r]

/-! ### files 4, 5, 6 -/

/-- LTT -/
def ltt : Angular → Int
  | .isotropic => 0
  | .legendre _ => 1
  | .tabulated _ => 2
  | .mixed _ => 3

def angularP : Angular → List Rec
  | .isotropic => []
  | .legendre b => tab2P listP b
  | .tabulated b => tab2P tab1P b
  | .mixed b => tab2P listP b.legendre ++ tab2P tab1P b.tabulated

def spectrumP : Spectrum → List Rec
  | .tabulated b => tab2P tab1P b
  | .general a b => [.tab1 a, .tab1 b]
  | .maxwell a => [.tab1 a]
  | .evaporation a => [.tab1 a]
  | .watt a b => [.tab1 a, .tab1 b]
  | .madland a => [.tab1 a]

def law6P : Law6 → List Rec
  | .elsewhere _ => []
  | .unknown => []
  | .continuum b => tab2P listP b
  | .twoBody b => tab2P listP b
  | .isotropic => []
  | .recoils => []
  | .charged b => tab2P listP b
  | .nBody c => [.cont c]
  | .laboratory b => tab2P (tab2P tab1P) b

/-! ### files 7, 8 -/

def tabListsP (b : TabLists) : List Rec := .tab1 b.1 :: b.2.map .list

/-- LTHR -/
def lthr : Elastic → Int
  | .coherent _ => 1
  | .incoherent _ => 2
  | .mixed _ _ => 3

def elasticP : Elastic → List Rec
  | .coherent b => tabListsP b
  | .incoherent r => [.tab1 r]
  | .mixed b r => tabListsP b ++ [.tab1 r]

def scatteringP (x : ScatteringData) : List Rec :=
  .list x.constants :: x.law.toList.flatMap (tab2P tabListsP) ++ [.tab1 x.principal] ++ x.secondary.flatMap (fun o => o.toList.map .tab1)

def decaySpectrumP (x : DecaySpectrum) : List Rec := .list x.1 :: x.2.1.map .list ++ x.2.2.toList.map .tab1

/-! ### files 12, 13, 14, 15, 26 -/

def totalPartialsP (x : TotalPartials) : List Rec := (x.1.toList ++ x.2).map .tab1

def photonP : Photon → List Rec
  | .isotropic eg es => [.cont ⟨eg, es, 0, 0, 0, 0⟩]
  | .legendre b => tab2P listP b
  | .tabulated b => tab2P tab1P b

def law26P : Law26 → List Rec
  | .continuum b => tab2P listP b
  | .twoBody b => tab2P listP b
  | .transfer r => [.tab1 r]

/-! ### files 31, 33, 34, 40 -/

def derivedP : Derived → List Rec
  | .redundant l => [.cont ⟨Disco.zero, Disco.zero, 0, 0, 0, 0⟩, .list l]
  | .ratio lty l => [.cont ⟨Disco.zero, Disco.zero, 0, lty, 0, 0⟩, .list l]

def reactionBlockP (x : ReactionBlock) : List Rec :=
  .cont ⟨Disco.ofInt x.xmf1, Disco.ofInt x.xlfs1, x.mat1, x.mt1, size x.derived, size x.explicit⟩ :: x.derived.flatMap derivedP ++ x.explicit.map .list

def legendreBlockP (x : LegendreBlock) : List Rec :=
  .cont ⟨Disco.zero, Disco.zero, x.order, x.order1, x.lct, size x.data⟩ :: x.data.map .list

def reactionBlock34P (x : ReactionBlock34) : List Rec :=
  .cont ⟨Disco.zero, Disco.zero, 0, x.mt1, x.nl, x.nl1⟩ :: x.blocks.flatMap legendreBlockP

def levelBlockP (x : LevelBlock) : List Rec :=
  .cont ⟨x.qm, x.qi, x.izap, x.lfs, 0, size x.reactions⟩ :: x.reactions.flatMap reactionBlockP

/-! ### file 2 -/

def breitWignerP (x : BwHeader × Unit × List LIST) : List Rec :=
  .cont ⟨x.1.spi, x.1.ap, ofBool x.1.lad, 0, size x.2.2, x.1.nlsc⟩ :: x.2.2.map .list

def lvalueP (x : LValueC) : List Rec := .cont ⟨x.1.awri, Disco.zero, x.1.l, 0, size x.2.2, 0⟩ :: x.2.2.map .list

/-- LBK and the records for it -/
def backgroundP : Background → Int × List Rec
  | .none => (0, [])
  | .tabulated a b => (1, [.tab1 a, .tab1 b])
  | .sammy ed eu v => (2, [.list ⟨ed, eu, 0, 0, 0, v⟩])
  | .frohner ed eu v => (3, [.list ⟨ed, eu, 0, 0, 0, v⟩])

/-- The background of channel `i`, if there is one -/
def channelP (x : Option Background × Nat) : List Rec := match x with
  | (none, _) => []
  | (some b, i) => .cont ⟨Disco.zero, Disco.zero, i, (backgroundP b).1, 0, 0⟩ :: (backgroundP b).2

/-- The channels are numbered from 1. -/
def spinGroupP (x : SpinGroup) : List Rec := .list x.1.1 :: .list x.1.2 :: (x.2.zipIdx 1).flatMap channelP

def rmlP (x : RmlHeader × LIST × List SpinGroup) : List Rec :=
  .cont ⟨Disco.zero, Disco.zero, ofBool x.1.ifg, x.1.krm, size x.2.2, ofBool x.1.krl⟩ :: .list x.2.1 :: x.2.2.flatMap spinGroupP

/-- LRU, LRF and the records for them -/
def resParamsP : ResParams → Int × Int × List Rec
  | .special spi ap => (0, 0, [.cont ⟨spi, ap, 0, 0, 0, 0⟩])
  | .slbw b => (1, 1, breitWignerP b)
  | .mlbw b => (1, 2, breitWignerP b)
  | .reichMoore b => (1, 3, breitWignerP b)
  | .rml b => (1, 7, rmlP b)
  | .caseA b => (2, 1, .cont ⟨b.1.spi, b.1.ap, ofBool b.1.lssf, 0, size b.2.2, 0⟩ :: b.2.2.map .list)
  | .caseB b => (2, 1, .list b.1 :: b.2.flatMap lvalueP)
  | .caseC b => (2, 2, .cont ⟨b.1.spi, b.1.ap, ofBool b.1.lssf, 0, size b.2.2, 0⟩ :: b.2.2.flatMap lvalueP)

/-- NRO is 1 if there is a scattering radius. -/
def resRangeP (x : ResRange) : List Rec :=
  .cont ⟨x.el, x.eh, (resParamsP x.parameters).1, (resParamsP x.parameters).2.1, ofBool x.radius.isSome, x.naps⟩ :: x.radius.toList.map .tab1 ++
    (resParamsP x.parameters).2.2

def isotopeP (x : Isotope) : List Rec :=
  .cont ⟨Disco.ofInt x.zai, x.abn, 0, ofBool x.lfw, size x.ranges, 0⟩ :: x.ranges.flatMap resRangeP

/-! ### all section types -/

/-- LI, LTT (of the last photon), NK, NI -/
def head14 (x : MF14Data) : Int × Int × Int × Int := match x.photons.getLast? with
  | none => (1, 0, x.nk, 0)
  | some p => (0, (match p with | .isotropic _ _ => 0 | .legendre _ => 1 | .tabulated _ => 2), size x.photons,
      toInt32 (x.photons.countP fun p => match p with | .isotropic _ _ => true | _ => false))

/-- L1, L2, N1, N2 of the HEAD record. -/
def head : (T : SectionType) → T.Data → Int × Int × Int × Int
  | .mf1mt451, x => (x.lrp, x.lfi, x.nlib, x.nmod)
  | .mf1mt452, x => (0, lnu x, 0, 0)
  | .mf1mt455, x => ((match x.lambda with | .indep _ => 0 | .dep _ => 1), lnu x.nubar, 0, 0)
  | .mf1mt456, x => (0, lnu x, 0, 0)
  | .mf1mt458, x => match x with
    | .thermal _ => (0, 0, 0, 0)
    | .poly _ => (0, 0, 0, 0)
    | .tab b => (0, 1, 0, b.nfc)
  | .mf1mt460, x => match x with
    | .discrete l => (1, 0, size l, 0)
    | .continuous _ => (2, 0, 0, 0)
  | .mf2mt151, x => (0, 0, toInt32 (List.length (α := Isotope) x), 0)
  | .mf2mt152, x => (ofBool x.lssf, 0, 0, x.interpolation)
  | .mf3, _ => (0, 0, 0, 0)
  | .mf4, x => (0, ltt x.dist, 0, 0)
  | .mf5, x => (0, 0, toInt32 (List.length (α := Partial5) x), 0)
  | .mf6, x => (x.jp, x.lct, size x.products, 0)
  | .mf7mt2, x => (lthr x, 0, 0, 0)
  | .mf7mt4, x => (0, x.lat, x.lasym, 0)
  | .mf7mt451, x => ((List.length (α := LIST) x : Int) % 4294967296, 0, 0, 0)
  | .mf8mt454, x => (List.length (α := LIST) x, 0, 0, 0)
  | .mf8mt457, x => (x.lis, x.liso, if toInt32 x.modes.n2 = 0 then 1 else 0, (x.spectra.length : Int) % 4294967296)
  | .mf8mt459, x => (List.length (α := LIST) x, 0, 0, 0)
  | .mf9, x => (x.lis, 0, x.products.length, 0)
  | .mf10, x => (x.lis, 0, x.products.length, 0)
  | .mf12, x => match x with
    | .multiplicities b => (1, 0, size b.2, 0)
    | .transitions l => (2, toInt32 (Int.tdiv l.data.length l.n2 - 1), toInt32 (l.n2 + 2), 0)
  | .mf13, x => (0, 0, size x.2, 0)
  | .mf14, x => head14 x
  | .mf15, x => (0, 0, toInt32 (List.length (α := Partial15) x), 0)
  | .mf23, _ => (0, 0, 0, 0)
  | .mf26, x => (0, 0, toInt32 (List.length (α := Product26) x), 0)
  | .mf27, _ => (0, 0, 0, 0)
  | .mf28, x => (0, 0, List.length (α := LIST) x, 0)
  | .mf31, x => (0, 0, 0, toInt32 (List.length (α := ReactionBlock) x))
  | .mf33, x => (0, x.1, 0, size x.2)
  | .mf34, x => (0, x.1, 0, size x.2)
  | .mf35, x => (0, 0, toInt32 (List.length (α := LIST) x), 0)
  | .mf40, x => (x.1, 0, size x.2, 0)

/-- The records after HEAD and before SEND. -/
def records : (T : SectionType) → (awr : Dbl) → T.Data → List Rec
  | .mf1mt451, _, x => [.cont x.p0, .cont x.p1, .cont x.p2] ++ x.desc.map .text ++ x.index.map .dir
  | .mf1mt452, _, x => nubarP x
  | .mf1mt455, _, x => decayP x.lambda ++ nubarP x.nubar
  | .mf1mt456, _, x => nubarP x
  | .mf1mt458, _, x => releaseP x
  | .mf1mt460, _, x => photonsP x
  | .mf2mt151, _, x => List.flatMap isotopeP x
  | .mf2mt152, _, x => [.list x.data]
  | .mf3, _, x => [.tab1 x]
  | .mf4, awr, x => .cont ⟨Disco.zero, awr, (match x.dist with | .isotropic => 1 | _ => 0), x.lct, 0, 0⟩ :: angularP x.dist
  | .mf5, _, x => List.flatMap (fun y : Partial5 => .tab1 y.probability :: spectrumP y.dist) x
  | .mf6, _, x => x.products.flatMap (fun y => .tab1 y.multiplicity :: law6P y.dist)
  | .mf7mt2, _, x => elasticP x
  | .mf7mt4, _, x => scatteringP x
  | .mf7mt451, _, x => List.map Rec.list x
  | .mf8mt454, _, x => List.map Rec.list x
  | .mf8mt457, _, x => .list x.energies :: .list x.modes :: x.spectra.flatMap decaySpectrumP
  | .mf8mt459, _, x => List.map Rec.list x
  | .mf9, _, x => x.products.map .tab1
  | .mf10, _, x => x.products.map .tab1
  | .mf12, _, x => match x with
    | .multiplicities b => totalPartialsP b
    | .transitions l => [.list l]
  | .mf13, _, x => totalPartialsP x
  | .mf14, _, x => x.photons.flatMap photonP
  | .mf15, _, x => List.flatMap (fun y : Partial15 => .tab1 y.1 :: tab2P tab1P y.2) x
  | .mf23, _, x => [.tab1 x]
  | .mf26, _, x => List.flatMap (fun y : Product26 => .tab1 y.multiplicity :: law26P y.dist) x
  | .mf27, _, x => [.tab1 x]
  | .mf28, _, x => List.map Rec.list x
  | .mf31, _, x => List.flatMap reactionBlockP x
  | .mf33, _, x => x.2.flatMap reactionBlockP
  | .mf34, _, x => x.2.flatMap reactionBlock34P
  | .mf35, _, x => List.map Rec.list x
  | .mf40, _, x => x.2.flatMap levelBlockP

/-- HEAD and the records after it. -/
def printed (T : SectionType) (x : Sect T.Data) : List Rec :=
  .cont ⟨Disco.ofInt x.za, x.awr, (head T x.data).1, (head T x.data).2.1, (head T x.data).2.2.1, (head T x.data).2.2.2⟩ :: records T x.awr x.data

end Fmt

/-! ### lemmas -/

theorem printRecs_nil (t : Nums) : printRecs [] t = [] := rfl
theorem printRecs_cons (r : Rec) (rs : List Rec) (t : Nums) : printRecs (r :: rs) t = r.print t ++ printRecs rs t := by simp [printRecs]
theorem printRecs_append (r1 r2 : List Rec) (t : Nums) : printRecs (r1 ++ r2) t = printRecs r1 t ++ printRecs r2 t := by simp [printRecs]
theorem printRecs_map {α : Type} (f : α → Rec) (xs : List α) (t : Nums) : printRecs (xs.map f) t = xs.flatMap (fun x => (f x).print t) := by
  simp [printRecs, List.flatMap_map]
theorem printRecs_flatMap {α : Type} (f : α → List Rec) (xs : List α) (t : Nums) : printRecs (xs.flatMap f) t = xs.flatMap (fun x => printRecs (f x) t) := by
  simp [printRecs, List.flatMap_assoc]
theorem printRecs_opt {α : Type} (f : α → Rec) (o : Option α) (t : Nums) : printRecs (o.toList.map f) t = match o with | none => [] | some a => (f a).print t := by
  cases o <;> simp [printRecs]

end ENDFtk

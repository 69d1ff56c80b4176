import Verif.Format.Rec
/-
  The formats of the sections: which records a section consists of between HEAD and SEND, what has to hold for their fields, and how the members of
  the object are obtained from them.  `h` is the HEAD record, `mt` the MT number expected in the records; `toInt32` is the conversion to `int`.
  Fields of records that do not occur in a format can have any value.
-/
namespace ENDFtk
variable [Disco]
namespace Fmt

/-! ### file 1 -/

/-- MF1 MT451: three CONT records, NWD text records, NXC >= 1 directory records. -/
def mf1mt451 (h : Cont) (x : Info451) (rs : List Rec) : Prop :=
  x.lrp = toInt32 h.l1 ∧ x.lfi = toInt32 h.l2 ∧ x.nlib = toInt32 h.n1 ∧ x.nmod = toInt32 h.n2 ∧
  rs = [.cont x.p0, .cont x.p1, .cont x.p2] ++ x.desc.map .text ++ x.index.map .dir ∧
  0 ≤ x.p2.n1 ∧ toInt32 x.p2.n1 = x.desc.length ∧ 1 ≤ x.p2.n2 ∧ toInt32 x.p2.n2 = x.index.length

/-- A multiplicity, LNU = 1: polynomial, a LIST record; LNU = 2: tabulated, a TAB1 record. -/
def nubar (lnu : Int) (x : Nubar) (rs : List Rec) : Prop := match x with
  | .poly r => toInt32 lnu = 1 ∧ rs = [.list r]
  | .tab r => toInt32 lnu = 2 ∧ rs = [.tab1 r]

/-- The decay constants of MF1 MT455, LDG = 0: a LIST record; LDG = 1: TAB2 and as many LIST records as it says, at least one, with
    (lambda, alpha) pairs, the same number (not zero) in all of them. -/
def decay (ldg : Int) (x : Decay) (rs : List Rec) : Prop := match x with
  | .indep r => toInt32 ldg = 0 ∧ rs = [.list r]
  | .dep b => toInt32 ldg = 1 ∧ rs = .tab2 b.tab2 :: b.seq.map .list ∧ toInt32 b.tab2.n2 = b.seq.length ∧ b.seq ≠ [] ∧
      (∀ r ∈ b.seq, toInt32 r.data.length ≠ 0 ∧ toInt32 r.data.length % 2 = 0) ∧
      ∀ r ∈ b.seq, ∀ r' ∈ b.seq, toInt32 r.data.length = toInt32 r'.data.length

/-- MF1 MT455 -/
def mf1mt455 (h : Cont) (x : Delayed) (rs : List Rec) : Prop :=
  ∃ r1 r2, rs = r1 ++ r2 ∧ decay h.l1 x.lambda r1 ∧ nubar h.l2 x.nubar r2

/-- MF1 MT458, LFC = 0: a LIST record with 18 ( NPLY + 1 ) values, NPLY being its L2 (thermal point for 0, polynomials otherwise); LFC = 1: a LIST record
    with 18 values and NFC TAB1 records with LDRV = 1, 2 as L1 and different IFC = 1 .. 9 as L2, in any order. -/
def mf1mt458 (h : Cont) (x : Release) (rs : List Rec) : Prop := match x with
  | .thermal r => toInt32 h.l2 = 0 ∧ rs = [.list r] ∧ r.l2 = 0 ∧ r.data.length = 18
  | .poly r => toInt32 h.l2 = 0 ∧ rs = [.list r] ∧ r.l2 ≠ 0 ∧ (r.data.length : Int) = 18 * (r.l2 + 1) ∧ toInt32 r.data.length = 18 * (toInt32 r.l2 + 1)
  | .tab b => toInt32 h.l2 = 1 ∧ b.nfc = toInt32 h.n2 ∧ ∃ cs : List TAB1, rs = .list b.values :: cs.map .tab1 ∧ toInt32 b.values.data.length = 18 ∧
      b.nfc = cs.length ∧ (∀ c ∈ cs, (toInt32 c.base.l1 = 1 ∨ toInt32 c.base.l1 = 2) ∧ 1 ≤ toInt32 c.base.l2 ∧ toInt32 c.base.l2 ≤ 9) ∧
      cs.Pairwise (fun c c' => toInt32 c.base.l2 ≠ toInt32 c'.base.l2) ∧
      b.comps.length = 9 ∧ ∀ (i : Nat) c, b.comps[i]? = some (some c) ↔ c ∈ cs ∧ toInt32 c.base.l2 = i + 1

/-- MF1 MT460, LO = 1: NG TAB1 records, at least one; LO = 2: a LIST record with at least one value (counted as `int`). -/
def mf1mt460 (h : Cont) (x : Photons) (rs : List Rec) : Prop := match x with
  | .discrete l => toInt32 h.l1 = 1 ∧ rs = l.map .tab1 ∧ toInt32 h.n1 = l.length ∧ l ≠ []
  | .continuous r => toInt32 h.l1 = 2 ∧ rs = [.list r] ∧ 0 < toInt32 r.data.length

/-! ### files 3, 23, 27: a TAB1 record -/

def table (x : TAB1) (rs : List Rec) : Prop := rs = [.tab1 x]

/-! ### file 4 -/

/-- TAB2 and as many records as it says, at least one. -/
def tab2Of {α : Type} (f : α → Rec) (b : ISeq α) (rs : List Rec) : Prop :=
  rs = .tab2 b.tab2 :: b.seq.map f ∧ toInt32 b.tab2.n2 = b.seq.length ∧ b.seq ≠ []

/-- LTT = 0: nothing, 1: Legendre coefficients (LIST), 2: tables (TAB1), 3: both, the last energy of the first ones being the first energy of the
    second ones. -/
def angular (ltt : Int) (x : Angular) (rs : List Rec) : Prop := match x with
  | .isotropic => ltt = 0 ∧ rs = []
  | .legendre b => ltt = 1 ∧ tab2Of .list b rs
  | .tabulated b => ltt = 2 ∧ tab2Of .tab1 b rs
  | .mixed b => ltt = 3 ∧ (∃ r1 r2, rs = r1 ++ r2 ∧ tab2Of .list b.legendre r1 ∧ tab2Of .tab1 b.tabulated r2) ∧
      ∀ l r, b.legendre.seq.getLast? = some l → b.tabulated.seq.head? = some r → Disco.eqD l.c2 r.base.c2 = true

/-- MF4: a CONT record with LCT as L2, then the distributions. -/
def mf4 (h : Cont) (x : MF4Data) (rs : List Rec) : Prop :=
  ∃ c r, rs = .cont c :: r ∧ x.lct = toInt32 c.l2 ∧ angular h.l2 x.dist r

/-! ### file 5 -/

/-- What follows the TAB1 record of the probability, which has LF as L2. -/
def spectrum (lf : Int) (x : Spectrum) (rs : List Rec) : Prop := match x with
  | .tabulated b => lf = 1 ∧ tab2Of .tab1 b rs
  | .general a b => lf = 5 ∧ rs = [.tab1 a, .tab1 b]
  | .maxwell a => lf = 7 ∧ rs = [.tab1 a]
  | .evaporation a => lf = 9 ∧ rs = [.tab1 a]
  | .watt a b => lf = 11 ∧ rs = [.tab1 a, .tab1 b]
  | .madland a => lf = 12 ∧ rs = [.tab1 a]

def partial5 (x : Partial5) (rs : List Rec) : Prop :=
  ∃ r, rs = .tab1 x.probability :: r ∧ spectrum (toInt32 x.probability.base.l2) x.dist r

/-- MF5: NK >= 1 partial distributions. -/
def mf5 (h : Cont) (x : List Partial5) (rs : List Rec) : Prop :=
  toInt32 h.n1 = x.length ∧ x ≠ [] ∧ Many partial5 x rs

/-! ### file 6 -/

/-- The condition for the LIST records of LAW = 1: with ND = L1, NA = L2, NEP = N2 there are NEP groups of NA + 2 values; the energies (the first value
    of each group) after the first ND ones are sorted; for LANG = 2, NA is 1 or 2.  (Nothing is required for LANG = 3.)  NA + 2 is an `int`. -/
def continuumOk (lang : Int) (l : LIST) : Prop :=
  lang = 3 ∨ (0 < l.l2 + 2 ∧ 0 ≤ l.l1 ∧ l.l1 ≤ ((l.data.length + (l.l2 + 2).toNat - 1) / (l.l2 + 2).toNat : Nat) ∧
    (∀ (i : Nat) e e', l.l1 ≤ i → l.data[i * (l.l2 + 2).toNat]? = some e → l.data[(i + 1) * (l.l2 + 2).toNat]? = some e' →
      Disco.ltD e' e = false) ∧
    toInt32 l.l2 + 2 < 2147483648 ∧ toInt32 l.data.length = toInt32 l.n2 * (toInt32 l.l2 + 2) ∧ (lang = 2 → toInt32 l.l2 = 1 ∨ toInt32 l.l2 = 2))

/-- TAB2 and as many LIST records as it says (a `long`), not none (counted modulo 2^32), satisfying `P`. -/
def tab2Lists (P : TAB2 → LIST → Prop) (b : ISeq LIST) (rs : List Rec) : Prop :=
  rs = .tab2 b.tab2 :: b.seq.map .list ∧ b.tab2.n2 = b.seq.length ∧ (b.seq.length : Int) % 4294967296 ≠ 0 ∧ ∀ l ∈ b.seq, P b.tab2 l

/-- LAW = 1: LANG is L1 of the TAB2 record. -/
def continuum (b : ISeq LIST) (rs : List Rec) : Prop :=
  tab2Lists (fun r l => r.l1 ∈ [1, 2, 3, 11, 12, 13, 14, 15] ∧ continuumOk r.l1 l) b rs

/-- LAW = 2: LANG is L1 of each LIST record, 0: NL Legendre coefficients, 12, 14: NL pairs. -/
def twoBody (b : ISeq LIST) (rs : List Rec) : Prop :=
  tab2Lists (fun _ l => (l.l1 = 0 ∧ toInt32 l.data.length = toInt32 l.n2) ∨
    (l.l1 ∈ [12, 14] ∧ toInt32 l.data.length = 2 * toInt32 l.n2)) b rs

/-- LAW = 5: LTP is L1 of each LIST record, 1: 4 NL + 3 (identical particles: 3 NL + 3) values, 2: NL + 1, 12, 14, 15: NL pairs. -/
def charged (b : ISeq LIST) (rs : List Rec) : Prop :=
  tab2Lists (fun _ l =>
    (l.l1 = 1 ∧ (toInt32 l.data.length = 3 * toInt32 l.n2 + 3 ∨ toInt32 l.data.length = 4 * toInt32 l.n2 + 3)) ∨
    (l.l1 = 2 ∧ toInt32 l.data.length = toInt32 l.n2 + 1) ∨
    (l.l1 ∈ [12, 14, 15] ∧ toInt32 l.data.length = 2 * toInt32 l.n2)) b rs

/-- LAW = 7: TAB2 and for each energy TAB2 and for each cosine TAB1. -/
def laboratory (b : ISeq (ISeq TAB1)) (rs : List Rec) : Prop :=
  (∃ r, rs = .tab2 b.tab2 :: r ∧ Many (tab2Of .tab1) b.seq r) ∧ toInt32 b.tab2.n2 = b.seq.length ∧ b.seq ≠ []

/-- What follows the TAB1 record of the multiplicity, which has LAW as L2. -/
def law6 (mt law : Int) (x : Law6) (rs : List Rec) : Prop := match x with
  | .elsewhere l => law = l ∧ l ∈ [-4, -5, -14, -15] ∧ mt = 18 ∧ rs = []
  | .unknown => law = 0 ∧ rs = []
  | .continuum b => law = 1 ∧ continuum b rs
  | .twoBody b => law = 2 ∧ twoBody b rs
  | .isotropic => law = 3 ∧ rs = []
  | .recoils => law = 4 ∧ rs = []
  | .charged b => law = 5 ∧ charged b rs
  | .nBody c => law = 6 ∧ rs = [.cont c]
  | .laboratory b => law = 7 ∧ laboratory b rs

def product6 (mt : Int) (x : Product6) (rs : List Rec) : Prop :=
  ∃ r, rs = .tab1 x.multiplicity :: r ∧ law6 mt (toInt32 x.multiplicity.base.l2) x.dist r

/-- MF6: NK reaction products. -/
def mf6 (h : Cont) (mt : Int) (x : MF6Data) (rs : List Rec) : Prop :=
  x.jp = toInt32 h.l1 ∧ x.lct = toInt32 h.l2 ∧ toInt32 h.n1 = x.products.length ∧ Many (product6 mt) x.products rs

/-! ### file 7 -/

/-- Coherent elastic scattering: TAB1 for the first temperature, then LT = L1 LIST records with as many values as there are energies. -/
def coherent (x : TabLists) (rs : List Rec) : Prop :=
  rs = .tab1 x.1 :: x.2.map .list ∧ toInt32 x.1.base.l1 = x.2.length ∧ ∀ l ∈ x.2, (l.data.length : Int) = toInt32 x.1.x.length

/-- MF7 MT2, LTHR = 1: coherent, 2: incoherent (TAB1), 3: both. -/
def mf7mt2 (h : Cont) (x : Elastic) (rs : List Rec) : Prop := match x with
  | .coherent b => toInt32 h.l1 = 1 ∧ coherent b rs
  | .incoherent r => toInt32 h.l1 = 2 ∧ rs = [.tab1 r]
  | .mixed b r => toInt32 h.l1 = 3 ∧ ∃ r1, rs = r1 ++ [.tab1 r] ∧ coherent b r1

/-- A beta value: TAB1 for the first temperature, then LT = L1 LIST records with the same beta. -/
def scatteringFunction (x : TabLists) (rs : List Rec) : Prop :=
  rs = .tab1 x.1 :: x.2.map .list ∧ toInt32 x.1.base.l1 = x.2.length ∧ ∀ l ∈ x.2, Disco.eqD l.c2 x.1.base.c2 = true

/-- MF7 MT4: a LIST record with the constants, six for the principal and for each of NS = 0 .. 3 secondary scatterers (LLN = 0, 1 as L1); the scattering
    law for all betas, unless the first constant is 0; TAB1 with the effective temperature of the principal scatterer; TAB1 for each secondary
    scatterer whose type (the first of its six constants) is 0.  LAT is 0 or 1. -/
def mf7mt4 (h : Cont) (x : ScatteringData) (rs : List Rec) : Prop :=
  x.lat = toInt32 h.l2 ∧ x.lasym = toInt32 h.n1 ∧ (x.lat = 0 ∨ x.lat = 1) ∧
  (∃ r, rs = .list x.constants :: r ++ [.tab1 x.principal] ++ x.secondary.filterMap (·.map .tab1) ∧
    match x.law with
    | none => Disco.eqD (x.constants.data.headD Disco.zero) Disco.zero = true ∧ r = []
    | some b => Disco.eqD (x.constants.data.headD Disco.zero) Disco.zero = false ∧ (∃ r1, r = .tab2 b.tab2 :: r1 ∧ Many scatteringFunction b.seq r1) ∧
        toInt32 b.tab2.n2 = b.seq.length ∧ b.seq ≠ []) ∧
  0 ≤ x.constants.n2 ∧ x.constants.n2 ≤ 3 ∧ toInt32 x.constants.data.length = 6 * (x.constants.n2 + 1) ∧
  (toInt32 x.constants.l1 = 0 ∨ toInt32 x.constants.l1 = 1) ∧
  ∀ i, (x.secondary[i]?).map Option.isSome = (x.constants.data[6 + 6 * i]?).map (fun type => Disco.eqD type Disco.zero)

/-- `n` LIST records that satisfy `P`. -/
def lists (n : Int) (P : LIST → Prop) (x : List LIST) (rs : List Rec) : Prop :=
  toInt32 n = x.length ∧ rs = x.map .list ∧ ∀ l ∈ x, P l

/-- MF7 MT451: NA >= 1 LIST records with NI groups of six values. -/
def mf7mt451 (h : Cont) (x : List LIST) (rs : List Rec) : Prop :=
  lists h.l1 (fun l => toInt32 l.data.length = 6 * toInt32 l.n2) x rs ∧ x ≠ []

/-! ### file 8 -/

/-- MF8 MT454, MT459: LE + 1 = L1 LIST records with NFP groups of four values. -/
def yields (h : Cont) (x : List LIST) (rs : List Rec) : Prop :=
  lists h.l1 (fun l => toInt32 l.data.length = 4 * toInt32 l.n2) x rs

/-- A decay spectrum: a LIST record with LCON as L1, LCOV = 0 as L2 and NER as N2; NER LIST records with 4, 6 or 12 values; TAB1 if LCON is not 0.
    For LCON = 2 there is a discrete spectrum. -/
def decaySpectrum (x : DecaySpectrum) (rs : List Rec) : Prop :=
  rs = .list x.1 :: x.2.1.map .list ++ x.2.2.toList.map .tab1 ∧
  toInt32 x.1.n2 = x.2.1.length ∧ (∀ l ∈ x.2.1, toInt32 l.data.length ∈ [4, 6, 12]) ∧
  (x.2.2 = none ↔ toInt32 x.1.l1 = 0) ∧ (toInt32 x.1.l1 = 2 → x.2.1 ≠ []) ∧ toInt32 x.1.l2 = 0

/-- MF8 MT457: a LIST record with 3 or 17 pairs of decay energies; a LIST record with NDK groups of six values (a group also for NDK = 0);
    NSP spectra. -/
def mf8mt457 (h : Cont) (x : DecayData) (rs : List Rec) : Prop :=
  x.lis = toUInt32 h.l1 ∧ x.liso = toUInt32 h.l2 ∧
  (toInt32 (x.energies.data.length / 2 : Nat) = 3 ∨ toInt32 (x.energies.data.length / 2 : Nat) = 17) ∧
  toInt32 x.modes.data.length = 6 * (if toInt32 x.modes.n2 = 0 then 1 else toInt32 x.modes.n2) ∧
  toInt32 h.n2 = x.spectra.length ∧ ∃ r, rs = .list x.energies :: .list x.modes :: r ∧ Many decaySpectrum x.spectra r

/-! ### files 9, 10, 12, 13 -/

/-- MF9, MF10: NS TAB1 records. -/
def products (h : Cont) (x : Products) (rs : List Rec) : Prop :=
  x.lis = toInt32 h.l1 ∧ toInt32 h.n1 = x.products.length ∧ rs = x.products.map .tab1

/-- TAB1 for the total if there is more than one partial, then NK >= 1 TAB1 records. -/
def totalPartials (nk : Int) (x : TotalPartials) (rs : List Rec) : Prop :=
  toInt32 nk = x.2.length ∧ x.2 ≠ [] ∧ (x.1 = none ↔ x.2.length = 1) ∧ rs = (x.1.toList ++ x.2).map .tab1

/-- MF12, LO = 1: multiplicities; LO = 2: a LIST record whose N2 is the number of groups of LG + 1 values, LG = 1 or 2. -/
def mf12 (h : Cont) (x : PhotonProduction) (rs : List Rec) : Prop := match x with
  | .multiplicities b => toInt32 h.l1 = 1 ∧ totalPartials h.n1 b rs
  | .transitions l => toInt32 h.l1 = 2 ∧ rs = [.list l] ∧ l.n2 ≠ 0 ∧
      (toInt32 (Int.tdiv l.data.length l.n2 - 1) = 1 ∨ toInt32 (Int.tdiv l.data.length l.n2 - 1) = 2)

/-- MF13 -/
def mf13 (h : Cont) (x : TotalPartials) (rs : List Rec) : Prop := totalPartials h.n1 x rs

/-! ### files 14, 15 -/

/-- A discrete photon: a CONT record of which only C1 and C2 are kept. -/
def isotropicPhoton (x : Photon) (rs : List Rec) : Prop := ∃ c, rs = [.cont c] ∧ x = .isotropic c.c1 c.c2

/-- A photon that is not isotropic. -/
def anisotropicPhoton (ltt : Int) (x : Photon) (rs : List Rec) : Prop := match x with
  | .isotropic _ _ => False
  | .legendre b => ltt = 1 ∧ tab2Of .list b rs
  | .tabulated b => ltt = 2 ∧ tab2Of .tab1 b rs

/-- MF14: LI = 1: nothing (NK is kept); otherwise NI isotropic photons and NK - NI others.  (`nk` is 0 if there are photons, see `MF14Data`.) -/
def mf14 (h : Cont) (x : MF14Data) (rs : List Rec) : Prop :=
  (x.nk = if x.photons = [] then toInt32 h.n1 else 0) ∧
  ((h.l1 = 1 ∧ x.photons = [] ∧ rs = []) ∨
   (h.l1 ≠ 1 ∧ h.n1 < 2147483648 ∧ ∃ iso other r1 r2, x.photons = iso ++ other ∧ rs = r1 ++ r2 ∧
      h.n2 = iso.length ∧ h.n1 = iso.length + other.length ∧ Many isotropicPhoton iso r1 ∧ Many (anisotropicPhoton h.l2) other r2))

/-- MF15: NC >= 1 partial distributions: TAB1 with LF = 1 as L2, TAB2 and TAB1 records. -/
def partial15 (x : Partial15) (rs : List Rec) : Prop :=
  toInt32 x.1.base.l2 = 1 ∧ ∃ r, rs = .tab1 x.1 :: r ∧ tab2Of .tab1 x.2 r

def mf15 (h : Cont) (x : List Partial15) (rs : List Rec) : Prop :=
  toInt32 h.n1 = x.length ∧ x ≠ [] ∧ Many partial15 x rs

/-! ### files 26, 28 -/

/-- What follows the TAB1 record of the multiplicity, which has LAW as L2. -/
def law26 (law : Int) (x : Law26) (rs : List Rec) : Prop := match x with
  | .continuum b => law = 1 ∧ tab2Lists (fun r l => r.l1 = 1 ∧ continuumOk 1 l) b rs
  | .twoBody b => law = 2 ∧ tab2Of .list b rs ∧ ∀ l ∈ b.seq, toInt32 l.l1 ∈ [12, 14] ∧ toInt32 l.data.length = 2 * toInt32 l.n2
  | .transfer r => law = 8 ∧ rs = [.tab1 r]

def product26 (x : Product26) (rs : List Rec) : Prop :=
  ∃ r, rs = .tab1 x.multiplicity :: r ∧ law26 (toInt32 x.multiplicity.base.l2) x.dist r

/-- MF26: NK products. -/
def mf26 (h : Cont) (x : List Product26) (rs : List Rec) : Prop := toInt32 h.n1 = x.length ∧ Many product26 x rs

/-- MF28: NSS LIST records with NTR + 1 groups of six values. -/
def mf28 (h : Cont) (x : List LIST) (rs : List Rec) : Prop :=
  lists h.n1 (fun l => toInt32 l.data.length = 6 * (toInt32 l.n2 + 1)) x rs

/-! ### files 31, 33, 34, 35, 40 -/

/-- A square matrix with NE energies and all other values (LS = 0), or its upper triangle including the diagonal (LS not 0).
    The products are `int`s. -/
def squareOk (ls ne n : Int) : Prop :=
  if ls = 0 then (ne - 1) * (ne - 1) < 2147483648 ∧ n - ne = (ne - 1) * (ne - 1)
  else ne * (ne - 1) < 2147483648 ∧ n - ne = Int.tdiv (ne * (ne - 1)) 2

/-- The explicit covariances: LB is L2; LB = 0, 1, 2, 8, 9: NP pairs, LT = L1 = 0; LB = 3, 4: NP pairs, LT > 0; LB = 5: a square matrix with LS = L1;
    LB = 6: a matrix with NER = N2 row energies, NT - 1 being a multiple of NER. -/
def explicitOk (l : LIST) : Prop :=
  (l.l2 ∈ [0, 1, 2, 8, 9] ∧ toInt32 l.l1 = 0 ∧ toInt32 l.data.length = 2 * toInt32 l.n2) ∨
  (l.l2 ∈ [3, 4] ∧ 0 < toInt32 l.l1 ∧ toInt32 l.data.length = 2 * toInt32 l.n2) ∨
  (l.l2 = 5 ∧ squareOk (toInt32 l.l1) (toInt32 l.n2) (toInt32 l.data.length)) ∨
  (l.l2 = 6 ∧ toInt32 l.n2 ≠ 0 ∧ toInt32 l.n2 ∣ toInt32 l.data.length - 1)

/-- A derived covariance: a CONT record with LTY = 0 .. 3 as L2, of which nothing else is kept, and a LIST record. -/
def derived (x : Derived) (rs : List Rec) : Prop :=
  ∃ c, match x with
    | .redundant l => c.l2 = 0 ∧ rs = [.cont c, .list l]
    | .ratio lty l => c.l2 = lty ∧ lty ∈ [1, 2, 3] ∧ rs = [.cont c, .list l]

/-- A reaction block: a CONT record with XMF1, XLFS1, MAT1, MT1, NC, NI; NC derived and NI explicit covariances.  (A negative NC counts as 0.) -/
def reactionBlock (x : ReactionBlock) (rs : List Rec) : Prop :=
  ∃ c r, rs = .cont c :: r ++ x.explicit.map .list ∧
    x.xmf1 = toInt32 (Disco.round c.c1) ∧ x.xlfs1 = toInt32 (Disco.round c.c2) ∧ x.mat1 = toInt32 c.l1 ∧ x.mt1 = toInt32 c.l2 ∧
    (x.derived.length : Int) = max 0 (toInt32 c.n1) ∧ toInt32 c.n2 = x.explicit.length ∧
    Many derived x.derived r ∧ ∀ l ∈ x.explicit, explicitOk l

/-- MF31: NL reaction blocks. -/
def mf31 (h : Cont) (x : List ReactionBlock) (rs : List Rec) : Prop := toInt32 h.n2 = x.length ∧ Many reactionBlock x rs

/-- MF33: NL reaction blocks, MTL. -/
def mf33 (h : Cont) (x : Int × List ReactionBlock) (rs : List Rec) : Prop :=
  x.1 = toInt32 h.l2 ∧ toInt32 h.n2 = x.2.length ∧ Many reactionBlock x.2 rs

/-- A CONT record with L, L1, LCT, NI, then NI explicit covariances. -/
def legendreBlock (x : LegendreBlock) (rs : List Rec) : Prop :=
  ∃ c, rs = .cont c :: x.data.map .list ∧ x.order = toInt32 c.l1 ∧ x.order1 = toInt32 c.l2 ∧ x.lct = toInt32 c.n1 ∧
    toInt32 c.n2 = x.data.length ∧ ∀ l ∈ x.data, explicitOk l

/-- A CONT record with MT1, NL, NL1, then NL * NL1 Legendre blocks; NL ( NL + 1 ) / 2 of them and NL = NL1 if MT1 is the MT number of the section. -/
def reactionBlock34 (mt : Int) (x : ReactionBlock34) (rs : List Rec) : Prop :=
  ∃ c r, rs = .cont c :: r ∧ x.mt1 = toInt32 c.l2 ∧ x.nl = toInt32 c.n1 ∧ x.nl1 = toInt32 c.n2 ∧
    toInt32 (if mt = c.l2 then Int.tdiv (c.n1 * (c.n2 + 1)) 2 else c.n1 * c.n2) = x.blocks.length ∧
    (if mt = x.mt1 then x.nl = x.nl1 ∧ x.nl * (x.nl + 1) < 2147483648 ∧ Int.tdiv (x.nl * (x.nl + 1)) 2 = x.blocks.length else x.nl * x.nl1 = x.blocks.length) ∧
    Many legendreBlock x.blocks r

/-- MF34: NMT1 reaction blocks, LTT. -/
def mf34 (h : Cont) (mt : Int) (x : Int × List ReactionBlock34) (rs : List Rec) : Prop :=
  x.1 = toInt32 h.l2 ∧ toInt32 h.n2 = x.2.length ∧ Many (reactionBlock34 mt) x.2 rs

/-- MF35: NK LIST records with LB = 7 and the upper triangle of a matrix. -/
def mf35 (h : Cont) (x : List LIST) (rs : List Rec) : Prop :=
  lists h.n1 (fun l => toInt32 l.l2 = 7 ∧ squareOk 1 (toInt32 l.n2) (toInt32 l.data.length)) x rs

/-- A CONT record with QM, QI, IZAP, LFS, and NL as N2, then NL reaction blocks. -/
def levelBlock (x : LevelBlock) (rs : List Rec) : Prop :=
  ∃ c r, rs = .cont c :: r ∧ x.qm = c.c1 ∧ x.qi = c.c2 ∧ x.izap = toInt32 c.l1 ∧ x.lfs = toInt32 c.l2 ∧
    toInt32 c.n2 = x.reactions.length ∧ Many reactionBlock x.reactions r

/-- MF40: NS level blocks, LIS. -/
def mf40 (h : Cont) (x : Int × List LevelBlock) (rs : List Rec) : Prop :=
  x.1 = toInt32 h.l1 ∧ toInt32 h.n1 = x.2.length ∧ Many levelBlock x.2 rs

/-! ### file 2 -/

/-- MF2 MT152: a LIST record with NREAC = L1, NSIGZ = L2, NUNR = N2: the dilutions, then for each energy the energy and the cross sections.
    The products are `int`s. -/
def mf2mt152 (h : Cont) (x : Dilution) (rs : List Rec) : Prop :=
  (x.lssf = true ↔ h.l1 ≠ 0) ∧ x.interpolation = toInt32 h.n2 ∧ rs = [.list x.data] ∧
  toInt32 x.data.data.length = toInt32 x.data.l2 + toInt32 x.data.n2 * (1 + toInt32 x.data.l1 * toInt32 x.data.l2) ∧
  IsInt32 (toInt32 x.data.l1 * toInt32 x.data.l2) ∧ IsInt32 (1 + toInt32 x.data.l1 * toInt32 x.data.l2) ∧
  IsInt32 (toInt32 x.data.n2 * (1 + toInt32 x.data.l1 * toInt32 x.data.l2))

/-- LRF = 1, 2, 3: a CONT record with SPI, AP, LAD, NLS, NLSC, and NLS >= 1 LIST records with NRS >= 1 groups of six values. -/
def breitWigner (x : BwHeader × Unit × List LIST) (rs : List Rec) : Prop :=
  ∃ c, rs = .cont c :: x.2.2.map .list ∧ x.1.spi = c.c1 ∧ x.1.ap = c.c2 ∧ (x.1.lad = true ↔ c.l1 ≠ 0) ∧ x.1.nlsc = toInt32 c.n2 ∧
    toInt32 c.n1 = x.2.2.length ∧ x.2.2 ≠ [] ∧ ∀ l ∈ x.2.2, 1 ≤ toInt32 l.n2 ∧ toInt32 l.data.length = 6 * toInt32 l.n2

/-- Unresolved, LFW = 0, LRF = 1: a CONT record with SPI, AP, LSSF, NLS, and NLS >= 1 LIST records with NJS groups of six values. -/
def caseA (x : UrHeader × Unit × List LIST) (rs : List Rec) : Prop :=
  ∃ c, rs = .cont c :: x.2.2.map .list ∧ x.1.spi = c.c1 ∧ x.1.ap = c.c2 ∧ (x.1.lssf = true ↔ c.l1 ≠ 0) ∧
    toInt32 c.n1 = x.2.2.length ∧ x.2.2 ≠ [] ∧ ∀ l ∈ x.2.2, toInt32 l.data.length = 6 * toInt32 l.n2

/-- An l value: a CONT record with AWRI, L and NJS, and NJS >= 1 LIST records that satisfy `P`. -/
def lvalue (P : LIST → Prop) (x : LValueC) (rs : List Rec) : Prop :=
  ∃ c, rs = .cont c :: x.2.2.map .list ∧ x.1.awri = c.c1 ∧ x.1.l = toInt32 c.l1 ∧ toInt32 c.n1 = x.2.2.length ∧ x.2.2 ≠ [] ∧ ∀ l ∈ x.2.2, P l

/-- Unresolved, LRF = 2: a CONT record with SPI, AP, LSSF, NLS, and NLS >= 1 l values, their LIST records with NE + 1 groups of six values, NE >= 1
    (counted modulo 2^32). -/
def caseC (x : UrHeader × Unit × List LValueC) (rs : List Rec) : Prop :=
  ∃ c r, rs = .cont c :: r ∧ x.1.spi = c.c1 ∧ x.1.ap = c.c2 ∧ (x.1.lssf = true ↔ c.l1 ≠ 0) ∧ toInt32 c.n1 = x.2.2.length ∧ x.2.2 ≠ [] ∧
    Many (lvalue fun l => 6 ≤ l.data.length ∧ ∃ ne : Int, ne = ((l.data.length - 6 + 5) / 6 : Nat) % 4294967296 ∧ ne ≠ 0 ∧
      (l.data.length : Int) % 4294967296 = (6 + 6 * ne) % 4294967296) x.2.2 r

/-- Unresolved, LFW = 1, LRF = 1: a LIST record with NE energies and NLS as N2, and NLS >= 1 l values, their LIST records with 6 + NE values, NE >= 1
    (counted modulo 2^32). -/
def caseB (x : LIST × List LValueC) (rs : List Rec) : Prop :=
  ∃ r, rs = .list x.1 :: r ∧ toInt32 x.1.n2 = x.2.length ∧ x.2 ≠ [] ∧
    Many (lvalue fun l => 6 ≤ l.data.length ∧ ((l.data.length - 6 : Nat) : Int) % 4294967296 ≠ 0 ∧
      ((l.data.length - 6 : Nat) : Int) % 4294967296 = (x.1.data.length : Int) % 4294967296) x.2 r

/-- A background R-matrix for channel `i`: a CONT record with LCH = `i` and LBK, then nothing (LBK = 0), two TAB1 records with the same number of points and
    regions (LBK = 1), or a LIST record with 5 (LBK = 2) or 3 (LBK = 3) values. -/
def background (x : Int × Background) (rs : List Rec) : Prop :=
  ∃ c r, rs = .cont c :: r ∧ x.1 = toInt32 c.l1 ∧ match x.2 with
    | .none => toInt32 c.l2 = 0 ∧ r = []
    | .tabulated a b => toInt32 c.l2 = 1 ∧ r = [.tab1 a, .tab1 b] ∧ a.x.length = b.x.length ∧ a.base.bounds.length = b.base.bounds.length
    | .sammy ed eu v => toInt32 c.l2 = 2 ∧ ∃ l, r = [.list l] ∧ ed = l.c1 ∧ eu = l.c2 ∧ v = l.data ∧ v.length = 5
    | .frohner ed eu v => toInt32 c.l2 = 3 ∧ ∃ l, r = [.list l] ∧ ed = l.c1 ∧ eu = l.c2 ∧ v = l.data ∧ v.length = 3

/-- A spin group: a LIST record with KBK as L1 and NCH as N2 groups of six values; a LIST record with the resonances, in groups of six values; the background
    R-matrices of KBK different channels. -/
def spinGroup (x : SpinGroup) (rs : List Rec) : Prop :=
  ∃ (r : List Rec) (items : List (Int × Background)), rs = .list x.1.1 :: .list x.1.2 :: r ∧
    1 ≤ toInt32 x.1.1.n2 ∧ toInt32 x.1.1.data.length = 6 * toInt32 x.1.1.n2 ∧
    1 ≤ toInt32 x.1.2.data.length ∧ 6 ∣ toInt32 x.1.2.data.length ∧
    Many background items r ∧ toInt32 x.1.1.l1 = items.length ∧
    (x.2.length : Int) = toInt32 (x.1.1.data.length / 6 : Nat) ∧
    (∀ y ∈ items, 1 ≤ y.1 ∧ y.1 ≤ x.2.length) ∧ items.Pairwise (fun y y' => y.1 ≠ y'.1) ∧
    ∀ (i : Nat) b, x.2[i]? = some (some b) ↔ ((i : Int) + 1, b) ∈ items

/-- LRF = 7: a CONT record with IFG, KRM, NJS, KRL; a LIST record with NPP >= 1 (L1) groups of twelve values; NJS >= 1 spin groups. -/
def rml (x : RmlHeader × LIST × List SpinGroup) (rs : List Rec) : Prop :=
  ∃ c r, rs = .cont c :: .list x.2.1 :: r ∧ (x.1.ifg = true ↔ c.l1 ≠ 0) ∧ x.1.krm = toInt32 c.l2 ∧ (x.1.krl = true ↔ c.n2 ≠ 0) ∧
    1 ≤ toInt32 x.2.1.l1 ∧ toInt32 x.2.1.data.length = 12 * toInt32 x.2.1.l1 ∧
    toInt32 c.n1 = x.2.2.length ∧ x.2.2 ≠ [] ∧ Many spinGroup x.2.2 r

/-- The parameters for LRU, LRF and LFW. -/
def resParams (lru lrf lfw : Int) (x : ResParams) (rs : List Rec) : Prop := match x with
  | .special spi ap => lru = 0 ∧ ∃ c, rs = [.cont c] ∧ spi = c.c1 ∧ ap = c.c2
  | .slbw b => lru = 1 ∧ lrf = 1 ∧ breitWigner b rs
  | .mlbw b => lru = 1 ∧ lrf = 2 ∧ breitWigner b rs
  | .reichMoore b => lru = 1 ∧ lrf = 3 ∧ breitWigner b rs ∧ (b.2.2.length : Int) ≤ b.1.nlsc
  | .rml b => lru = 1 ∧ lrf = 7 ∧ rml b rs
  | .caseA b => lru = 2 ∧ lrf = 1 ∧ lfw = 0 ∧ caseA b rs
  | .caseB b => lru = 2 ∧ lrf = 1 ∧ lfw = 1 ∧ caseB b rs
  | .caseC b => lru = 2 ∧ lrf = 2 ∧ caseC b rs

/-- A resonance range: a CONT record with EL, EH, LRU, LRF, NRO, NAPS; TAB1 for NRO = 1; the parameters.  NAPS is 0 or 1, for NRO = 1 also 2; NRO = 1 is not
    possible for LRU = 0, nor for LRF = 7 with LRU = 1. -/
def resRange (lfw : Int) (x : ResRange) (rs : List Rec) : Prop :=
  ∃ c r, rs = .cont c :: x.radius.toList.map .tab1 ++ r ∧ x.el = c.c1 ∧ x.eh = c.c2 ∧ x.naps = toInt32 c.n2 ∧
    resParams (toInt32 c.l1) (toInt32 c.l2) lfw x.parameters r ∧ 0 ≤ x.naps ∧
    ((toInt32 c.n1 = 0 ∧ x.radius = none ∧ x.naps ≤ 1) ∨
     (toInt32 c.n1 = 1 ∧ x.radius ≠ none ∧ x.naps ≤ 2 ∧ toInt32 c.l1 ≠ 0 ∧ ¬(toInt32 c.l1 = 1 ∧ toInt32 c.l2 = 7)))

/-- An isotope: a CONT record with ZAI, ABN, LFW, NER, and NER ranges. -/
def isotope (x : Isotope) (rs : List Rec) : Prop :=
  ∃ c r, rs = .cont c :: r ∧ x.zai = toInt32 (Disco.round c.c1) ∧ x.abn = c.c2 ∧ (x.lfw = true ↔ c.l2 ≠ 0) ∧
    toInt32 c.n1 = x.ranges.length ∧ Many (resRange (toInt32 c.l2)) x.ranges r

/-- MF2 MT151: NIS >= 1 isotopes. -/
def mf2mt151 (h : Cont) (x : List Isotope) (rs : List Rec) : Prop :=
  toInt32 h.n1 = x.length ∧ x ≠ [] ∧ Many isotope x rs

/-! ### all section types -/

/-- The format of the records of a section between HEAD and SEND. -/
def body : (T : SectionType) → (h : Cont) → (mt : Int) → T.Data → List Rec → Prop
  | .mf1mt451, h, _ => mf1mt451 h
  | .mf1mt452, h, _ => nubar h.l2
  | .mf1mt455, h, _ => mf1mt455 h
  | .mf1mt456, h, _ => nubar h.l2
  | .mf1mt458, h, _ => mf1mt458 h
  | .mf1mt460, h, _ => mf1mt460 h
  | .mf2mt151, h, _ => mf2mt151 h
  | .mf2mt152, h, _ => mf2mt152 h
  | .mf3, _, _ => table
  | .mf4, h, _ => mf4 h
  | .mf5, h, _ => mf5 h
  | .mf6, h, mt => mf6 h mt
  | .mf7mt2, h, _ => mf7mt2 h
  | .mf7mt4, h, _ => mf7mt4 h
  | .mf7mt451, h, _ => mf7mt451 h
  | .mf8mt454, h, _ => yields h
  | .mf8mt457, h, _ => mf8mt457 h
  | .mf8mt459, h, _ => yields h
  | .mf9, h, _ => products h
  | .mf10, h, _ => products h
  | .mf12, h, _ => mf12 h
  | .mf13, h, _ => mf13 h
  | .mf14, h, _ => mf14 h
  | .mf15, h, _ => mf15 h
  | .mf23, _, _ => table
  | .mf26, h, _ => mf26 h
  | .mf27, _, _ => table
  | .mf28, h, _ => mf28 h
  | .mf31, h, _ => mf31 h
  | .mf33, h, _ => mf33 h
  | .mf34, h, mt => mf34 h mt
  | .mf35, h, _ => mf35 h
  | .mf40, h, _ => mf40 h

/-- The MF number, and the MT number if there is only one section of this type. -/
def numbers : SectionType → Int × Option Int
  | .mf1mt451 => (1, some 451)
  | .mf1mt452 => (1, some 452)
  | .mf1mt455 => (1, some 455)
  | .mf1mt456 => (1, some 456)
  | .mf1mt458 => (1, some 458)
  | .mf1mt460 => (1, some 460)
  | .mf2mt151 => (2, some 151)
  | .mf2mt152 => (2, some 152)
  | .mf3 => (3, none)
  | .mf4 => (4, none)
  | .mf5 => (5, none)
  | .mf6 => (6, none)
  | .mf7mt2 => (7, some 2)
  | .mf7mt4 => (7, some 4)
  | .mf7mt451 => (7, some 451)
  | .mf8mt454 => (8, some 454)
  | .mf8mt457 => (8, some 457)
  | .mf8mt459 => (8, some 459)
  | .mf9 => (9, none)
  | .mf10 => (10, none)
  | .mf12 => (12, none)
  | .mf13 => (13, none)
  | .mf14 => (14, none)
  | .mf15 => (15, none)
  | .mf23 => (23, none)
  | .mf26 => (26, none)
  | .mf27 => (27, none)
  | .mf28 => (28, none)
  | .mf31 => (31, none)
  | .mf33 => (33, none)
  | .mf34 => (34, none)
  | .mf35 => (35, none)
  | .mf40 => (40, none)

/-- The types whose constructor compares the MAT and MF numbers of the HEAD record with the expected ones. -/
def comparesHead : SectionType → Prop
  | .mf1mt455 | .mf2mt151 | .mf2mt152 | .mf7mt2 | .mf7mt4 | .mf7mt451 | .mf8mt454 | .mf8mt457 | .mf8mt459 | .mf9 | .mf10 | .mf12 | .mf13 | .mf14
  | .mf28 => False
  | _ => True

/-- The types whose records have to have the MAT number of the HEAD record rather than the expected one (which can only differ for types that do not compare
    the two). -/
def headMAT : SectionType → Bool
  | .mf2mt152 | .mf14 => true
  | _ => false

/-- The types whose records have to have the MT number of the HEAD record, although the MT number of the type is fixed. -/
def headMT : SectionType → Bool
  | .mf1mt452 | .mf1mt456 | .mf7mt451 => true
  | _ => false

/-- The MT number of a section with this HEAD record. -/
def mt (T : SectionType) (head : Division) : Int := (numbers T).2.getD head.tail.mt

/-- The numbers that the records of a section have to have. -/
def recNums (T : SectionType) (head : Division) (mat : Int) : Nums :=
  ⟨if headMAT T then head.tail.mat else mat, (numbers T).1, if headMT T then head.tail.mt else mt T head⟩

/-- The HEAD record is accepted: ZA >= 1, AWR is not negative, MT >= 1 (if it is not fixed), and the numbers are compared for some types. -/
def headOk (T : SectionType) (head : Division) (mat : Int) : Prop :=
  1 ≤ headZA head ∧ Disco.ltD head.base.c2 Disco.zero = false ∧ ((numbers T).2 = none → 1 ≤ head.tail.mt) ∧
  (comparesHead T → head.tail.mat = mat ∧ head.tail.mf = (numbers T).1)

/-- A SEND record with these numbers comes next. -/
def sendAt (mat mf : Int) (s s' : St) : Prop :=
  ∃ d, readDivision s = .ok (d, s') ∧ d.isSend = true ∧ d.tail.mat = mat ∧ d.tail.mf = mf

end Fmt
end ENDFtk

import Verif.Section.Access4
import Verif.Props.Access8
import Verif.Props.Build6
import Verif.Props.Format32
import Verif.Props.Getters3
import Verif.Props.CovGetters5
/-
  C62, part 9: the getters of section 32/151.
-/
set_option linter.unusedVariables false
set_option linter.unusedSectionVars false
set_option linter.unusedSimpArgs false
namespace ENDFtk.Props
variable [Disco] [CorrOps]

/-! ### objects that were made from data -/

/-- LCOMP = 0, LRF = 1. -/
theorem C62_made_limitedSingle {spi ap : Dbl} {dap : Option Dbl} {lvalues : List LIST} {x : CovParams} (h : Make.limitedSingle spi ap dap lvalues = .ok x)
    (hn : (lvalues.length : Int) < 2147483648) :
    (x.type.lru, x.type.lrf, x.type.lcomp) = (1, 1, 0) ∧ ∃ b, x = ⟨.limitedSLBW, b⟩ ∧ Get.Limited32.SPI b = spi ∧ Get.Limited32.AP b = ap ∧ Get.Limited32.DAP b = dap ∧
      (Get.Limited32.ISR b = true ↔ dap ≠ none) ∧ Get.Limited32.NLS b = lvalues.length ∧ Get.Limited32.lValues b = lvalues := by
  unfold Make.limitedSingle at h
  split at h
  · cases h; exact ⟨rfl, _, rfl, rfl, rfl, rfl, by cases dap <;> simp [Get.Limited32.ISR], asInt_lt hn, rfl⟩
  · cases h

/-- LCOMP = 0, LRF = 2. -/
theorem C62_made_limitedMulti {spi ap : Dbl} {dap : Option Dbl} {lvalues : List LIST} {x : CovParams} (h : Make.limitedMulti spi ap dap lvalues = .ok x)
    (hn : (lvalues.length : Int) < 2147483648) :
    (x.type.lru, x.type.lrf, x.type.lcomp) = (1, 2, 0) ∧ ∃ b, x = ⟨.limitedMLBW, b⟩ ∧ Get.Limited32.SPI b = spi ∧ Get.Limited32.AP b = ap ∧ Get.Limited32.DAP b = dap ∧
      (Get.Limited32.ISR b = true ↔ dap ≠ none) ∧ Get.Limited32.NLS b = lvalues.length ∧ Get.Limited32.lValues b = lvalues := by
  unfold Make.limitedMulti at h
  split at h
  · cases h; exact ⟨rfl, _, rfl, rfl, rfl, rfl, by cases dap <;> simp [Get.Limited32.ISR], asInt_lt hn, rfl⟩
  · cases h

/-- What the getters of the parameters with LCOMP = 1 return. -/
def GeneralSays {δ α : Type} (b : (Dbl × Dbl × Int) × Option δ × Dbl × List α × List LIST) (awri spi ap : Dbl) (dap : Option δ) (nls : Int) (short : List α) (long : List LIST) : Prop :=
  Get.General32.SPI b = spi ∧ Get.General32.AP b = ap ∧ Get.General32.NLS b = nls ∧ Get.General32.DAP b = dap ∧ (Get.General32.ISR b = true ↔ dap ≠ none) ∧
  Get.General32.AWRI b = awri ∧ Get.General32.NSRS b = short.length ∧ Get.General32.NLRS b = long.length ∧ Get.General32.shortRangeBlocks b = short ∧
  Get.General32.longRangeBlocks b = long

/-- LCOMP = 1, LRF = 1, 2, 3, 7. -/
theorem C62_made_general (awri spi ap : Dbl) (nls : Int) (short long : List LIST) (hs : (short.length : Int) < 2147483648) (hl : (long.length : Int) < 2147483648) :
    (∀ dap, ∃ b, Make.generalSingle awri spi ap dap nls short long = ⟨.generalSLBW, b⟩ ∧ GeneralSays b awri spi ap dap nls short long) ∧
    (∀ dap, ∃ b, Make.generalMulti awri spi ap dap nls short long = ⟨.generalMLBW, b⟩ ∧ GeneralSays b awri spi ap dap nls short long) ∧
    (∀ dap, ∃ b, Make.generalReichMoore awri spi ap dap nls short long = ⟨.generalRM, b⟩ ∧ GeneralSays b awri spi ap dap nls short long) ∧
    (∀ blocks : List (Unit × List LIST × LIST), (blocks.length : Int) < 2147483648 →
      ∃ b, Make.generalRml awri blocks = ⟨.generalRML, b⟩ ∧ GeneralSays b awri Disco.zero Disco.zero none 0 blocks []) := by
  refine ⟨fun dap => ⟨_, rfl, ?_⟩, fun dap => ⟨_, rfl, ?_⟩, fun dap => ⟨_, rfl, ?_⟩, fun blocks hb => ⟨_, rfl, rfl, rfl, rfl, rfl, by simp [Get.General32.ISR], rfl, asInt_lt hb, asInt_lt (n := 0) (by simp), rfl, rfl⟩⟩ <;>
    exact ⟨rfl, rfl, rfl, rfl, by cases dap <;> simp [Get.General32.ISR], rfl, asInt_lt hs, asInt_lt hl, rfl, rfl⟩

/-- A block of the R-matrix limited formalism. -/
theorem C62_made_shortRml (parameters : List LIST) (covariances : LIST) (hn : (parameters.length : Int) < 2147483648) :
    let b := Make.shortRangeRml parameters covariances
    Get.ShortRml32.NJSX b = parameters.length ∧ Get.ShortRml32.resonanceParameters b = parameters ∧ Get.ShortRml32.covarianceMatrix b = covariances :=
  ⟨asInt_lt hn, rfl, rfl⟩

/-- The correlation matrix: the coordinates and the values are those given. -/
theorem C62_made_correlations {order : Int} {i j : List Int} {c : List Dbl} {ndigit : Nat} {m : CorrMatrix} (h : CorrMatrix.make order i j c ndigit = .ok m)
    (ho : 0 ≤ order ∧ order < 4294967296) :
    Get.Correlations32.NDIGIT m = ndigit ∧ Get.Correlations32.NNN m = order ∧ Get.Correlations32.I m = i ∧ Get.Correlations32.J m = j ∧
    Get.Correlations32.correlations m = c := by
  unfold CorrMatrix.make at h
  split at h
  · cases h
  · rename_i hl
    simp only [Decidable.not_not] at hl
    split at h
    · cases h
    · cases h
      refine ⟨rfl, Int.emod_eq_of_lt ho.1 ho.2, ?_, ?_, ?_⟩
      · simp only [Get.Correlations32.I]; rw [List.map_fst_zip]; simp; omega
      · simp only [Get.Correlations32.J]
        rw [show (fun x : Int × Int × Dbl => x.2.1) = Prod.fst ∘ Prod.snd from rfl, ← List.map_map, List.map_snd_zip (by simp; omega), List.map_fst_zip (by omega)]
      · simp only [Get.Correlations32.correlations]
        rw [show (fun x : Int × Int × Dbl => x.2.2) = Prod.snd ∘ Prod.snd from rfl, ← List.map_map, List.map_snd_zip (by simp; omega), List.map_snd_zip (by omega)]

/-- What the getters of the parameters with LCOMP = 2 return. -/
def CompactSays {δ α : Type} (b : (Dbl × Dbl × Int × Int) × Option δ × α × CorrMatrix) (spi ap : Dbl) (dap : Option δ) (parameters : α) (matrix : CorrMatrix) : Prop :=
  Get.Compact32.SPI b = spi ∧ Get.Compact32.AP b = ap ∧ Get.Compact32.DAP b = dap ∧ (Get.Compact32.ISR b = true ↔ dap ≠ none) ∧
  Get.Compact32.uncertainties b = parameters ∧ Get.Compact32.correlationMatrix b = matrix

/-- A spin group of the compact covariances of the R-matrix limited formalism, given its channels and its parameters. -/
theorem C62_made_compactSpin {spin parity : Dbl} {ppi lm : List Int} {s b apt ape : List Dbl} {c : LIST}
    (hc : ResonanceChannels.make spin parity ppi lm s b apt ape 0 0 = .ok c) {er der : List Dbl} {gam dgam : List (List Dbl)} {p : LIST}
    (hp : CompactParameters.make er gam der dgam = .ok p) (hd : ∀ g ∈ gam, ∀ d ∈ dgam, d.length = g.length) :
    Get.CompactSpin32.AJ (c, p) = spin ∧ Get.CompactSpin32.PJ (c, p) = parity ∧ (Small c → Get.CompactSpin32.NCH (c, p) = lm.length) ∧
    Get.CompactSpin32.NRSA (c, p) = er.length ∧ Get.CompactSpin32.channels (c, p) = c ∧ Get.CompactSpin32.parameters (c, p) = p := by
  obtain ⟨h1, h2, -, -, h3, -⟩ := C48_resonanceChannels hc
  obtain ⟨-, -, h4, -⟩ := C60_compactParameters hp hd
  exact ⟨h1, h2, h3, h4, rfl, rfl⟩

/-- LCOMP = 2, LRF = 1, 2, 3, 7. -/
theorem C62_made_compact (spi ap : Dbl) (parameters : LIST) (matrix : CorrMatrix) :
    (∀ dap, ∃ b, Make.compactSingle spi ap dap parameters matrix = ⟨.compactSLBW, b⟩ ∧ CompactSays b spi ap dap parameters matrix) ∧
    (∀ dap, ∃ b, Make.compactMulti spi ap dap parameters matrix = ⟨.compactMLBW, b⟩ ∧ CompactSays b spi ap dap parameters matrix) ∧
    (∀ lad dap, ∃ b, Make.compactReichMoore spi ap lad dap parameters matrix = ⟨.compactRM, b⟩ ∧ CompactSays b spi ap dap parameters matrix ∧ Get.Compact32.LAD b = lad) ∧
    (∀ ifg dap pairs groups u, Make.compactRmlUncertainties pairs groups = .ok u → (groups.length : Int) < 4294967296 →
      ∃ b, Make.compactRml ifg dap u matrix = ⟨.compactRML, b⟩ ∧ CompactSays b Disco.zero Disco.zero dap u matrix ∧ Get.Compact32.IFG b = ifg ∧ Get.Compact32.NJS b = groups.length ∧
        Get.CompactRml32.NJSX u = groups.length ∧ Get.CompactRml32.particlePairs u = pairs ∧ Get.CompactRml32.spinGroups u = groups) := by
  refine ⟨fun dap => ⟨_, rfl, ?_⟩, fun dap => ⟨_, rfl, ?_⟩, fun lad dap => ⟨_, rfl, ?_, ?_⟩, fun ifg dap pairs groups u h hn => ?_⟩
  · exact ⟨rfl, rfl, rfl, by cases dap <;> simp [Get.Compact32.ISR], rfl, rfl⟩
  · exact ⟨rfl, rfl, rfl, by cases dap <;> simp [Get.Compact32.ISR], rfl, rfl⟩
  · exact ⟨rfl, rfl, rfl, by cases dap <;> simp [Get.Compact32.ISR], rfl, rfl⟩
  · cases lad <;> simp [Get.Compact32.LAD, Get.Compact32.L1, ofBool]
  · unfold Make.compactRmlUncertainties at h
    split at h
    · cases h
      have e : toUInt32 (groups.length : Nat) = groups.length := toUInt32_of ⟨by omega, hn⟩
      refine ⟨_, rfl, ⟨rfl, rfl, rfl, by cases dap <;> simp [Get.Compact32.ISR], rfl, rfl⟩, ?_, ?_, e, rfl, rfl⟩
      · cases ifg <;> simp [Get.Compact32.IFG, Get.Compact32.L1, ofBool]
      · show toUInt32 (toUInt32 (groups.length : Nat)) = _
        rw [e]; exact e
    · cases h

/-- Unresolved resonances: LFW is the number of average parameters being at least 5. -/
theorem C62_made_unresolved32 (spi ap : Dbl) (lvalues : List LIST) {mpar : Int} {values : List Dbl} {matrix : LIST} (hm : TriangularMatrix.make mpar values = .ok matrix)
    (hn : (lvalues.length : Int) < 2147483648) (hp : IsInt32 mpar) :
    ∃ b, Make.unresolvedRelative spi ap lvalues matrix = ⟨.unresolved, b⟩ ∧ Get.Unresolved32.SPI b = spi ∧ Get.Unresolved32.AP b = ap ∧ Get.Unresolved32.NLS b = lvalues.length ∧
      Get.Unresolved32.lValues b = lvalues ∧ Get.Unresolved32.covarianceMatrix b = matrix ∧ (Get.Unresolved32.LFW b = true ↔ 5 ≤ mpar) := by
  refine ⟨_, rfl, rfl, rfl, asInt_lt hn, rfl, rfl, ?_⟩
  obtain ⟨rfl, -⟩ := verified_require hm
  simp [Get.Unresolved32.LFW, Get.Unresolved32.covarianceMatrix, TriangularMatrix.numberAverageParameters, toInt32_of hp]

/-- The covariances of the scattering radius. -/
theorem C62_made_radius32 (data : List LIST) (hn : (data.length : Int) < 2147483648) :
    Get.Radius32.NI (Make.radiusCovariances data) = data.length ∧ Get.Radius32.data (Make.radiusCovariances data) = data := ⟨asInt_lt hn, rfl⟩

/-- The range: LRU, LRF and LFW are those of the type of the parameters. -/
theorem C62_made_covRange {el eh : Dbl} {naps : Int} {parameters : CovParams} {radius : Option (Unit × List LIST)} {x : CovRange}
    (h : Make.covRange el eh naps parameters radius = .ok x) :
    Get.Range32.EL x = el ∧ Get.Range32.EH x = eh ∧ Get.Range32.NAPS x = naps ∧ Get.Range32.parameters x = parameters ∧ Get.Range32.scatteringRadius x = radius ∧
    (Get.Range32.NRO x = true ↔ radius ≠ none) ∧
    (Get.Range32.LRU x, Get.Range32.LRF x, Get.Range32.LFW x) = match parameters with
      | ⟨.limitedSLBW, _⟩ | ⟨.generalSLBW, _⟩ | ⟨.compactSLBW, _⟩ => (1, 1, false)
      | ⟨.limitedMLBW, _⟩ | ⟨.generalMLBW, _⟩ | ⟨.compactMLBW, _⟩ => (1, 2, false)
      | ⟨.generalRM, _⟩ | ⟨.compactRM, _⟩ => (1, 3, false)
      | ⟨.generalRML, _⟩ | ⟨.compactRML, _⟩ => (1, 7, false)
      | ⟨.unresolved, b⟩ => (2, 1, Get.Unresolved32.LFW b) := by
  unfold Make.covRange at h
  split at h
  · cases h
    refine ⟨rfl, rfl, rfl, rfl, rfl, ?_, ?_⟩
    · cases radius <;> simp [Get.Range32.NRO]
    · obtain ⟨k, b⟩ := parameters
      cases k <;> rfl
  · cases h

theorem C62_made_covIsotope (zai abn : Dbl) (lfw : Bool) (ranges : List CovRange) (hn : (ranges.length : Int) < 4294967296) :
    let x := Make.covIsotope zai abn lfw ranges
    Get.Isotope32.ZAI x = zai ∧ Get.Isotope32.ABN x = abn ∧ (Get.Isotope32.LFW x = 1 ↔ lfw = true) ∧ (Get.Isotope32.LFW x = 0 ↔ lfw = false) ∧
    Get.Isotope32.NER x = ranges.length ∧ Get.Isotope32.resonanceRanges x = ranges := by
  refine ⟨rfl, rfl, ?_, ?_, toUInt32_of ⟨by omega, hn⟩, rfl⟩ <;> cases lfw <;> simp [Get.Isotope32.LFW, Make.covIsotope]

theorem C62_made_mf32mt151 {za : Int} {awr : Dbl} {isotopes : List CovIsotope} {x : Sect (List CovIsotope)} (h : Make.mf32mt151 za awr isotopes = .ok x)
    (hn : (isotopes.length : Int) < 4294967296) :
    x.ZA = za ∧ x.AWR = awr ∧ x.MT = 151 ∧ Get.MF32MT151.NIS x = isotopes.length ∧ Get.MF32MT151.isotopes x = isotopes := by
  obtain ⟨h1, h2, h3, h4⟩ := C62_made_base h
  split at h4
  · have e := Except.ok.inj h4
    refine ⟨h1, h2, h3, ?_, e.symm⟩
    rw [Get.MF32MT151.NIS, ← e]; exact toUInt32_of ⟨by omega, hn⟩
  · cases h4

/-- One isotope: it has the ZA of the section and the abundance 1. -/
theorem C62_made_mf32mt151_ranges {za : Int} {awr : Dbl} {lfw : Bool} {ranges : List CovRange} {x : Sect (List CovIsotope)}
    (h : Make.mf32mt151Ranges za awr lfw ranges = .ok x) :
    x.ZA = za ∧ x.AWR = awr ∧ x.MT = 151 ∧ Get.MF32MT151.NIS x = 1 ∧ ∃ i, Get.MF32MT151.isotopes x = [i] ∧ Get.Isotope32.ZAI i = Disco.ofInt za ∧
      Get.Isotope32.ABN i = Disco.ofInt 1 ∧ i.lfw = lfw ∧ Get.Isotope32.resonanceRanges i = ranges := by
  obtain ⟨h1, h2, h3, h4, h5⟩ := C62_made_mf32mt151 h (by simp)
  exact ⟨h1, h2, h3, h4, _, h5, rfl, rfl, rfl, rfl⟩

end ENDFtk.Props

import Verif.Props.Access6
import Verif.Section.Access3
import Verif.Props.Build4
import Verif.Props.Build5
/-
  C62, part 7: the getters of file 2, for what is made by the constructors.
-/
set_option linter.unusedVariables false
set_option linter.unusedSectionVars false
set_option linter.unusedSimpArgs false
namespace ENDFtk.Props
variable [Disco]

/-! ### resolved resonances, LRF = 1, 2, 3 -/

theorem breitWigner_says {spi ap : Dbl} {lad : Bool} {nlsc : Int} {lvalues : List LIST} {b : BwHeader × Unit × List LIST}
    (h : Make.breitWignerBase spi ap lad nlsc lvalues = .ok b) : b = (⟨spi, ap, lad, nlsc⟩, (), lvalues) := by
  unfold Make.breitWignerBase at h
  split at h
  · exact (Except.ok.inj h).symm
  · cases h

/-- Single-level Breit-Wigner parameters: LRU 1, LRF 1, LFW 0; LAD and NLSC are 0. -/
theorem C62_made_singleLevel {spi ap : Dbl} {lvalues : List LIST} {p : ResParams} (h : Make.singleLevel spi ap lvalues = .ok p)
    (hn : (lvalues.length : Int) < 2147483648) :
    ∃ b, p = .slbw b ∧ Get.BreitWigner.SPI b = spi ∧ Get.BreitWigner.AP b = ap ∧ Get.BreitWigner.LAD b = false ∧ Get.BreitWigner.NLS b = lvalues.length ∧
      Get.BreitWigner.NLSC b = 0 ∧ Get.BreitWigner.lValues b = lvalues := by
  unfold Make.singleLevel at h
  cases hb : Make.breitWignerBase spi ap false 0 lvalues with
  | error e => rw [hb] at h; cases h
  | ok b =>
    rw [hb] at h; cases h
    rw [breitWigner_says hb]
    exact ⟨_, rfl, rfl, rfl, rfl, asInt_lt hn, rfl, rfl⟩

/-- Multi-level Breit-Wigner parameters. -/
theorem C62_made_multiLevel {spi ap : Dbl} {lvalues : List LIST} {p : ResParams} (h : Make.multiLevel spi ap lvalues = .ok p)
    (hn : (lvalues.length : Int) < 2147483648) :
    ∃ b, p = .mlbw b ∧ Get.BreitWigner.SPI b = spi ∧ Get.BreitWigner.AP b = ap ∧ Get.BreitWigner.LAD b = false ∧ Get.BreitWigner.NLS b = lvalues.length ∧
      Get.BreitWigner.NLSC b = 0 ∧ Get.BreitWigner.lValues b = lvalues := by
  unfold Make.multiLevel at h
  cases hb : Make.breitWignerBase spi ap false 0 lvalues with
  | error e => rw [hb] at h; cases h
  | ok b =>
    rw [hb] at h; cases h
    rw [breitWigner_says hb]
    exact ⟨_, rfl, rfl, rfl, rfl, asInt_lt hn, rfl, rfl⟩

/-- Reich-Moore parameters: NLSC is at least NLS. -/
theorem C62_made_reichMoore {spi ap : Dbl} {lad : Bool} {nlsc : Int} {lvalues : List LIST} {p : ResParams} (h : Make.reichMoore spi ap lad nlsc lvalues = .ok p)
    (hn : (lvalues.length : Int) < 2147483648) :
    ∃ b, p = .reichMoore b ∧ Get.BreitWigner.SPI b = spi ∧ Get.BreitWigner.AP b = ap ∧ Get.BreitWigner.LAD b = lad ∧ Get.BreitWigner.NLS b = lvalues.length ∧
      Get.BreitWigner.NLSC b = nlsc ∧ Get.BreitWigner.NLS b ≤ Get.BreitWigner.NLSC b ∧ Get.BreitWigner.lValues b = lvalues := by
  unfold Make.reichMoore at h
  obtain ⟨b, hb, h2⟩ := bind_eq h
  split at h2
  · rename_i hle
    cases h2
    rw [breitWigner_says hb]
    exact ⟨_, rfl, rfl, rfl, rfl, asInt_lt hn, rfl, hle, rfl⟩
  · cases h2

/-! ### unresolved resonances -/

theorem C62_made_caseA {spi ap : Dbl} {lssf : Bool} {lvalues : List LIST} {p : ResParams} (h : Make.unresolvedA spi ap lssf lvalues = .ok p)
    (hn : (lvalues.length : Int) < 2147483648) :
    ∃ b, p = .caseA b ∧ Get.CaseA.SPI b = spi ∧ Get.CaseA.AP b = ap ∧ Get.CaseA.LSSF b = lssf ∧ Get.CaseA.NLS b = lvalues.length ∧ Get.CaseA.lValues b = lvalues := by
  unfold Make.unresolvedA at h
  split at h
  · cases h; exact ⟨_, rfl, rfl, rfl, rfl, asInt_lt hn, rfl⟩
  · cases h

theorem C62_made_caseC {spi ap : Dbl} {lssf : Bool} {lvalues : List LValueC} {p : ResParams} (h : Make.unresolvedC spi ap lssf lvalues = .ok p)
    (hn : (lvalues.length : Int) < 2147483648) :
    ∃ b, p = .caseC b ∧ Get.CaseC.SPI b = spi ∧ Get.CaseC.AP b = ap ∧ Get.CaseC.LSSF b = lssf ∧ Get.CaseC.NLS b = lvalues.length ∧ Get.CaseC.lValues b = lvalues := by
  unfold Make.unresolvedC at h
  split at h
  · cases h; exact ⟨_, rfl, rfl, rfl, rfl, asInt_lt hn, rfl⟩
  · cases h

theorem C62_made_caseB {spi ap : Dbl} {lssf : Bool} {energies : List Dbl} {lvalues : List LValueC} {p : ResParams}
    (h : Make.unresolvedB spi ap lssf energies lvalues = .ok p) (hn : (lvalues.length : Int) < 2147483648) (he : (energies.length : Int) < 2147483648) :
    ∃ b, p = .caseB b ∧ Get.CaseB.SPI b = spi ∧ Get.CaseB.AP b = ap ∧ Get.CaseB.LSSF b = lssf ∧ Get.CaseB.NE b = energies.length ∧ Get.CaseB.ES b = energies ∧
      Get.CaseB.NLS b = lvalues.length ∧ Get.CaseB.lValues b = lvalues := by
  unfold Make.unresolvedB at h
  split at h
  · split at h
    · cases h
      refine ⟨_, rfl, rfl, rfl, ?_, asInt_lt he, rfl, asInt_lt hn, rfl⟩
      cases lssf <;> simp [Get.CaseB.LSSF, ofBool]
    · cases h
  · cases h

theorem C62_made_lvalue {awri : Dbl} {l : Int} {jvalues : List LIST} {x : LValueC}
    (h : Make.lvalueB awri l jvalues = .ok x ∨ Make.lvalueC awri l jvalues = .ok x) (hn : (jvalues.length : Int) < 2147483648) :
    Get.LValue.AWRI x = awri ∧ Get.LValue.L x = l ∧ Get.LValue.NJS x = jvalues.length ∧ Get.LValue.jValues x = jvalues := by
  unfold Make.lvalueB Make.lvalueC at h
  rcases h with h | h
  · split at h
    · split at h
      · cases h; exact ⟨rfl, rfl, asInt_lt hn, rfl⟩
      · cases h
    · cases h
  · split at h
    · cases h; exact ⟨rfl, rfl, asInt_lt hn, rfl⟩
    · cases h

/-! ### resolved resonances, LRF = 7 -/

/-- The background R-matrices: the values are those given to the constructors, LBK is 0, 1, 2, 3. -/
theorem C62_made_backgrounds (index : Int) (ed eu r0 r1 r2 s0 s1 ga : Dbl) :
    (Make.noBackground index).1 = index ∧ (Make.noBackground index).2.lbk = 0 ∧
    (∃ v, Make.sammyBackground index ed eu r0 r1 r2 s0 s1 = (index, .sammy ed eu v) ∧ (Background.sammy ed eu v).lbk = 2 ∧ Get.Sammy.R0 v = .ok r0 ∧
      Get.Sammy.R1 v = .ok r1 ∧ Get.Sammy.R2 v = .ok r2 ∧ Get.Sammy.S0 v = .ok s0 ∧ Get.Sammy.S1 v = .ok s1) ∧
    (∃ v, Make.frohnerBackground index ed eu r0 s0 ga = (index, .frohner ed eu v) ∧ (Background.frohner ed eu v).lbk = 3 ∧ Get.Frohner.R0 v = .ok r0 ∧
      Get.Frohner.S0 v = .ok s0 ∧ Get.Frohner.GA v = .ok ga) :=
  ⟨rfl, rfl, ⟨_, rfl, rfl, rfl, rfl, rfl, rfl, rfl⟩, ⟨_, rfl, rfl, rfl, rfl, rfl⟩⟩

theorem C62_made_tabulatedBackground {index : Int} {bounds ints : List Int} {energies re im : List Dbl} {x : Int × Background}
    (h : Make.tabulatedBackground index bounds ints energies re im = .ok x) :
    ∃ a b, x = (index, .tabulated a b) ∧ (Background.tabulated a b).lbk = 1 ∧ Get.Tabulated.NR a b = bounds.length ∧ Get.Tabulated.NP a b = energies.length ∧
      Get.Tabulated.NBT a b = bounds ∧ Get.Tabulated.INT a b = ints ∧ Get.Tabulated.E a b = energies ∧ Get.Tabulated.RBR a b = re ∧
      Get.Tabulated.RBI a b = im ∧ Get.Tabulated.RB a b = re.zip im := by
  obtain ⟨a, ha, h⟩ := bind_eq h
  obtain ⟨b, hb, h⟩ := bind_eq h
  split at h
  · cases h
    obtain ⟨-, -, -, -, a1, a2, a3, a4, a5, a6⟩ := table_says ha
    obtain ⟨-, -, -, -, b1, b2, b3, b4, b5, b6⟩ := table_says hb
    refine ⟨a, b, rfl, rfl, a1, a2, a3, a4, a5, a6, b6, ?_⟩
    rw [Get.Tabulated.RB, a6, b6]
  · cases h

theorem present_ge (bs : List (Option Background)) (i : Nat) : ∀ x ∈ presentFrom i bs, (i : Int) ≤ x.1 := by
  rintro ⟨k, b⟩ hx
  obtain ⟨j, -, h⟩ := (presentFrom_mem bs i k b).mp hx
  simp only; omega

theorem present_nodup (bs : List (Option Background)) (i : Nat) : (presentFrom i bs).Pairwise (fun a b => a.1 ≠ b.1) := by
  induction bs generalizing i with
  | nil => exact .nil
  | cons b bs ih =>
    cases b with
    | none => exact ih (i + 1)
    | some b =>
      refine List.Pairwise.cons (fun y hy => ?_) (ih (i + 1))
      have := present_ge bs (i + 1) y hy
      simp only; omega

/-- The R-matrices that are there, in the order of the channels, are those of a list with the same R-matrices, in another order. -/
theorem present_perm {items : List (Int × Background)} {bs : List (Option Background)} (h1 : items.Pairwise (fun a b => a.1 ≠ b.1))
    (h2 : ∀ x ∈ items, 1 ≤ x.1) (h3 : ∀ (i : Nat) b, bs[i]? = some (some b) ↔ ((i : Int) + 1, b) ∈ items) : items.Perm (presentFrom 1 bs) := by
  refine (List.perm_ext_iff_of_nodup (h1.imp fun h e => h (by rw [e])) ((present_nodup bs 1).imp fun h e => h (by rw [e]))).mpr fun ⟨k, b⟩ => ?_
  rw [presentFrom_mem]
  constructor
  · intro h
    have hk := h2 _ h
    simp only at hk
    refine ⟨(k - 1).toNat, (h3 _ _).mpr ?_, by omega⟩
    rw [show (((k - 1).toNat : Nat) : Int) + 1 = k from by omega]; exact h
  · rintro ⟨j, h, rfl⟩
    rw [show ((1 : Nat) : Int) + j = (j : Int) + 1 from by omega]
    exact (h3 _ _).mp h

/-- BackgroundChannels: NCH channels, KBK of them have a background R-matrix, which has the channel index that was given. -/
theorem C62_made_backgroundChannels {nch : Nat} {rmatrices : List (Int × Background)} {b : List (Option Background)} (hn : (nch : Int) < 2147483648)
    (hi : ∀ r ∈ rmatrices, IsInt32 r.1) (h : Make.backgroundChannels nch rmatrices = .ok b) :
    Get.Backgrounds.NCH b = nch ∧ Get.Backgrounds.KBK b = rmatrices.length ∧ ∀ i r, Get.Backgrounds.rmatrix b i = some r ↔ r ∈ rmatrices ∧ r.1 = (i : Int) + 1 := by
  obtain ⟨c1, c2⟩ := C61_backgroundChannels hn hi
  have hok : (∀ x ∈ rmatrices, 1 ≤ x.1 ∧ x.1 ≤ nch) ∧ (rmatrices.map Prod.fst).Nodup := Classical.byContradiction fun hx => by rw [c2 hx] at h; cases h
  obtain ⟨out, ho, o1, o2, o3⟩ := c1 hok
  rw [h] at ho
  cases ho
  have hpw : rmatrices.Pairwise (fun a b => a.1 ≠ b.1) := List.pairwise_map.mp hok.2
  have key : ∀ (i : Nat) r, b[i]? = some (some r) ↔ ((i : Int) + 1, r) ∈ rmatrices := by
    intro i r
    constructor
    · intro hb
      have hlt : i < nch := by
        rw [← o1]; exact (List.getElem?_eq_some_iff.mp hb).1
      refine Classical.byContradiction fun hno => ?_
      by_cases hex : ∃ x ∈ rmatrices, x.1 = i + 1
      · obtain ⟨x, hx, e⟩ := hex
        have := o2 x hx
        rw [show (x.1 - 1).toNat = i from by omega, hb] at this
        simp only [Option.some.injEq] at this
        apply hno
        rw [← e, this]
        exact hx
      · rw [o3 i hlt (fun x hx e => hex ⟨x, hx, e⟩)] at hb
        cases hb
    · intro hm
      have := o2 _ hm
      simpa using this
  have hp := present_perm hpw (fun x hx => (hok.1 x hx).1) key
  have hc : countPresent b = rmatrices.length := by rw [← presentFrom_length 1, hp.length_eq]
  have hle : countPresent b ≤ nch := by rw [← o1]; exact List.length_filter_le _ _
  refine ⟨?_, ?_, fun i r => ?_⟩
  · rw [Get.Backgrounds.NCH, o1]; exact toUInt32_of ⟨by omega, by omega⟩
  · rw [Get.Backgrounds.KBK, hc]; exact toUInt32_of ⟨by omega, by omega⟩
  · unfold Get.Backgrounds.rmatrix
    split
    · rename_i r' hr
      rw [Option.some.injEq]
      constructor
      · rintro rfl; exact ⟨(key _ _).mp hr, rfl⟩
      · rintro ⟨hm, e⟩
        have := (key i r.2).mpr (by rw [← e]; exact hm)
        rw [hr] at this
        cases r; cases this; simp_all
    · rename_i hno
      constructor
      · intro e; cases e
      · rintro ⟨hm, e⟩
        exact absurd ((key i r.2).mpr (by rw [← e]; exact hm)) (hno r.2)

/-- A spin group: the spin and the parity are those of its channels, KBK is the number of its background R-matrices, NCH of them and of the channels is the same. -/
theorem C62_made_spinGroup {channels parameters : LIST} {background : List (Option Background)} {g : SpinGroup}
    (h : Make.spinGroup channels parameters background = .ok g) :
    Get.Spin.channels g = channels ∧ Get.Spin.parameters g = parameters ∧ Get.Spin.background g = background ∧
    Get.Spin.AJ g = ResonanceChannels.spin channels ∧ Get.Spin.PJ g = ResonanceChannels.parity channels ∧
    Get.Spin.NCH g = ResonanceChannels.numberChannels channels ∧ Get.Spin.KBK g = ResonanceChannels.numberBackgroundChannels channels ∧
    ((channels.npl : Int) < 2147483648 → (background.length : Int) < 2147483648 → IsInt32 (Get.Spin.KBK g) →
      Get.Spin.KBK g = Get.Backgrounds.KBK background ∧ Get.Spin.NCH g = Get.Backgrounds.NCH background) := by
  unfold Make.spinGroup at h
  split at h
  · cases h
  split at h
  · cases h
  rename_i h1 h2
  cases h
  refine ⟨rfl, rfl, rfl, rfl, rfl, rfl, rfl, fun hs hb hk => ?_⟩
  have hle : countPresent background ≤ background.length := List.length_filter_le _ _
  simp only [Decidable.not_not] at h1 h2
  constructor
  · rw [Get.Backgrounds.KBK, toUInt32_of ⟨by omega, by omega⟩]
    change IsInt32 channels.l1 at hk
    rw [toInt32_of hk, asInt_lt (by omega)] at h1
    exact h1
  · rw [channelsNCH, asInt_lt hb] at h2
    show ResonanceChannels.numberChannels channels = _
    unfold LIST.npl at h2 hs
    have e : toInt32 ((channels.data.length : Int) / 6) = (channels.data.length : Int) / 6 := toInt32_of ⟨by omega, by omega⟩
    rw [e] at h2
    rw [ResonanceChannels.numberChannels, Get.Backgrounds.NCH, toUInt32_of ⟨by omega, by omega⟩, toUInt32_of ⟨by omega, by omega⟩]
    omega

/-- `numberBackgroundChannels()` of a spin group is the number of all its channels: not KBK if a channel has no background R-matrix. -/
theorem C62_numberBackgroundChannels {channels parameters : LIST} {background : List (Option Background)} {g : SpinGroup}
    (h : Make.spinGroup channels parameters background = .ok g) (hs : (channels.npl : Int) < 2147483648) (hb : (background.length : Int) < 2147483648) (hk : IsInt32 (Get.Spin.KBK g)) :
    Get.Spin.numberBackgroundChannels g = Get.Spin.NCH g ∧ (none ∈ background → Get.Spin.numberBackgroundChannels g ≠ Get.Spin.KBK g) := by
  refine ⟨rfl, fun hm => ?_⟩
  obtain ⟨-, -, -, -, -, -, -, hx⟩ := C62_made_spinGroup h
  obtain ⟨k1, k2⟩ := hx hs hb hk
  have hlt : countPresent background < background.length := List.length_filter_lt_length_iff_exists.mpr ⟨none, hm, by simp⟩
  rw [Get.Spin.numberBackgroundChannels, k1, k2, Get.Backgrounds.NCH, Get.Backgrounds.KBK, toUInt32_of ⟨by omega, by omega⟩, toUInt32_of ⟨by omega, by omega⟩]
  omega

theorem C62_made_rMatrixLimited {ifg krl : Bool} {krm : Int} {pairs : LIST} {groups : List SpinGroup} {p : ResParams}
    (h : Make.rMatrixLimited ifg krl krm pairs groups = .ok p) (hn : (groups.length : Int) < 2147483648) :
    ∃ b, p = .rml b ∧ Get.RMatrix.IFG b = ifg ∧ Get.RMatrix.KRL b = krl ∧ Get.RMatrix.KRM b = krm ∧ Get.RMatrix.NJS b = groups.length ∧
      Get.RMatrix.particlePairs b = pairs ∧ Get.RMatrix.spinGroups b = groups := by
  unfold Make.rMatrixLimited at h
  split at h
  · cases h; exact ⟨_, rfl, rfl, rfl, rfl, toUInt32_of ⟨by omega, by simp only; omega⟩, rfl, rfl⟩
  · cases h

/-! #### `SPI()` and `AP()` of RMatrixLimited -/

/-- `i` is the first index with the value `x`. -/
def FirstAt (l : List Int) (x : Int) (i : Nat) : Prop := l[i]? = some x ∧ ∀ j, j < i → l[j]? ≠ some x

theorem distance_first {l : List Int} {x : Int} {i : Nat} (h : FirstAt l x i) : Get.RMatrix.distance l x = i := by
  obtain ⟨h1, h2⟩ := h
  obtain ⟨hl, h1⟩ := List.getElem?_eq_some_iff.mp h1
  unfold Get.RMatrix.distance
  refine (List.findIdx_eq hl).mpr ⟨by simp [h1], fun j hj => ?_⟩
  have := h2 j hj
  rw [List.getElem?_eq_getElem (by omega)] at this
  simpa using this

theorem distance_none {l : List Int} {x : Int} (h : x ∉ l) : Get.RMatrix.distance l x = l.length := by
  unfold Get.RMatrix.distance
  rw [List.findIdx_eq_length]
  intro y hy
  simp only [beq_eq_false_iff_ne]
  rintro rfl
  exact h hy

/-- `SPI()` is the spin of particle B of the first particle pair with MT = 2.  If there is none, an element after the last one is accessed. -/
theorem C62_rmatrix_SPI {ma mb za zb ia ib pa pb q : List Dbl} {pnt shf mt : List Int} {b : RmlHeader × LIST × List SpinGroup}
    (hp : ParticlePairs.make ma mb za zb ia ib pa pb q pnt shf mt = .ok (Get.RMatrix.particlePairs b)) (hm : IntRange mt) :
    (∀ i s, FirstAt mt 2 i → ib[i]? = some s → Get.RMatrix.SPI b = .ok s) ∧ (2 ∉ mt → ib.length = mt.length → Get.RMatrix.SPI b = .error .ub) := by
  obtain ⟨-, -, -, -, -, -, p1, -, -, -, -, -, p2, -⟩ := C48_particlePairs hp
  have e : Get.RMatrix.SPI b = atE ib (Get.RMatrix.distance mt 2) := by
    unfold Get.RMatrix.SPI
    rw [p2 hm, p1]; rfl
  constructor
  · intro i s hi hs
    rw [e, distance_first hi, atE, hs]
  · intro h1 h2
    rw [e, distance_none h1, atE, List.getElem?_eq_none (by omega)]

/-- `AP()` is the true channel radius of the first channel of the first spin group that has this particle pair.  If it has none, an element after the last one is
    accessed. -/
theorem C62_rmatrix_AP {ma mb za zb ia ib pa pb q : List Dbl} {pnt shf mt : List Int} {b : RmlHeader × LIST × List SpinGroup}
    (hp : ParticlePairs.make ma mb za zb ia ib pa pb q pnt shf mt = .ok (Get.RMatrix.particlePairs b)) (hm : IntRange mt) {g : SpinGroup} {gs : List SpinGroup}
    (hg : Get.RMatrix.spinGroups b = g :: gs) {spin parity : Dbl} {ppi lm : List Int} {s bc apt ape : List Dbl} {kbk kps : Int}
    (hc : ResonanceChannels.make spin parity ppi lm s bc apt ape kbk kps = .ok (Get.Spin.channels g)) (hi : IntRange ppi)
    {pair : Nat} (he : FirstAt mt 2 pair) (hs : (pair : Int) + 1 < 2147483648) :
    (∀ i r, FirstAt ppi (pair + 1) i → apt[i]? = some r → Get.RMatrix.AP b = .ok r) ∧ ((pair + 1 : Int) ∉ ppi → apt.length = ppi.length → Get.RMatrix.AP b = .error .ub) := by
  obtain ⟨-, -, -, -, -, -, -, -, -, -, -, -, p2, -⟩ := C48_particlePairs hp
  obtain ⟨-, -, -, -, -, c1, -, -, -, c2, -⟩ := C48_resonanceChannels hc
  have e : Get.RMatrix.AP b = atE apt (Get.RMatrix.distance ppi (pair + 1)) := by
    unfold Get.RMatrix.AP
    rw [p2 hm, hg]
    simp only [Except.bind, atE, List.getElem?_cons_zero, c1 hi, c2, distance_first he]
    rw [toInt32_of ⟨by omega, by omega⟩]; rfl
  constructor
  · intro i r h1 h2
    rw [e, distance_first h1, atE, h2]
  · intro h1 h2
    rw [e, distance_none h1, atE, List.getElem?_eq_none (by omega)]

/-! ### resonance ranges, isotopes, sections -/

/-- LFW of the parameters is 1 for fission widths that depend on the energy only. -/
theorem C62_made_resonanceRange {el eh : Dbl} {naps : Int} {parameters : ResParams} {radius : Option TAB1} {x : ResRange}
    (h : Make.resonanceRange el eh naps parameters radius = .ok x) :
    Get.Range.EL x = el ∧ Get.Range.EH x = eh ∧ Get.Range.NAPS x = naps ∧ Get.Range.parameters x = parameters ∧ Get.Range.scatteringRadius x = radius ∧
    (Get.Range.NRO x = true ↔ radius ≠ none) ∧
    (Get.Range.LRU x, Get.Range.LRF x, Get.Range.LFW x) = match parameters with
      | .special _ _ => (0, 0, false)
      | .slbw _ => (1, 1, false)
      | .mlbw _ => (1, 2, false)
      | .reichMoore _ => (1, 3, false)
      | .rml _ => (1, 7, false)
      | .caseA _ => (2, 1, false)
      | .caseB _ => (2, 1, true)
      | .caseC _ => (2, 2, false) := by
  unfold Make.resonanceRange at h
  split at h
  · cases h
    refine ⟨rfl, rfl, rfl, rfl, rfl, ?_, ?_⟩
    · cases radius <;> simp [Get.Range.NRO]
    · cases parameters <;> rfl
  · cases h

theorem C62_made_scatteringRadius {bounds ints : List Int} {energies radii : List Dbl} {r : TAB1} (h : Make.scatteringRadius bounds ints energies radii = .ok r) :
    Get.Radius.E r = energies ∧ Get.Radius.AP r = radii ∧ TableSays r bounds ints energies radii := by
  obtain ⟨-, -, -, -, t⟩ := table_says h
  exact ⟨t.2.2.2.2.1, t.2.2.2.2.2, t⟩

theorem C62_made_isotope (zai : Int) (abn : Dbl) (lfw : Bool) (ranges : List ResRange) (hn : (ranges.length : Int) < 4294967296) :
    let x := Make.isotope zai abn lfw ranges
    Get.Isotope2.ZAI x = zai ∧ Get.Isotope2.ABN x = abn ∧ (Get.Isotope2.LFW x = 1 ↔ lfw = true) ∧ (Get.Isotope2.LFW x = 0 ↔ lfw = false) ∧
    Get.Isotope2.NER x = ranges.length ∧ Get.Isotope2.resonanceRanges x = ranges := by
  refine ⟨rfl, rfl, ?_, ?_, toUInt32_of ⟨by omega, hn⟩, rfl⟩ <;> cases lfw <;> simp [Get.Isotope2.LFW, Make.isotope]

theorem C62_made_mf2mt151 {za : Int} {awr : Dbl} {isotopes : List Isotope} {x : Sect (List Isotope)} (h : Make.mf2mt151 za awr isotopes = .ok x)
    (hn : (isotopes.length : Int) < 4294967296) :
    x.ZA = za ∧ x.AWR = awr ∧ x.MT = 151 ∧ Get.MF2MT151.NIS x = isotopes.length ∧ Get.MF2MT151.isotopes x = isotopes := by
  obtain ⟨h1, h2, h3, h4⟩ := C62_made_base h
  split at h4
  · have e := Except.ok.inj h4
    refine ⟨h1, h2, h3, ?_, e.symm⟩
    rw [Get.MF2MT151.NIS, ← e]; exact toUInt32_of ⟨by omega, hn⟩
  · cases h4

/-- One isotope: it has the ZA of the section and the abundance 1. -/
theorem C62_made_mf2mt151_ranges {za : Int} {awr : Dbl} {lfw : Bool} {ranges : List ResRange} {x : Sect (List Isotope)}
    (h : Make.mf2mt151Ranges za awr lfw ranges = .ok x) :
    x.ZA = za ∧ x.AWR = awr ∧ x.MT = 151 ∧ Get.MF2MT151.NIS x = 1 ∧ ∃ i, Get.MF2MT151.isotopes x = [i] ∧ Get.Isotope2.ZAI i = za ∧
      Get.Isotope2.ABN i = Disco.ofInt 1 ∧ i.lfw = lfw ∧ Get.Isotope2.resonanceRanges i = ranges := by
  obtain ⟨h1, h2, h3, h4, h5⟩ := C62_made_mf2mt151 h (by simp)
  exact ⟨h1, h2, h3, h4, _, h5, rfl, rfl, rfl, rfl⟩

/-- A section with a scattering radius only: one isotope with one range, LRU 0, NAPS 0. -/
theorem C62_made_mf2mt151_special {za : Int} {awr el eh spin ap : Dbl} {x : Sect (List Isotope)} (h : Make.mf2mt151Special za awr el eh spin ap = .ok x) :
    x.ZA = za ∧ x.AWR = awr ∧ x.MT = 151 ∧ Get.MF2MT151.NIS x = 1 ∧ ∃ i r, Get.MF2MT151.isotopes x = [i] ∧ Get.Isotope2.ZAI i = za ∧
      Get.Isotope2.ABN i = Disco.ofInt 1 ∧ Get.Isotope2.LFW i = 0 ∧ Get.Isotope2.resonanceRanges i = [r] ∧ Get.Range.EL r = el ∧ Get.Range.EH r = eh ∧
      Get.Range.LRU r = 0 ∧ Get.Range.LRF r = 0 ∧ Get.Range.NRO r = false ∧ Get.Range.NAPS r = 0 ∧ Get.Range.parameters r = .special spin ap := by
  obtain ⟨r, hr, h⟩ := bind_eq h
  obtain ⟨h1, h2, h3, h4, h5⟩ := C62_made_mf2mt151 h (by simp)
  obtain ⟨e1, e2, e3, e4, -, e6, e7⟩ := C62_made_resonanceRange hr
  simp only [Prod.mk.injEq] at e7
  refine ⟨h1, h2, h3, h4, _, r, h5, rfl, rfl, rfl, rfl, e1, e2, e7.1, e7.2.1, ?_, e3, e4⟩
  simpa using e6

/-- Self-shielded cross sections. -/
theorem C62_made_mf2mt152 {za : Int} {awr : Dbl} {lssf : Bool} {interpolation : Int} {temperature : Dbl} {dilutions energies : List Dbl}
    {total elastic fission capture cwTotal : List (List Dbl)} {x : Sect Dilution}
    (h : Make.mf2mt152 za awr lssf interpolation temperature dilutions energies total elastic fission capture cwTotal = .ok x) (hs : Small x.data.data)
    (he : energies.length < 2147483648) :
    x.ZA = za ∧ x.AWR = awr ∧ x.MT = 152 ∧ Get.MF2MT152.LSSF x = lssf ∧ Get.MF2MT152.interpolation x = interpolation ∧ Get.MF2MT152.TEMZ x = temperature ∧
    Get.MF2MT152.NREAC x = 5 ∧ Get.MF2MT152.NSIGZ x = dilutions.length ∧ Get.MF2MT152.NUNR x = energies.length ∧
    Get.MF2MT152.NW x = dilutions.length + energies.length * (1 + 5 * dilutions.length) ∧
    Get.MF2MT152.SIGZ x = .ok dilutions ∧ Get.MF2MT152.EUNR x = .ok energies := by
  obtain ⟨⟨l, hl, rfl⟩, -⟩ := C61_mf2mt152 h
  obtain ⟨c1, c2, c3, c4, c5, c6, -, -⟩ := C48_dilutionTables hl hs
  obtain ⟨hq, -⟩ := dilution_ok hl
  refine ⟨rfl, rfl, rfl, rfl, rfl, c1, c2, c3, c4 he, ?_, c5, c6⟩
  unfold dilutionSizeOk at hq
  have e1 : toInt32 l.l1 = 5 := c2
  have e2 : toInt32 l.l2 = dilutions.length := c3
  have e3 : toInt32 l.n2 = energies.length := c4 he
  unfold LIST.npl at hq
  rw [e1, e2, e3] at hq
  show toInt32 _ = _
  rw [hq.2, Int.add_comm (5 * _) 1, Int.mul_comm, Int.add_comm]

end ENDFtk.Props

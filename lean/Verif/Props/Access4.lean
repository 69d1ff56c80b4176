import Verif.Section.Access2
import Verif.Props.Access3
import Verif.Props.Build3
/-
  C62: getters, part 4: files 7 and 8.
-/
set_option linter.unusedVariables false
set_option linter.unusedSectionVars false
set_option linter.unusedSimpArgs false
namespace ENDFtk.Props
variable [Disco]

/-! ### lemmas -/

theorem made32 {n k : Int} (h : n = k) (hk : IsInt32 k) : toInt32 n = k := by rw [h]; exact toInt32_of hk

/-- The lines before element `i` of a list of records. -/
def linesBefore {α : Type} (f : α → Rec) (l : List α) (i : Nat) : Nat := ((l.take i).map (fun x => recLines (f x))).sum

theorem nth_line {α : Type} {f : α → Rec} {s : St} {pre post rs : List Rec} {l : List α}
    (hr : ∀ pre r post c, rs = pre ++ r :: post → recLine r = some c → LineShows (1 + (pre.map recLines).sum) s c)
    (hs : rs = pre ++ l.map f ++ post) {i : Nat} {x : α} (hi : l[i]? = some x) {c : Cont} (hc : recLine (f x) = some c) :
    LineShows (1 + (pre.map recLines).sum + linesBefore f l i) s c := by
  have hl : l = l.take i ++ x :: l.drop (i + 1) := by
    obtain ⟨h1, h2⟩ := List.getElem?_eq_some_iff.mp hi
    rw [← h2, List.getElem_cons_drop, List.take_append_drop]
  have := hr (pre ++ (l.take i).map f) (f x) ((l.drop (i + 1)).map f ++ post) c (by
    rw [hs]
    conv => lhs; rw [hl]
    simp only [List.map_append, List.map_cons, List.append_assoc, List.cons_append]) hc
  simp only [List.map_append, List.sum_append, List.map_map] at this
  rw [Nat.add_assoc]
  exact this

/-! ### MF7 MT2 -/

theorem temperatureRecords_spec {c2 : Dbl} {ts : List Dbl} {ls : List Int} {ss : List (List Dbl)} (h1 : ts.length = ss.length) (h2 : ts.length ≤ ls.length) :
    (Make.temperatureRecords c2 ts ls ss).map (·.c1) = ts ∧ (Make.temperatureRecords c2 ts ls ss).map (·.l1) = ls.take ts.length ∧
    (Make.temperatureRecords c2 ts ls ss).map (·.data) = ss ∧ (Make.temperatureRecords c2 ts ls ss).length = ts.length := by
  induction ts generalizing ls ss with
  | nil => cases ss with
    | nil => simp [Make.temperatureRecords]
    | cons => simp at h1
  | cons t ts ih => cases ss with
    | nil => simp at h1
    | cons s ss => cases ls with
      | nil => simp at h2
      | cons l ls =>
        obtain ⟨a, b, c, d⟩ := ih (ls := ls) (ss := ss) (by simpa using h1) (by simpa using h2)
        simp [Make.temperatureRecords, a, b, c, d]

/-- The Bragg edges for all temperatures. -/
theorem C62_made_coherent {bounds ints : List Int} {temperatures : List Dbl} {li : List Int} {energies : List Dbl} {s : List (List Dbl)} {b : TabLists}
    (h : Make.coherentElastic bounds ints temperatures li energies s = .ok b) (hn : (temperatures.length : Int) < 2147483648) :
    Make.numberTemperatures b = temperatures.length ∧ Get.Coherent.LT b = (temperatures.length : Int) - 1 ∧ Make.temperatures b = temperatures ∧
    Make.temperatureInterpolants b = li.take (temperatures.length - 1) ∧ Make.scatteringValues b = s ∧ Get.Coherent.NR b = bounds.length ∧
    Get.Coherent.NP b = energies.length ∧ Get.Coherent.INT b = ints ∧ Get.Coherent.NBT b = bounds ∧ Get.Coherent.E b = energies := by
  unfold Make.coherentElastic at h
  cases temperatures with
  | nil => cases h
  | cons t0 ts => cases s with
    | nil => cases h
    | cons s0 ss =>
      simp only at h
      split at h
      · cases h
      · split at h
        · cases h
        · rename_i hl1 hl2
          obtain ⟨p, hp, h⟩ := bind_eq h
          split at h
          · cases h
            obtain ⟨e1, e2, e3, e4, t1, t2, t3, t4, t5, t6⟩ := table_says hp
            obtain ⟨a1, a2, a3, a4⟩ := temperatureRecords_spec (c2 := Disco.zero) (ts := ts) (ls := li) (ss := ss) (by simpa using hl1) (by omega)
            simp only [List.length_cons] at hn ⊢
            refine ⟨?_, ?_, ?_, ?_, ?_, t1, t2, t4, t3, t5⟩
            · simp only [Make.numberTemperatures, a4]; rw [toInt32_of ⟨by omega, by omega⟩]; omega
            · simp only [Get.Coherent.LT, e3]; rw [toInt32_of ⟨by omega, by omega⟩]; omega
            · simp only [Make.temperatures, e1, a1]
            · simp only [Make.temperatureInterpolants, a2]; rfl
            · simp only [Make.scatteringValues, t6, a3]
          · cases h

/-- The Bragg edges for a single temperature. -/
theorem C62_made_coherent1 {temperature : Dbl} {bounds ints : List Int} {energies s : List Dbl} {b : TabLists}
    (h : Make.coherentElastic1 temperature bounds ints energies s = .ok b) :
    Make.numberTemperatures b = 1 ∧ Get.Coherent.LT b = 0 ∧ Make.temperatures b = [temperature] ∧ Make.temperatureInterpolants b = [] ∧
    Make.scatteringValues b = [s] ∧ Get.Coherent.NR b = bounds.length ∧
    Get.Coherent.NP b = energies.length ∧ Get.Coherent.INT b = ints ∧ Get.Coherent.NBT b = bounds ∧ Get.Coherent.E b = energies := by
  obtain ⟨p, hp, h⟩ := bind_eq h
  cases h
  obtain ⟨e1, e2, e3, e4, t1, t2, t3, t4, t5, t6⟩ := table_says hp
  refine ⟨toInt32_of (show IsInt32 1 by decide), ?_, ?_, rfl, ?_, t1, t2, t4, t3, t5⟩
  · simp only [Get.Coherent.LT, e3]; exact toInt32_of (by decide)
  · simp only [Make.temperatures, e1]; rfl
  · simp only [Make.scatteringValues, t6]; rfl

theorem C62_made_incoherent {sb : Dbl} {bounds ints : List Int} {temperatures debyeWaller : List Dbl} {r : TAB1}
    (h : Make.incoherentElastic sb bounds ints temperatures debyeWaller = .ok r) :
    Get.Incoherent.SB r = sb ∧ Get.Incoherent.T r = temperatures ∧ Get.Incoherent.W r = debyeWaller ∧ Get.Incoherent.NT r = temperatures.length ∧
    TableSays r bounds ints temperatures debyeWaller := by
  obtain ⟨e1, -, -, -, t⟩ := table_says h
  exact ⟨e1, t.2.2.2.2.1, t.2.2.2.2.2, t.2.1, t⟩

theorem C62_made_mf7mt2 {za : Int} {awr : Dbl} {law : Elastic} {x : Sect Elastic} (h : Make.mf7mt2 za awr law = .ok x) :
    x.ZA = za ∧ x.AWR = awr ∧ x.MT = 2 ∧ x.data = law ∧ Get.MF7MT2.LTHR x = law.lthr := by
  have e := build_eq h
  subst e
  exact ⟨rfl, rfl, rfl, rfl, rfl⟩

/-- LTHR is L1 of the HEAD record.  The Bragg edges start on the next line, and record i with the values for another temperature on the line after the records
    before it; the table of the Debye-Waller integral starts on the next line, or after all of the coherent data. -/
theorem C62_text_mf7mt2 {s s' : St} {x : Sect Elastic} (h : (SectionType.mf7mt2).defn.parse s = .ok (x, s')) :
    ∃ a, LineShows 0 s a ∧ Get.MF7MT2.LTHR x = toInt32 a.l1 ∧
      (∀ b, (x.data = .coherent b ∨ ∃ r, x.data = .mixed b r) → ∃ c, LineShows 1 s c ∧ (Make.temperatures b).head? = some c.c1 ∧ Get.Coherent.LT b = toInt32 c.l1 ∧
        Make.numberTemperatures b = toInt32 (toInt32 c.l1 + 1) ∧ Get.Coherent.NR b = c.n1 ∧ Get.Coherent.NP b = c.n2 ∧
        ∀ i l, b.2[i]? = some l → ∃ d, LineShows (1 + recLines (.tab1 b.1) + linesBefore .list b.2 i) s d ∧ (Make.temperatures b)[i + 1]? = some d.c1 ∧
          (Make.temperatureInterpolants b)[i]? = some d.l1) ∧
      (∀ r, x.data = .incoherent r → ∃ c, LineShows 1 s c ∧ Get.Incoherent.SB r = c.c1 ∧ r.NR = c.n1 ∧ Get.Incoherent.NT r = c.n2) ∧
      (∀ b r, x.data = .mixed b r → ∃ c, LineShows (1 + (recLines (.tab1 b.1) + linesBefore .list b.2 b.2.length)) s c ∧ Get.Incoherent.SB r = c.c1 ∧ r.NR = c.n1 ∧
        Get.Incoherent.NT r = c.n2) := by
  obtain ⟨a, mt, rs, l0, hb, hr⟩ := C62_records .mf7mt2 h
  have key : ∀ (b : TabLists) post, rs = (.tab1 b.1 :: b.2.map .list) ++ post → toInt32 b.1.base.l1 = b.2.length →
      ∃ c, LineShows 1 s c ∧ (Make.temperatures b).head? = some c.c1 ∧ Get.Coherent.LT b = toInt32 c.l1 ∧
        Make.numberTemperatures b = toInt32 (toInt32 c.l1 + 1) ∧ Get.Coherent.NR b = c.n1 ∧ Get.Coherent.NP b = c.n2 ∧
        ∀ i l, b.2[i]? = some l → ∃ d, LineShows (1 + recLines (.tab1 b.1) + linesBefore .list b.2 i) s d ∧ (Make.temperatures b)[i + 1]? = some d.c1 ∧
          (Make.temperatureInterpolants b)[i]? = some d.l1 := by
    intro b post hs hl
    refine ⟨_, hr [] _ _ _ hs rfl, rfl, rfl, ?_, rfl, rfl, fun i l hi => ?_⟩
    · simp only [Make.numberTemperatures, hl]
    · have := nth_line (f := Rec.list) (pre := [.tab1 b.1]) (post := post) (l := b.2) hr (by rw [hs]; rfl) hi rfl
      refine ⟨_, this, ?_, ?_⟩
      · simp [Make.temperatures, hi]
      · simp [Make.temperatureInterpolants, hi]
  change Fmt.mf7mt2 a x.data rs at hb
  cases hx : x.data with
  | coherent b =>
    rw [hx] at hb
    obtain ⟨b1, b2, b3, -⟩ := hb
    refine ⟨a, l0, ?_, ?_, fun _ e => (by cases e), fun _ _ e => (by cases e)⟩
    · rw [Get.MF7MT2.LTHR, hx, b1]; rfl
    · rintro b' (e | ⟨_, e⟩)
      · cases e; exact key b [] (by rw [b2]; simp) b3
      · cases e
  | incoherent r =>
    rw [hx] at hb
    obtain ⟨b1, b2⟩ := hb
    refine ⟨a, l0, ?_, ?_, ?_, fun _ _ e => (by cases e)⟩
    · rw [Get.MF7MT2.LTHR, hx, b1]; rfl
    · rintro b' (e | ⟨_, e⟩) <;> cases e
    · rintro r' e; cases e
      exact ⟨_, hr [] _ _ _ b2 rfl, rfl, rfl, rfl⟩
  | mixed b r =>
    rw [hx] at hb
    obtain ⟨b1, r1, rfl, b2, b3, -⟩ := hb
    refine ⟨a, l0, ?_, ?_, fun _ e => (by cases e), ?_⟩
    · rw [Get.MF7MT2.LTHR, hx, b1]; rfl
    · rintro b' (e | ⟨_, e⟩)
      · cases e
      · cases e; exact key b [.tab1 r] (by rw [b2]) b3
    · rintro b' r' e; cases e
      have := hr r1 (.tab1 r) [] _ rfl rfl
      rw [b2] at this
      have e : (List.map recLines (.tab1 b.1 :: b.2.map .list)).sum = recLines (.tab1 b.1) + linesBefore .list b.2 b.2.length := by
        simp [linesBefore, Function.comp_def]
      rw [e] at this
      exact ⟨_, this, rfl, rfl, rfl⟩

/-! ### MF7 MT4 -/

/-- The scattering function for a beta value and all temperatures. -/
theorem C62_made_function7 {beta : Dbl} {bounds ints : List Int} {temperatures : List Dbl} {li : List Int} {alphas : List Dbl} {sab : List (List Dbl)} {b : TabLists}
    (h : Make.scatteringFunction beta bounds ints temperatures li alphas sab = .ok b) (hn : (temperatures.length : Int) < 2147483648) :
    Get.Function7.B b = beta ∧ Make.numberTemperatures b = temperatures.length ∧ Get.Function7.LT b = (temperatures.length : Int) - 1 ∧
    Make.temperatures b = temperatures ∧ Make.temperatureInterpolants b = li ∧ Make.scatteringValues b = sab ∧ Get.Function7.NR b = bounds.length ∧
    Get.Function7.NP b = alphas.length ∧ Get.Function7.NA b = alphas.length ∧ Get.Function7.INT b = ints ∧ Get.Function7.NBT b = bounds ∧ Get.Function7.A b = alphas := by
  unfold Make.scatteringFunction at h
  cases temperatures with
  | nil => cases h
  | cons t0 ts => cases sab with
    | nil => cases h
    | cons s0 ss =>
      simp only at h
      split at h
      · cases h
      · rename_i hl
        obtain ⟨p, hp, h⟩ := bind_eq h
        split at h
        · cases h
          obtain ⟨e1, e2, e3, e4, t1, t2, t3, t4, t5, t6⟩ := table_says hp
          simp only [ne_eq, not_or, Classical.not_not] at hl
          obtain ⟨a1, a2, a3, a4⟩ := temperatureRecords_spec (c2 := beta) (ts := ts) (ls := li) (ss := ss) hl.2 (by omega)
          simp only [List.length_cons] at hn ⊢
          refine ⟨e2, ?_, ?_, ?_, ?_, ?_, t1, t2, t2, t4, t3, t5⟩
          · simp only [Make.numberTemperatures, a4]; rw [toInt32_of ⟨by omega, by omega⟩]; omega
          · simp only [Get.Function7.LT, e3]; rw [toInt32_of ⟨by omega, by omega⟩]; omega
          · simp only [Make.temperatures, e1, a1]
          · simp only [Make.temperatureInterpolants, a2, hl.1]; exact List.take_length
          · simp only [Make.scatteringValues, t6, a3]
        · cases h

/-- The scattering function for a single temperature. -/
theorem C62_made_function7_1 {temperature beta : Dbl} {bounds ints : List Int} {alphas sab : List Dbl} {b : TabLists}
    (h : Make.scatteringFunction1 temperature beta bounds ints alphas sab = .ok b) :
    Get.Function7.B b = beta ∧ Make.numberTemperatures b = 1 ∧ Get.Function7.LT b = 0 ∧ Make.temperatures b = [temperature] ∧ Make.temperatureInterpolants b = [] ∧
    Make.scatteringValues b = [sab] ∧ Get.Function7.NR b = bounds.length ∧
    Get.Function7.NP b = alphas.length ∧ Get.Function7.INT b = ints ∧ Get.Function7.NBT b = bounds ∧ Get.Function7.A b = alphas := by
  obtain ⟨p, hp, h⟩ := bind_eq h
  cases h
  obtain ⟨e1, e2, e3, e4, t1, t2, t3, t4, t5, t6⟩ := table_says hp
  refine ⟨e2, toInt32_of (show IsInt32 1 by decide), ?_, ?_, rfl, ?_, t1, t2, t4, t3, t5⟩
  · simp only [Get.Function7.LT, e3]; exact toInt32_of (by decide)
  · simp only [Make.temperatures, e1]; rfl
  · simp only [Make.scatteringValues, t6]; rfl

theorem C62_made_functions7 {bounds ints : List Int} {functions : List TabLists} {r : ISeq TabLists} (h : Make.tabulatedFunctions bounds ints functions = .ok r) :
    Get.Functions7.NR r = bounds.length ∧ Get.Functions7.NBT r = bounds ∧ Get.Functions7.INT r = ints ∧ r.seq = functions ∧
    Get.Functions7.B r = functions.map Get.Function7.B ∧
    ((∀ b ∈ bounds, 0 ≤ b ∧ b < 2147483648) → (functions.length : Int) < 2147483648 → Get.Functions7.NB r = functions.length) := by
  obtain ⟨-, -, -, -, e, r1, r2, r3, r4⟩ := regions_say h
  exact ⟨r1, r2, r3, e, by rw [Get.Functions7.B, e], r4⟩

/-- The effective temperatures (`table` has the same arguments as the constructor of EffectiveTemperature). -/
theorem C62_made_temperature7 {bounds ints : List Int} {tmod teff : List Dbl} {r : TAB1} (h : Make.table bounds ints tmod teff = .ok r) :
    Get.Temperature7.NT r = tmod.length ∧ Get.Temperature7.TMOD r = tmod ∧ Get.Temperature7.TEFF r = teff ∧ TableSays r bounds ints tmod teff := by
  obtain ⟨-, -, -, -, t⟩ := table_says h
  exact ⟨t.2.1, t.2.2.2.2.1, t.2.2.2.2.2, t⟩

theorem C62_made_mf7mt4 {za : Int} {awr : Dbl} {lat lasym : Int} {constants : LIST} {law : Option (ISeq TabLists)} {principal : TAB1} {secondary : List (Option TAB1)}
    {x : Sect ScatteringData} (h : Make.mf7mt4 za awr lat lasym constants law principal secondary = .ok x) :
    x.ZA = za ∧ x.AWR = awr ∧ x.MT = 4 ∧ Get.MF7MT4.LAT x = lat ∧ Get.MF7MT4.LASYM x = lasym ∧ x.data.constants = constants ∧ x.data.law = law ∧
    x.data.principal = principal ∧ x.data.secondary = secondary := by
  obtain ⟨h1, h2, h3, h4⟩ := C62_made_base h
  split at h4
  · cases h4
  · split at h4
    · cases h4
    · split at h4
      · cases h4
      · have e := Except.ok.inj h4
        rw [Get.MF7MT4.LAT, Get.MF7MT4.LASYM, ← e]
        exact ⟨h1, h2, h3, rfl, rfl, rfl, rfl, rfl, rfl⟩

/-- LAT is L2, LASYM is N1 of the HEAD record; the constants are on the next line, with LLN as L1, NS as N2; the number of betas comes after the constants. -/
theorem C62_text_mf7mt4 {s s' : St} {x : Sect ScatteringData} (h : (SectionType.mf7mt4).defn.parse s = .ok (x, s')) :
    ∃ a b, LineShows 0 s a ∧ LineShows 1 s b ∧ Get.MF7MT4.LAT x = toInt32 a.l2 ∧ Get.MF7MT4.LASYM x = toInt32 a.n1 ∧
      x.data.constants.l1 = b.l1 ∧ x.data.constants.n2 = b.n2 ∧ (x.data.constants.data.length : Int) = b.n1 ∧
      (∀ f, x.data.law = some f → ∃ c, LineShows (1 + recLines (.list x.data.constants)) s c ∧ Get.Functions7.NR f = c.n1 ∧ Get.Functions7.NB f = c.n2) ∧
      (x.data.law = none → ∃ c, LineShows (1 + recLines (.list x.data.constants)) s c ∧ x.data.principal.NR = c.n1 ∧ Get.Temperature7.NT x.data.principal = c.n2) := by
  obtain ⟨a, mt, rs, l0, hb, hr⟩ := C62_records .mf7mt4 h
  obtain ⟨b1, b2, -, ⟨r, rfl, b4⟩, -⟩ := hb
  refine ⟨a, _, l0, hr [] _ _ _ rfl rfl, b1, b2, rfl, rfl, rfl, fun f hf => ?_, fun hf => ?_⟩
  · rw [hf] at b4
    obtain ⟨-, ⟨r1, rfl, -⟩, -⟩ := b4
    have := hr [.list x.data.constants] (.tab2 f.tab2) (r1 ++ [.tab1 x.data.principal] ++ x.data.secondary.filterMap (·.map .tab1)) _ (by simp) rfl
    exact ⟨_, this, rfl, rfl⟩
  · rw [hf] at b4
    obtain ⟨-, rfl⟩ := b4
    have := hr [.list x.data.constants] (.tab1 x.data.principal) (x.data.secondary.filterMap (·.map .tab1)) _ (by simp) rfl
    exact ⟨_, this, rfl, rfl⟩

/-! ### MF7 MT451 -/

theorem C62_made_mf7mt451 {za : Int} {awr : Dbl} {elements : List LIST} {x : Sect (List LIST)} (h : Make.mf7mt451 za awr elements = .ok x)
    (hn : (elements.length : Int) < 4294967296) : x.ZA = za ∧ x.AWR = awr ∧ x.MT = 451 ∧ Get.MF7MT451.NA x = elements.length ∧ x.data = elements := by
  obtain ⟨h1, h2, h3, h4⟩ := C62_made_base h
  split at h4
  · cases h4
  · have e := Except.ok.inj h4
    refine ⟨h1, h2, h3, ?_, e.symm⟩
    rw [Get.MF7MT451.NA, ← e, toUInt32]
    omega

/-- NA is L1 of the HEAD record; element i is on the line after the elements before it, with NS as L1 and NI as N2. -/
theorem C62_text_mf7mt451 {s s' : St} {x : Sect (List LIST)} (h : (SectionType.mf7mt451).defn.parse s = .ok (x, s')) :
    ∃ a, LineShows 0 s a ∧ Get.MF7MT451.NA x = toUInt32 (toInt32 a.l1) ∧
      ∀ i l, x.data[i]? = some l → ∃ c, LineShows (1 + linesBefore .list x.data i) s c ∧ l.l1 = c.l1 ∧ (l.npl : Int) = c.n1 ∧ l.n2 = c.n2 := by
  obtain ⟨a, mt, rs, l0, hb, hr⟩ := C62_records .mf7mt451 h
  obtain ⟨⟨b1, b2, -⟩, -⟩ := hb
  refine ⟨a, l0, by rw [b1]; rfl, fun i l hi => ?_⟩
  have := nth_line (f := Rec.list) (pre := []) (post := []) (l := x.data) hr (by rw [b2]; simp) hi rfl
  exact ⟨_, this, rfl, rfl, rfl⟩

/-! ### MF8 MT454 and MT459 -/

theorem C62_made_yields {mt za : Int} {awr : Dbl} {yields : List LIST} {x : Sect (List LIST)} (h : Make.mf8yields mt za awr yields = .ok x) :
    x.ZA = za ∧ x.AWR = awr ∧ x.MT = mt ∧ x.data = yields ∧ (Get.Yields.LE x = true ↔ yields.length = 1) ∧ Get.Yields.NE x = yields.length ∧
    Get.Yields.E x = yields.map FissionYieldData.incidentEnergy := by
  have e := build_eq h
  subst e
  exact ⟨rfl, rfl, rfl, rfl, by simp [Get.Yields.LE], rfl, rfl⟩

theorem yields_energies {identifiers states : List Int} {energies : List Dbl} {interpolants : List Int} {yields : List (List (Dbl × Dbl))} {l : List LIST}
    (h : Make.fissionYields identifiers states energies interpolants yields = .ok l) : l.map (·.c1) = energies ∧ l.length = energies.length := by
  unfold Make.fissionYields at h
  split at h
  · cases h
  · split at h
    · cases h
    · split at h
      · cases h
      · obtain ⟨h1, h2⟩ := mapE_inv h
        simp only [List.length_range] at h1
        refine ⟨?_, h1⟩
        apply List.ext_getElem?
        intro i
        by_cases hi : i < energies.length
        · obtain ⟨b, hb1, hb2⟩ := h2 i i (by simp [hi])
          rw [List.getElem?_map, hb1, List.getElem?_eq_getElem hi]
          simp only [Option.map_some, Option.some.injEq]
          unfold FissionYieldData.make at hb2
          simp only at hb2
          split at hb2
          · cases hb2
          · obtain ⟨e, -⟩ := verified_require hb2
            subst e; simp only [List.getD_eq_getElem?_getD, List.getElem?_eq_getElem hi]; rfl
        · rw [List.getElem?_eq_none (by simp; omega), List.getElem?_eq_none (by omega)]

/-- The energies that were given. -/
theorem C62_made_yields_arrays {mt za : Int} {awr : Dbl} {identifiers states : List Int} {energies : List Dbl} {interpolants : List Int}
    {yields : List (List (Dbl × Dbl))} {x : Sect (List LIST)} (h : Make.mf8yieldsArrays mt za awr identifiers states energies interpolants yields = .ok x) :
    x.ZA = za ∧ x.AWR = awr ∧ x.MT = mt ∧ (Get.Yields.LE x = true ↔ energies.length = 1) ∧ Get.Yields.NE x = energies.length ∧ Get.Yields.E x = energies := by
  obtain ⟨l, h1, h2⟩ := bind_eq h
  obtain ⟨a1, a2⟩ := yields_energies h1
  obtain ⟨b1, b2, b3, -, b4, b5, b6⟩ := C62_made_yields h2
  refine ⟨b1, b2, b3, by rw [b4, a2], by rw [b5, a2], ?_⟩
  rw [b6, ← a1]; rfl

/-- The number of energies is L1 of the HEAD record; the data for energy i are on the line after the ones for the energies before it. -/
theorem C62_text_yields {mt : Int} {s s' : St} {x : Sect (List LIST)}
    (h : (SectionType.mf8mt454).defn.parse s = .ok (x, s') ∨ (SectionType.mf8mt459).defn.parse s = .ok (x, s')) :
    ∃ a, LineShows 0 s a ∧ Get.Yields.NE x = toInt32 a.l1 ∧ (Get.Yields.LE x = true ↔ toInt32 a.l1 = 1) ∧
      ∀ i l, x.data[i]? = some l → ∃ c, LineShows (1 + linesBefore .list x.data i) s c ∧ (Get.Yields.E x)[i]? = some c.c1 ∧
        FissionYieldData.interpolationType l = toInt32 c.l1 ∧ FissionYieldData.numberFissionProducts l = toInt32 c.n2 := by
  have : ∃ (a : Cont) (rs : List Rec), LineShows 0 s a ∧ Fmt.yields a x.data rs ∧
      ∀ pre r post c, rs = pre ++ r :: post → recLine r = some c → LineShows (1 + (pre.map recLines).sum) s c := by
    rcases h with h | h
    · obtain ⟨a, mt, rs, l0, hb, hr⟩ := C62_records .mf8mt454 h
      exact ⟨a, rs, l0, hb, hr⟩
    · obtain ⟨a, mt, rs, l0, hb, hr⟩ := C62_records .mf8mt459 h
      exact ⟨a, rs, l0, hb, hr⟩
  obtain ⟨a, rs, l0, ⟨b1, b2, -⟩, hr⟩ := this
  refine ⟨a, l0, b1.symm, ?_, fun i l hi => ?_⟩
  · simp only [Get.Yields.LE, decide_eq_true_eq]; omega
  · have := nth_line (f := Rec.list) (pre := []) (post := []) (l := x.data) hr (by rw [b2]; simp) hi rfl
    exact ⟨_, this, by simp [Get.Yields.E, hi], rfl, rfl⟩

/-! ### MF8 MT457 -/

theorem C62_made_continuous8 {chain : Dbl} {bounds ints : List Int} {energies spectrum : List Dbl} {r : TAB1}
    (h : Make.continuousSpectrum chain bounds ints energies spectrum = .ok r) :
    Get.Continuous8.RTYP r = chain ∧ Get.Continuous8.E r = energies ∧ Get.Continuous8.RP r = spectrum ∧ TableSays r bounds ints energies spectrum := by
  obtain ⟨e1, -, -, -, t⟩ := table_says h
  exact ⟨e1, t.2.2.2.2.1, t.2.2.2.2.2, t⟩

theorem decaySpectrum_eq {b b' : DecaySpectrum} (h : Make.decaySpectrum b = .ok b') : b = b' := by
  unfold Make.decaySpectrum at h
  split at h
  · cases h
  · exact Except.ok.inj h

theorem C62_made_decay_discrete {type : Dbl} {dnorm energy : Dbl × Dbl} {discrete : List LIST} {b : DecaySpectrum}
    (h : Make.decaySpectrumDiscrete type dnorm energy discrete = .ok b) (hn : (discrete.length : Int) < 2147483648) :
    Get.Decay8.STYP b = type ∧ Get.Decay8.LCON b = 0 ∧ Get.Decay8.LCOV b = 0 ∧ Get.Decay8.NER b = discrete.length ∧ Get.Decay8.FD b = .ok dnorm ∧
    Get.Decay8.ERAV b = .ok energy ∧ Get.Decay8.FC b = .ok (Disco.zero, Disco.zero) ∧ b.2.1 = discrete ∧ b.2.2 = none := by
  have e := decaySpectrum_eq h
  subst e
  exact ⟨rfl, toInt32_of (show IsInt32 0 by decide), toInt32_of (show IsInt32 0 by decide), toInt32_of (show IsInt32 (discrete.length : Int) from ⟨by omega, hn⟩), rfl, rfl, rfl, rfl, rfl⟩

theorem C62_made_decay_continuous {type : Dbl} {cnorm energy : Dbl × Dbl} {continuous : TAB1} {b : DecaySpectrum}
    (h : Make.decaySpectrumContinuous type cnorm energy continuous = .ok b) :
    Get.Decay8.STYP b = type ∧ Get.Decay8.LCON b = 1 ∧ Get.Decay8.LCOV b = 0 ∧ Get.Decay8.NER b = 0 ∧ Get.Decay8.FD b = .ok (Disco.zero, Disco.zero) ∧
    Get.Decay8.ERAV b = .ok energy ∧ Get.Decay8.FC b = .ok cnorm ∧ b.2.1 = [] ∧ b.2.2 = some continuous := by
  have e := decaySpectrum_eq h
  subst e
  exact ⟨rfl, toInt32_of (show IsInt32 1 by decide), toInt32_of (show IsInt32 0 by decide), toInt32_of (show IsInt32 0 by decide), rfl, rfl, rfl, rfl, rfl⟩

theorem C62_made_decay_both {type : Dbl} {dnorm cnorm energy : Dbl × Dbl} {discrete : List LIST} {continuous : TAB1} {b : DecaySpectrum}
    (h : Make.decaySpectrumBoth type dnorm cnorm energy discrete continuous = .ok b) (hn : (discrete.length : Int) < 2147483648) :
    Get.Decay8.STYP b = type ∧ Get.Decay8.LCON b = 2 ∧ Get.Decay8.LCOV b = 0 ∧ Get.Decay8.NER b = discrete.length ∧ Get.Decay8.FD b = .ok dnorm ∧
    Get.Decay8.ERAV b = .ok energy ∧ Get.Decay8.FC b = .ok cnorm ∧ b.2.1 = discrete ∧ b.2.2 = some continuous := by
  have e := decaySpectrum_eq h
  subst e
  exact ⟨rfl, toInt32_of (show IsInt32 2 by decide), toInt32_of (show IsInt32 0 by decide), toInt32_of (show IsInt32 (discrete.length : Int) from ⟨by omega, hn⟩), rfl, rfl, rfl, rfl, rfl⟩

theorem toUInt32_of {n : Int} (h : 0 ≤ n ∧ n < 4294967296) : toUInt32 n = n := by rw [toUInt32]; omega

theorem C62_made_mf8mt457 {za : Int} {awr : Dbl} {lis liso : Int} {energies modes : LIST} {spectra : List DecaySpectrum} {x : Sect DecayData}
    (h : Make.mf8mt457 za awr lis liso energies modes spectra = .ok x) (hi : 0 ≤ lis ∧ IsInt32 lis ∧ 0 ≤ liso ∧ IsInt32 liso)
    (hn : (spectra.length : Int) < 4294967296) :
    x.ZA = za ∧ x.AWR = awr ∧ x.MT = 457 ∧ Get.MF8MT457.LIS x = lis ∧ Get.MF8MT457.LISO x = liso ∧ Get.MF8MT457.NSP x = spectra.length ∧
    (Get.MF8MT457.NST x = true ↔ DecayModes.numberDecayModes modes = 0) ∧ (Get.MF8MT457.isStable x = true ↔ DecayModes.numberDecayModes modes = 0) ∧
    Get.MF8MT457.T x = AverageDecayEnergies.halfLife energies ∧ Get.MF8MT457.SPI x = DecayModes.spin modes ∧ Get.MF8MT457.PAR x = DecayModes.parity modes ∧
    x.data.energies = energies ∧ x.data.modes = modes ∧ x.data.spectra = spectra := by
  have e := build_eq h
  subst e
  obtain ⟨h1, ⟨-, h2⟩, h3, -, h4⟩ := hi
  have hst : Get.MF8MT457.NST ⟨za, awr, 457, ⟨toUInt32 lis, toUInt32 liso, energies, modes, spectra⟩⟩ = true ↔ DecayModes.numberDecayModes modes = 0 := by
    simp only [Get.MF8MT457.NST, DecayData.nst, decide_eq_true_eq, DecayModes.numberDecayModes]
    split <;> simp_all
  exact ⟨rfl, rfl, rfl, toUInt32_of ⟨h1, by omega⟩, toUInt32_of ⟨h3, by omega⟩, toUInt32_of ⟨by omega, hn⟩, hst, hst, rfl, rfl, rfl, rfl, rfl, rfl⟩

/-- A stable nuclide: no decay modes, half-life 0. -/
theorem C62_made_mf8mt457_stable {za : Int} {awr : Dbl} {lis liso : Int} {spin parity : Dbl} {x : Sect DecayData}
    (h : Make.mf8mt457Stable za awr lis liso spin parity = .ok x) (hi : 0 ≤ lis ∧ IsInt32 lis ∧ 0 ≤ liso ∧ IsInt32 liso) :
    x.ZA = za ∧ x.AWR = awr ∧ x.MT = 457 ∧ Get.MF8MT457.LIS x = lis ∧ Get.MF8MT457.LISO x = liso ∧ Get.MF8MT457.NSP x = 0 ∧
    Get.MF8MT457.isStable x = true ∧ Get.MF8MT457.T x = (Disco.zero, Disco.zero) ∧ Get.MF8MT457.SPI x = spin ∧ Get.MF8MT457.PAR x = parity := by
  obtain ⟨h1, h2, h3, h4⟩ := C62_made_base h
  obtain ⟨m, hm, h4⟩ := bind_eq h4
  have e := Except.ok.inj h4
  obtain ⟨hm, -⟩ := verified_require hm
  subst hm
  obtain ⟨i1, ⟨-, i2⟩, i3, -, i4⟩ := hi
  refine ⟨h1, h2, h3, ?_, ?_, ?_, ?_, ?_, ?_, ?_⟩
  · rw [Get.MF8MT457.LIS, ← e]; exact toUInt32_of ⟨i1, by omega⟩
  · rw [Get.MF8MT457.LISO, ← e]; exact toUInt32_of ⟨i3, by omega⟩
  · rw [Get.MF8MT457.NSP, ← e]; rfl
  · rw [Get.MF8MT457.isStable, Get.MF8MT457.NST, ← e]
    simp [DecayData.nst, toInt32_of (show IsInt32 0 by decide)]
  · rw [Get.MF8MT457.T, ← e]; rfl
  · rw [Get.MF8MT457.SPI, ← e]
  · rw [Get.MF8MT457.PAR, ← e]

/-- LIS is L1, LISO is L2, NSP is N2 of the HEAD record (NST is not read, it says whether NDK is 0); the half-life is on the next line, the spin and the parity on
    the line after the decay energies. -/
theorem C62_text_mf8mt457 {s s' : St} {x : Sect DecayData} (h : (SectionType.mf8mt457).defn.parse s = .ok (x, s')) :
    ∃ a b c, LineShows 0 s a ∧ LineShows 1 s b ∧ LineShows (1 + recLines (.list x.data.energies)) s c ∧
      Get.MF8MT457.LIS x = toUInt32 a.l1 ∧ Get.MF8MT457.LISO x = toUInt32 a.l2 ∧ Get.MF8MT457.NSP x = toUInt32 (toInt32 a.n2) ∧
      Get.MF8MT457.T x = (b.c1, b.c2) ∧ Get.MF8MT457.SPI x = c.c1 ∧ Get.MF8MT457.PAR x = c.c2 ∧ DecayModes.numberDecayModes x.data.modes = toInt32 c.n2 ∧
      (Get.MF8MT457.isStable x = true ↔ toInt32 c.n2 = 0) := by
  obtain ⟨a, mt, rs, l0, hb, hr⟩ := C62_records .mf8mt457 h
  obtain ⟨b1, b2, -, -, b3, r, rfl, -⟩ := hb
  refine ⟨a, _, _, l0, hr [] _ _ _ rfl rfl, hr [.list x.data.energies] (.list x.data.modes) r _ rfl rfl, b1, b2, by rw [b3]; rfl, rfl, rfl, rfl, rfl, ?_⟩
  simp only [Get.MF8MT457.isStable, Get.MF8MT457.NST, DecayData.nst, decide_eq_true_eq]
  split <;> simp_all

/-- A decay spectrum that was read: STYP, LCON and NER are on its first line. -/
theorem C62_text_decay8 {t : Nums} {s s' : St} {l : LIST} {ls : List LIST} {c : Option TAB1} (h : readLIST t s = .ok (l, s')) :
    ∃ a, LineShows 0 s a ∧ Get.Decay8.STYP (l, ls, c) = a.c2 ∧ Get.Decay8.LCON (l, ls, c) = toInt32 a.l1 ∧ Get.Decay8.LCOV (l, ls, c) = toInt32 a.l2 ∧
      Get.Decay8.NER (l, ls, c) = toInt32 a.n2 := ⟨_, list_line h, rfl, rfl, rfl, rfl⟩

end ENDFtk.Props

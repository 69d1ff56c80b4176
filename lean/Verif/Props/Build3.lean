import Verif.Section.Build3
import Verif.Props.Build2
/-
  C61: what the constructors make from data can be written and read back.  Part 3: files 7, 8, 9, 10, 12, 13, 14, 15 and 28.
-/
set_option linter.unusedVariables false
set_option linter.unusedSectionVars false
set_option linter.unusedSimpArgs false
namespace ENDFtk
namespace Props
variable [Disco]

/-! ### MF7 MT2 -/

omit [Disco] in
theorem records_spec [Disco] {c2 : Dbl} : ∀ {ts : List Dbl} {li : List Int} {ss : List (List Dbl)}, ts.length = ss.length → ts.length ≤ li.length →
    (Make.temperatureRecords c2 ts li ss).length = ts.length ∧ (Make.temperatureRecords c2 ts li ss).map (·.c1) = ts ∧
    (Make.temperatureRecords c2 ts li ss).map (·.data) = ss ∧ (Make.temperatureRecords c2 ts li ss).map (·.l1) = li.take ts.length ∧
    ∀ x ∈ Make.temperatureRecords c2 ts li ss, x.c2 = c2 ∧ x.l2 = 0 ∧ x.n2 = 0
  | [], li, ss, h1, _ => by
    have : ss = [] := by simpa using h1.symm
    subst this; simp [Make.temperatureRecords]
  | t :: ts, [], ss, _, h2 => by simp at h2
  | t :: ts, l :: li, [], h1, _ => by simp at h1
  | t :: ts, l :: li, s :: ss, h1, h2 => by
    obtain ⟨e0, e1, e2, e3, e4⟩ := records_spec (c2 := c2) (ts := ts) (li := li) (ss := ss) (by simpa using h1) (by simpa using h2)
    simp only [Make.temperatureRecords, List.length_cons, List.map_cons, e0, e1, e2, e3, List.take_succ_cons, true_and]
    intro x hx
    rcases List.mem_cons.mp hx with rfl | hx
    · exact ⟨rfl, rfl, rfl⟩
    · exact e4 x hx

/-- Coherent elastic scattering: the object has the temperatures, the energies and the functions that were given, and one interpolation flag for each
    temperature after the first one. -/
theorem C61_coherentElastic {bounds ints : List Int} {temperatures : List Dbl} {li : List Int} {energies : List Dbl} {s : List (List Dbl)} {b : TabLists}
    (h : Make.coherentElastic bounds ints temperatures li energies s = .ok b) :
    Make.temperatures b = temperatures ∧ b.1.x = energies ∧ Make.scatteringValues b = s ∧ Make.temperatureInterpolants b = li.take (temperatures.length - 1) ∧
    b.1.base.bounds = bounds ∧ b.1.base.ints = ints ∧ ((temperatures.length : Int) < 2147483648 → Make.numberTemperatures b = temperatures.length) ∧
    ((energies.length : Int) < 2147483648 → 0 ≤ b.1.base.n2 → b.1.base.n2 < 2147483648 → ∀ x ∈ s, x.length = energies.length) := by
  unfold Make.coherentElastic at h
  split at h
  · rename_i t0 ts s0 ss
    split at h
    · cases h
    split at h
    · cases h
    rename_i h1 h2
    obtain ⟨p, hp, h⟩ := bind_eq h
    split at h
    · rename_i hok
      cases h
      obtain ⟨e, hv, hxy, hs, hn⟩ := tab1_make hp
      obtain ⟨e0, e1, e2, e3, e4⟩ := records_spec (c2 := Disco.zero) (ts := ts) (li := li) (ss := ss) (by simpa using h1) (by omega)
      refine ⟨?_, by rw [e], ?_, ?_, by rw [e], by rw [e], ?_, ?_⟩
      · simp only [Make.temperatures, e1]; rw [e]
      · simp only [Make.scatteringValues, e2]; rw [e]
      · simp only [Make.temperatureInterpolants, e3, List.length_cons, Nat.add_sub_cancel]
      · intro hl
        simp only [List.length_cons] at hl
        simp only [Make.numberTemperatures, e0, List.length_cons]
        rw [toInt32_of ⟨by omega, by omega⟩]; omega
      · intro hl hn0 hn1 x hx
        rcases List.mem_cons.mp hx with rfl | hx
        · exact hxy.symm
        · rw [← e2] at hx
          obtain ⟨l, hlm, rfl⟩ := List.mem_map.mp hx
          have := hok l hlm
          simp only [LIST.npl] at this
          have hnp : (p.np : Int) = energies.length := by
            rw [e]; rfl
          have h3 : asInt p.np = energies.length := by unfold asInt; rw [toInt32_of ⟨by omega, by omega⟩]; exact hnp
          rw [h3] at this
          omega
    · cases h
  · cases h

/-- The number of functions has to be the number of temperatures; the number of interpolation flags is not verified, and if there are too few of them the
    behaviour is undefined. -/
theorem C61_coherentElastic_sizes {bounds ints : List Int} {temperatures : List Dbl} {li : List Int} {energies : List Dbl} {s : List (List Dbl)}
    (h1 : temperatures ≠ []) (h2 : s ≠ []) :
    (temperatures.length ≠ s.length → Make.coherentElastic bounds ints temperatures li energies s = .error .exc) ∧
    (temperatures.length = s.length → li.length + 1 < temperatures.length → Make.coherentElastic bounds ints temperatures li energies s = .error .ub) := by
  match temperatures, s, h1, h2 with
  | t0 :: ts, s0 :: ss, _, _ =>
    simp only [List.length_cons, Make.coherentElastic]
    constructor
    · intro h; rw [if_pos (by omega)]
    · intro h h'; rw [if_neg (by simp; omega), if_pos (by omega)]

theorem tabLists_valid {p : TAB1} {ls : List LIST} (hp : p.Fits) (hl : p.base.l1 = ls.length) (hi : Make.TabListsInts (p, ls)) : tabListsC.Valid (p, ls) :=
  ⟨hp, by show toInt32 p.base.l1 = _; rw [hl]; exact toInt32_of ⟨by omega, hi.2.1⟩, fun x hx => list_fits (hi.2.2 x hx)⟩

theorem coherent_valid {b : TabLists} (h : Make.CoherentBuilt b) (hi : Make.TabListsInts b) : coherentC.Valid b := by
  cases h with
  | all h =>
    unfold Make.coherentElastic at h
    split at h
    · rename_i t0 ts s0 ss
      split at h
      · cases h
      split at h
      · cases h
      rename_i h1 h2
      obtain ⟨p, hp, h⟩ := bind_eq h
      split at h
      · rename_i hok
        cases h
        refine ⟨tabLists_valid (tab1_fits hp hi.1) ?_ hi, hok⟩
        rw [(records_spec (by simpa using h1) (by omega)).1, (tab1_make hp).1]
      · cases h
    · cases h
  | single h =>
    obtain ⟨p, hp, h⟩ := bind_eq h
    cases h
    refine ⟨tabLists_valid (tab1_fits hp hi.1) ?_ hi, fun l hl => by cases hl⟩
    rw [(tab1_make hp).1]; rfl

theorem incoherent_fits {r : TAB1} (h : Make.IncoherentBuilt r) (hi : r.Ints) : r.Fits := by
  obtain ⟨_, _, _, _, _, h⟩ := h
  exact tab1_fits h hi

theorem elastic_valid {b : Elastic} (h : Make.ElasticBuilt b) (hi : Make.ElasticInts b) : (elasticC b.lthr).Valid b := by
  cases h with
  | coherent h => exact ⟨_, rfl, coherent_valid h hi⟩
  | incoherent h => exact ⟨_, rfl, incoherent_fits h hi⟩
  | mixed h1 h2 => exact ⟨(_, _), rfl, coherent_valid h1 hi.1, incoherent_fits h2 hi.2⟩

/-- Thermal elastic scattering (MF7 MT2). -/
theorem C61_mf7mt2 {za : Int} {awr : Dbl} {law : Elastic} {s : Sect Elastic} (hb : Make.ElasticBuilt law) (h : Make.mf7mt2 za awr law = .ok s) :
    s = ⟨za, awr, 2, law⟩ ∧ (IsInt32 za → Make.ElasticInts law → ReadsBack .mf7mt2 s) := by
  have e : s = ⟨za, awr, 2, law⟩ := build_eq h
  refine ⟨e, fun hz hi => built_round (T := .mf7mt2) h hz (by omega) ?_ trivial⟩
  subst e; exact elastic_valid hb hi

/-! ### MF7 MT4 -/

/-- A scattering function: the object has the beta value, the temperatures, the interpolation flags, the alpha values and the functions that were given. -/
theorem C61_scatteringFunction {beta : Dbl} {bounds ints : List Int} {temperatures : List Dbl} {li : List Int} {alphas : List Dbl} {sab : List (List Dbl)} {b : TabLists}
    (h : Make.scatteringFunction beta bounds ints temperatures li alphas sab = .ok b) :
    b.1.base.c2 = beta ∧ Make.temperatures b = temperatures ∧ b.1.x = alphas ∧ Make.scatteringValues b = sab ∧ Make.temperatureInterpolants b = li ∧
    b.1.base.bounds = bounds ∧ b.1.base.ints = ints ∧ ((temperatures.length : Int) < 2147483648 → Make.numberTemperatures b = temperatures.length) := by
  unfold Make.scatteringFunction at h
  split at h
  · rename_i t0 ts s0 ss
    split at h
    · cases h
    rename_i h1
    obtain ⟨p, hp, h⟩ := bind_eq h
    split at h
    · cases h
      obtain ⟨e, _⟩ := tab1_make hp
      obtain ⟨e0, e1, e2, e3, e4⟩ := records_spec (c2 := beta) (ts := ts) (li := li) (ss := ss) (by omega) (by omega)
      refine ⟨by rw [e], ?_, by rw [e], ?_, ?_, by rw [e], by rw [e], ?_⟩
      · simp only [Make.temperatures, e1]; rw [e]
      · simp only [Make.scatteringValues, e2]; rw [e]
      · simp only [Make.temperatureInterpolants, e3]
        exact List.take_of_length_le (by omega)
      · intro hl
        simp only [List.length_cons] at hl
        simp only [Make.numberTemperatures, e0, List.length_cons]
        rw [toInt32_of ⟨by omega, by omega⟩]; omega
    · cases h
  · cases h

/-- The numbers of interpolation flags and of functions are verified. -/
theorem C61_scatteringFunction_sizes {beta : Dbl} {bounds ints : List Int} {temperatures : List Dbl} {li : List Int} {alphas : List Dbl} {sab : List (List Dbl)}
    (h1 : temperatures ≠ []) (h2 : sab ≠ []) (h : temperatures.length ≠ sab.length ∨ temperatures.length ≠ li.length + 1) :
    Make.scatteringFunction beta bounds ints temperatures li alphas sab = .error .exc := by
  match temperatures, sab, h1, h2 with
  | t0 :: ts, s0 :: ss, _, _ =>
    simp only [List.length_cons] at h
    simp only [Make.scatteringFunction]
    rw [if_pos (by omega)]

theorem function_valid {b : TabLists} (h : Make.FunctionBuilt b) (hi : Make.TabListsInts b) : scatteringFunctionC.Valid b := by
  cases h with
  | all h =>
    unfold Make.scatteringFunction at h
    split at h
    · rename_i t0 ts s0 ss
      split at h
      · cases h
      rename_i h1
      obtain ⟨p, hp, h⟩ := bind_eq h
      split at h
      · rename_i hok
        cases h
        refine ⟨tabLists_valid (tab1_fits hp hi.1) ?_ hi, hok⟩
        rw [(records_spec (by omega) (by omega)).1, (tab1_make hp).1]
      · cases h
    · cases h
  | single h =>
    obtain ⟨p, hp, h⟩ := bind_eq h
    cases h
    refine ⟨tabLists_valid (tab1_fits hp hi.1) ?_ hi, fun l hl => by cases hl⟩
    rw [(tab1_make hp).1]; rfl

theorem constants_built {l : LIST} (h : Make.ConstantsBuilt l) : Make.constantsVerify l = .ok () := by
  cases h with
  | list h => obtain ⟨e, h⟩ := verified_ok h; rw [e]; exact h
  | principal h => obtain ⟨e, h⟩ := verified_ok h; rw [e]; exact h
  | arrays h =>
    unfold ScatteringLawConstants.make at h
    split at h
    · cases h
    split at h
    · cases h
    split at h
    · cases h
    split at h
    · cases h
    obtain ⟨e, h⟩ := verified_ok h
    rw [e]
    unfold constantsCheck at h
    unfold Make.constantsVerify
    split at h
    · cases h
    split at h
    · cases h
    split at h
    · cases h
    split at h
    · cases h
    rename_i h1 h0 h2 h3
    rw [if_neg h1, if_neg h0, if_neg h2, if_neg h3]

theorem constants_valid {l : LIST} (h : Make.ConstantsBuilt l) (hi : l.Ints) (hn : IsInt32 l.n2) (h6 : ¬l.data.length < 6) : constantsC.Valid l := by
  refine ⟨list_fits hi, ?_⟩
  have := constants_built h
  unfold Make.constantsVerify at this
  unfold constantsCheck
  split at this
  · cases this
  split at this
  · cases this
  split at this
  · cases this
  split at this
  · cases this
  rename_i h1 h0 h2 h3
  rw [if_neg h1, if_neg h0, if_neg h2, if_neg h3]
  have hl := hi.2.2.2
  rw [toInt32_of hn] at h1 h2
  simp only [LIST.npl] at h2
  rw [toInt32_of ⟨by omega, hl⟩] at h2
  rw [if_neg (by omega)]

theorem secondary_valid : ∀ {types : List Dbl} {secondary : List (Option TAB1)}, Make.secondaryOk types secondary → (∀ r, some r ∈ secondary → r.Fits) →
    (temperaturesC types).Valid secondary
  | [], [], _, _ => ⟨(), rfl, trivial⟩
  | [], _ :: _, h, _ => by have := h.1; simp at this
  | _ :: _, [], h, _ => by have := h.1; simp at this
  | t :: ts, o :: os, h, hf => by
    refine ⟨?_, secondary_valid (types := ts) (secondary := os) ⟨by simpa using h.1, fun p hp => h.2 p (by simp [hp])⟩ fun r hr => hf r (by simp [hr])⟩
    have h0 := h.2 (t, o) (by simp)
    cases o with
    | none => show ¬_; simp only at h0; rw [h0]; simp
    | some r => exact ⟨h0, hf r (by simp)⟩

/-- Thermal inelastic scattering (MF7 MT4), if the law is analytical exactly if the first constant is zero (the constructor does not verify it, but the reader
    decides by it). -/
theorem C61_mf7mt4_partial {za : Int} {awr : Dbl} {lat lasym : Int} {constants : LIST} {law : Option (ISeq TabLists)} {principal : TAB1}
    {secondary : List (Option TAB1)} {s : Sect ScatteringData} (hc : Make.ConstantsBuilt constants) (hl : Make.LawBuilt7 law) (hp : Make.TableBuilt principal)
    (hs : ∀ r, some r ∈ secondary → Make.TableBuilt r) (h : Make.mf7mt4 za awr lat lasym constants law principal secondary = .ok s) :
    s = ⟨za, awr, 4, ⟨lat, lasym, constants, law, principal, secondary⟩⟩ ∧
    (IsInt32 za → Make.ScatteringInts s.data → (law = none ↔ Disco.eqD (sigma0 constants) Disco.zero = true) → ReadsBack .mf7mt4 s) := by
  have h' := h
  unfold Make.mf7mt4 at h
  split at h
  · cases (build_ok h).1
  split at h
  · cases (build_ok h).1
  split at h
  · cases (build_ok h).1
  rename_i h1 h2 h3
  have e : s = ⟨za, awr, 4, ⟨lat, lasym, constants, law, principal, secondary⟩⟩ := build_eq h
  refine ⟨e, fun hz hi hk => built_round (T := .mf7mt4) h' hz (by omega) ?_ trivial⟩
  subst e
  obtain ⟨i1, i2, i3, i4, i5, i6⟩ := hi
  refine ⟨?_, i1, constants_valid hc i3 i2 h1, ?_, ?_, secondary_valid (by simpa using h2) fun r hr => table_fits (hs r hr) (i6 r hr)⟩
  · show lat = 0 ∨ lat = 1
    omega
  · cases hl with
    | analytical => exact hk.mp rfl
    | tabulated hf hb =>
      refine And.intro (fun h0 => nomatch hk.mpr h0) ?_
      obtain ⟨tab2, h4, h5⟩ := bind_eq hb
      refine (iseq_valid (c := scatteringFunctionC) (I := Make.TabListsInts) h4 h5 (i4 _ rfl) fun x hx hI => ?_).1
      obtain ⟨rfl, _⟩ := iseq_make h5
      exact function_valid (hf x hx) hI
  · exact table_fits hp i5

/-- The scattering law constants for NS = -1 and an empty list are accepted; making the section then has undefined behaviour. -/
theorem C61_mf7mt4_empty_constants {za : Int} {awr : Dbl} {lat lasym : Int} {law : Option (ISeq TabLists)} {principal : TAB1} {secondary : List (Option TAB1)}
    (h : 1 ≤ za) (ha : Disco.ltD awr Disco.zero = false) :
    Make.constantsList 0 (-1) [] = .ok ⟨Disco.zero, Disco.zero, 0, 0, -1, []⟩ ∧
    Make.mf7mt4 za awr lat lasym ⟨Disco.zero, Disco.zero, 0, 0, -1, []⟩ law principal secondary = .error .ub := by
  constructor
  · refine verified_of_ok ?_
    unfold Make.constantsVerify
    have e1 : toInt32 (-1) = -1 := toInt32_of ⟨by omega, by omega⟩
    have e0 : toInt32 0 = 0 := toInt32_of ⟨by omega, by omega⟩
    simp [LIST.npl, e1, e0]
    decide
  · unfold Make.mf7mt4
    rw [if_pos (by simp)]
    unfold SecDef.build checkBase
    rw [if_neg (by omega), if_neg (by simp [ha])]
    rfl

/-! ### MF7 MT451 -/

/-- Thermal scattering general information (MF7 MT451). -/
theorem C61_mf7mt451 {za : Int} {awr : Dbl} {elements : List LIST} {s : Sect (List LIST)}
    (hb : ∀ x ∈ elements, ∃ atoms identifiers states abundances weights xs, ElementInformation.make atoms identifiers states abundances weights xs = .ok x)
    (h : Make.mf7mt451 za awr elements = .ok s) :
    s = ⟨za, awr, 451, elements⟩ ∧ elements ≠ [] ∧ (IsInt32 za → SeqInts LIST.Ints elements → ReadsBack .mf7mt451 s) := by
  have h' := h
  unfold Make.mf7mt451 at h
  split at h
  · cases (build_ok h).1
  rename_i h0
  have e : s = ⟨za, awr, 451, elements⟩ := build_eq h
  have hne : elements ≠ [] := by intro he; rw [he] at h0; simp at h0
  refine ⟨e, hne, fun hz hi => built_round (T := .mf7mt451) h' hz (by omega) ?_ trivial⟩
  subst e
  refine ⟨fun x hx => ⟨list_fits (hi.2 x hx), ?_⟩, hne, hi.1⟩
  obtain ⟨_, _, _, _, _, _, h⟩ := hb x hx
  unfold ElementInformation.make at h
  simp only at h
  split at h
  · cases h
  obtain ⟨rfl, hv⟩ := verified_require h
  exact hv

/-- The constructor for a single element gives the section with an array of that element. -/
theorem C61_mf7mt451_single {za : Int} {awr : Dbl} {element : LIST} {s : Sect (List LIST)}
    (hb : ∃ atoms identifiers states abundances weights xs, ElementInformation.make atoms identifiers states abundances weights xs = .ok element)
    (h : Make.mf7mt451Single za awr element = .ok s) :
    s = ⟨za, awr, 451, [element]⟩ ∧ (IsInt32 za → LIST.Ints element → ReadsBack .mf7mt451 s) := by
  obtain ⟨h1, _, h3⟩ := C61_mf7mt451 (elements := [element]) (fun x hx => by simp only [List.mem_singleton] at hx; subst hx; exact hb) h
  exact ⟨h1, fun hz hi => h3 hz ⟨by simp, fun x hx => by simp only [List.mem_singleton] at hx; subst hx; exact hi⟩⟩

/-- Without elements there is no section; with a single element the short form is the same as an array of one element. -/
theorem C61_mf7mt451_empty (za : Int) (awr : Dbl) : Make.mf7mt451 za awr [] = .error .exc := by
  by_cases h : 1 ≤ za ∧ Disco.ltD awr Disco.zero = false ∧ (mf7mt451.fixedMT = none → 1 ≤ (451 : Int))
  · unfold Make.mf7mt451 SecDef.build checkBase
    rw [if_neg (by omega), if_neg (by simp [h.2.1])]
    simp [mf7mt451]
  · exact build_rejects h

/-! ### MF8 MT454 and MT459 -/

omit [Disco] in
theorem mapE_inv {α β : Type} {f : α → Except Err β} : ∀ {l : List α} {r : List β}, mapE f l = .ok r →
    r.length = l.length ∧ ∀ (i : Nat) a, l[i]? = some a → ∃ b, r[i]? = some b ∧ f a = .ok b
  | [], r, h => by cases h; simp
  | a :: l, r, h => by
    unfold mapE at h
    split at h
    · cases h
    rename_i b hb
    split at h
    · cases h
    rename_i bs hbs
    cases h
    obtain ⟨e, hi⟩ := mapE_inv hbs
    refine ⟨by simp [e], fun i a' ha => ?_⟩
    cases i with
    | zero => simp at ha; subst ha; exact ⟨b, by simp, hb⟩
    | succ i => simp at ha; obtain ⟨b', h1, h2⟩ := hi i a' ha; exact ⟨b', by simpa using h1, h2⟩

omit [Disco] in
theorem mapE_all {α β : Type} {f : α → Except Err β} : ∀ {l : List α}, (∀ a ∈ l, ∃ b, f a = .ok b) → ∃ r, mapE f l = .ok r
  | [], _ => ⟨[], rfl⟩
  | a :: l, h => by
    obtain ⟨b, hb⟩ := h a (by simp)
    obtain ⟨bs, hbs⟩ := mapE_all (l := l) fun a ha => h a (by simp [ha])
    exact ⟨b :: bs, by unfold mapE; rw [hb]; simp only; rw [hbs]⟩

/-- Fission yields from arrays: there is one set of yields for each incident energy, with that energy, the identifiers and states that were given and the yields of
    all products at that energy; the flag of the first set is the number of energies minus one, that of the others the interpolation type. -/
theorem C61_fissionYields {identifiers states : List Int} {energies : List Dbl} {interpolants : List Int} {yields : List (List (Dbl × Dbl))} {r : List LIST}
    (h : Make.fissionYields identifiers states energies interpolants yields = .ok r) (hn : identifiers ≠ []) :
    r.length = energies.length ∧ ∀ i < energies.length, ∃ l, r[i]? = some l ∧ energies[i]? = some (FissionYieldData.incidentEnergy l) ∧
      FissionYieldData.fissionProductIdentifiers l = .ok (ofInts identifiers) ∧ FissionYieldData.isomericStates l = .ok (ofInts states) ∧
      FissionYieldData.fissionYields l = .ok (yields.map fun y => [(y.getD i (Disco.zero, Disco.zero)).1, (y.getD i (Disco.zero, Disco.zero)).2]) ∧
      (∀ y ∈ yields, i < y.length) ∧
      (i = 0 → (energies.length : Int) < 2147483648 → FissionYieldData.interpolationType l = (energies.length : Int) - 1) ∧
      (0 < i → ∀ t, interpolants[i - 1]? = some t → IsInt32 t → FissionYieldData.interpolationType l = t) := by
  unfold Make.fissionYields at h
  split at h
  · cases h
  split at h
  · cases h
  split at h
  · cases h
  rename_i h1 h2 h3
  obtain ⟨e, hi⟩ := mapE_inv h
  rw [List.length_range] at e
  refine ⟨e, fun i hlt => ?_⟩
  obtain ⟨l, e1, e2⟩ := hi i i (by rw [List.getElem?_range hlt])
  obtain ⟨g1, g2, _, g4, g5, g6, _⟩ := C48_fissionYields e2 hn
  refine ⟨l, e1, ?_, g4, g5, ?_, ?_, ?_, ?_⟩
  · rw [g1, List.getD_eq_getElem?_getD, List.getElem?_eq_getElem hlt]; rfl
  · rw [g6]; simp [pairsOf]
  · intro y hy
    have : y.length = energies.length := by
      apply Decidable.byContradiction; intro hne; exact h3 ⟨y, hy, hne⟩
    omega
  · rintro rfl hl
    rw [if_pos rfl] at g2
    exact g2 ⟨by omega, by omega⟩
  · intro h0 t ht hT
    rw [if_neg (by omega), List.getD_eq_getElem?_getD, ht] at g2
    exact g2 hT

/-- The arrays are accepted exactly if their sizes are consistent. -/
theorem C61_fissionYields_accepts {identifiers states : List Int} {energies : List Dbl} {interpolants : List Int} {yields : List (List (Dbl × Dbl))}
    (hs : 4 * (identifiers.length : Int) < 2147483648) :
    let ok := energies.length = interpolants.length + 1 ∧ states.length = identifiers.length ∧ yields.length = identifiers.length ∧ ∀ y ∈ yields, y.length = energies.length
    (ok → ∃ r, Make.fissionYields identifiers states energies interpolants yields = .ok r) ∧
    (¬ok → Make.fissionYields identifiers states energies interpolants yields = .error .exc) := by
  simp only
  unfold Make.fissionYields
  constructor
  · rintro ⟨h1, h2, h3, h4⟩
    rw [if_neg (by omega), if_neg (by omega), if_neg (by rintro ⟨y, hy, h⟩; exact h (h4 y hy))]
    refine mapE_all fun i hi => ?_
    exact (C48_fissionYields_accepts hs).1 ⟨h2, by simpa using h3⟩
  · intro h
    by_cases h1 : energies.length = interpolants.length + 1
    · rw [if_neg (by omega)]
      by_cases h2 : states.length = identifiers.length ∧ yields.length = identifiers.length
      · rw [if_neg (by omega), if_pos]
        apply Decidable.byContradiction; intro hn
        refine h ⟨h1, h2.1, h2.2, fun y hy => ?_⟩
        apply Decidable.byContradiction; intro hne; exact hn ⟨y, hy, hne⟩
      · rw [if_pos (by omega)]
    · rw [if_pos (by omega)]

theorem yieldsMade {ids states : List Int} {ys : List (Dbl × Dbl)} {e : Dbl} {int : Int} {l : LIST} (h : FissionYieldData.make ids states ys e int = .ok l) : yieldsOk l := by
  unfold FissionYieldData.make at h
  simp only at h
  split at h
  · cases h
  obtain ⟨rfl, hv⟩ := verified_require h
  exact hv

/-- A set of fission yields made by the constructor. -/
def YieldsBuilt (l : LIST) : Prop := ∃ identifiers states yields energy interpolation, FissionYieldData.make identifiers states yields energy interpolation = .ok l

theorem yields_valid {l : List LIST} (hb : ∀ x ∈ l, YieldsBuilt x) (hi : SeqInts LIST.Ints l) : (∀ x ∈ l, yieldsC.Valid x) ∧ (l.length : Int) < 2147483648 :=
  ⟨fun x hx => ⟨list_fits (hi.2 x hx), by obtain ⟨_, _, _, _, _, h⟩ := hb x hx; exact yieldsMade h⟩, hi.1⟩

/-- The sets of yields made from arrays. -/
theorem arrays_built {identifiers states : List Int} {energies : List Dbl} {interpolants : List Int} {yields : List (List (Dbl × Dbl))} {r : List LIST}
    (h : Make.fissionYields identifiers states energies interpolants yields = .ok r) : ∀ x ∈ r, YieldsBuilt x := by
  unfold Make.fissionYields at h
  split at h
  · cases h
  split at h
  · cases h
  split at h
  · cases h
  obtain ⟨e, hi⟩ := mapE_inv h
  intro x hx
  obtain ⟨i, hi', rfl⟩ := List.getElem_of_mem hx
  rw [List.length_range] at e
  obtain ⟨b, e1, e2⟩ := hi i i (by rw [List.getElem?_range (by omega)])
  rw [List.getElem?_eq_getElem hi'] at e1
  cases e1
  exact ⟨_, _, _, _, _, e2⟩

/-- Fission product yields (MF8 MT454 and MT459). -/
theorem C61_mf8mt454 {za : Int} {awr : Dbl} {yields : List LIST} {s : Sect (List LIST)} (hb : ∀ x ∈ yields, YieldsBuilt x) (h : Make.mf8yields 454 za awr yields = .ok s) :
    s = ⟨za, awr, 454, yields⟩ ∧ (IsInt32 za → SeqInts LIST.Ints yields → ReadsBack .mf8mt454 s) := by
  have e : s = ⟨za, awr, 454, yields⟩ := build_eq h
  refine ⟨e, fun hz hi => built_round (T := .mf8mt454) h hz (by omega) ?_ trivial⟩
  subst e; exact yields_valid hb hi

theorem C61_mf8mt459 {za : Int} {awr : Dbl} {yields : List LIST} {s : Sect (List LIST)} (hb : ∀ x ∈ yields, YieldsBuilt x) (h : Make.mf8yields 459 za awr yields = .ok s) :
    s = ⟨za, awr, 459, yields⟩ ∧ (IsInt32 za → SeqInts LIST.Ints yields → ReadsBack .mf8mt459 s) := by
  have e : s = ⟨za, awr, 459, yields⟩ := build_eq h
  refine ⟨e, fun hz hi => built_round (T := .mf8mt459) h hz (by omega) ?_ trivial⟩
  subst e; exact yields_valid hb hi

/-- The sections made from arrays are made of the sets of yields that the theorems above describe. -/
theorem C61_mf8yields_arrays {mt za : Int} {awr : Dbl} {identifiers states : List Int} {energies : List Dbl} {interpolants : List Int}
    {yields : List (List (Dbl × Dbl))} {s : Sect (List LIST)} (h : Make.mf8yieldsArrays mt za awr identifiers states energies interpolants yields = .ok s) :
    ∃ l, Make.fissionYields identifiers states energies interpolants yields = .ok l ∧ (∀ x ∈ l, YieldsBuilt x) ∧ Make.mf8yields mt za awr l = .ok s := by
  obtain ⟨l, h1, h2⟩ := bind_eq h
  exact ⟨l, h1, arrays_built h1, h2⟩

theorem C61_mf8yields_single {mt za : Int} {awr : Dbl} {identifiers states : List Int} {yields : List (Dbl × Dbl)} {s : Sect (List LIST)}
    (h : Make.mf8yieldsSingle mt za awr identifiers states yields = .ok s) :
    ∃ l, FissionYieldData.make identifiers states yields Disco.zero 0 = .ok l ∧ YieldsBuilt l ∧ Make.mf8yields mt za awr [l] = .ok s := by
  obtain ⟨l, h1, h2⟩ := bind_eq h
  exact ⟨l, h1, ⟨_, _, _, _, _, h1⟩, h2⟩

/-! ### MF8 MT457 -/

/-- A decay spectrum with discrete energies only, with a continuous spectrum only, with both. -/
theorem C61_decaySpectrum {type : Dbl} {dnorm cnorm energy : Dbl × Dbl} {discrete : List LIST} {continuous : TAB1} :
    (∀ b, Make.decaySpectrumDiscrete type dnorm energy discrete = .ok b → Make.spectrumType b = type ∧ Make.continuumFlag b = 0 ∧
      Make.normalisation 0 b = .ok dnorm ∧ Make.normalisation 2 b = .ok energy ∧ b.2 = (discrete, none) ∧
      ((discrete.length : Int) < 2147483648 → Make.numberDiscrete b = discrete.length)) ∧
    (∀ b, Make.decaySpectrumContinuous type cnorm energy continuous = .ok b → Make.spectrumType b = type ∧ Make.continuumFlag b = 1 ∧
      Make.normalisation 4 b = .ok cnorm ∧ Make.normalisation 2 b = .ok energy ∧ b.2 = ([], some continuous) ∧ Make.numberDiscrete b = 0) ∧
    (∀ b, Make.decaySpectrumBoth type dnorm cnorm energy discrete continuous = .ok b → Make.spectrumType b = type ∧ Make.continuumFlag b = 2 ∧
      Make.normalisation 0 b = .ok dnorm ∧ Make.normalisation 4 b = .ok cnorm ∧ Make.normalisation 2 b = .ok energy ∧ b.2 = (discrete, some continuous) ∧
      discrete ≠ [] ∧ ((discrete.length : Int) < 2147483648 → Make.numberDiscrete b = discrete.length)) := by
  refine ⟨?_, ?_, ?_⟩
  · intro b h
    unfold Make.decaySpectrumDiscrete Make.decaySpectrum at h
    split at h
    · cases h
    cases h
    exact ⟨rfl, toInt32_of (show IsInt32 0 by decide), rfl, rfl, rfl, fun h => toInt32_of ⟨by simp only; omega, h⟩⟩
  · intro b h
    unfold Make.decaySpectrumContinuous Make.decaySpectrum at h
    split at h
    · cases h
    cases h
    exact ⟨rfl, toInt32_of (show IsInt32 1 by decide), rfl, rfl, rfl, toInt32_of (show IsInt32 0 by decide)⟩
  · intro b h
    unfold Make.decaySpectrumBoth Make.decaySpectrum at h
    split at h
    · cases h
    rename_i h0
    cases h
    refine ⟨rfl, toInt32_of (show IsInt32 2 by decide), rfl, rfl, rfl, rfl, ?_, fun h => toInt32_of ⟨by simp only; omega, h⟩⟩
    rintro rfl
    exact h0 ⟨toInt32_of (show IsInt32 2 by decide), toInt32_of (show IsInt32 0 by decide)⟩

theorem discrete_valid {l : LIST} (h : Make.DiscreteBuilt l) (hi : l.Ints) : discreteC.Valid l := by
  refine ⟨list_fits hi, ?_⟩
  cases h with
  | four h => obtain ⟨rfl, hq⟩ := verified_require h; exact hq
  | six h => obtain ⟨rfl, hq⟩ := verified_require h; exact hq
  | twelve h => obtain ⟨rfl, hq⟩ := verified_require h; exact hq

theorem decaySpectrum_valid {b : DecaySpectrum} (h : Make.DecaySpectrumBuilt b) (hi : Make.DecaySpectrumInts b) : decaySpectrumC.Valid b := by
  obtain ⟨i1, i2, i3⟩ := hi
  cases h with
  | discrete hd h =>
    unfold Make.decaySpectrumDiscrete Make.decaySpectrum at h
    split at h
    · cases h
    rename_i h0
    cases h
    refine ⟨⟨list_fits i1, ⟨toInt32_of ⟨by simp only; omega, i2.1⟩, fun x hx => discrete_valid (hd x hx) (i2.2 x hx)⟩, ?_⟩, h0, toInt32_of (show IsInt32 0 by decide)⟩
    exact fun h => h (toInt32_of (show IsInt32 0 by decide))
  | continuous hc h =>
    unfold Make.decaySpectrumContinuous Make.decaySpectrum at h
    split at h
    · cases h
    rename_i h0
    cases h
    obtain ⟨_, _, _, _, _, hc⟩ := hc
    refine ⟨⟨list_fits i1, ⟨toInt32_of (show IsInt32 0 by decide), fun x hx => by cases hx⟩, ?_⟩, h0, toInt32_of (show IsInt32 0 by decide)⟩
    refine ⟨?_, tab1_fits hc (i3 _ rfl)⟩
    simp only
    rw [toInt32_of (show IsInt32 1 by decide)]; decide
  | both hd hc h =>
    unfold Make.decaySpectrumBoth Make.decaySpectrum at h
    split at h
    · cases h
    rename_i h0
    cases h
    obtain ⟨_, _, _, _, _, hc⟩ := hc
    refine ⟨⟨list_fits i1, ⟨toInt32_of ⟨by simp only; omega, i2.1⟩, fun x hx => discrete_valid (hd x hx) (i2.2 x hx)⟩, ?_⟩, h0, toInt32_of (show IsInt32 0 by decide)⟩
    refine ⟨?_, tab1_fits hc (i3 _ rfl)⟩
    simp only
    rw [toInt32_of (show IsInt32 2 by decide)]; decide

theorem energies_ok {l : LIST} (h : Make.EnergiesBuilt l) : decayEnergiesOk l := by
  cases h with
  | none =>
    refine .inl ?_
    have : ((Make.noDecayEnergies.npl : Int) / 2) = 3 := by simp [Make.noDecayEnergies, LIST.npl]
    rw [this]; exact toInt32_of ⟨by omega, by omega⟩
  | some h => obtain ⟨rfl, hq⟩ := verified_require h; exact hq

theorem modes_ok {l : LIST} (h : Make.ModesBuilt l) : decayModesOk l := by
  cases h with
  | stable h => obtain ⟨rfl, hq⟩ := verified_require h; exact hq
  | some h => obtain ⟨rfl, hq⟩ := verified_require h; exact hq

omit [Disco] in
theorem toUInt32_bounds (n : Int) : 0 ≤ toUInt32 n ∧ toUInt32 n < 4294967296 := by unfold toUInt32; omega

theorem decay_data_valid {b : DecayData} (h1 : Make.EnergiesBuilt b.energies) (h2 : Make.ModesBuilt b.modes) (h3 : ∀ x ∈ b.spectra, Make.DecaySpectrumBuilt x)
    (hi : Make.DecayDataInts b) (h4 : 0 ≤ b.lis ∧ b.lis < 4294967296) (h5 : 0 ≤ b.liso ∧ b.liso < 4294967296) : mf8mt457.Valid b :=
  ⟨h4, h5, ⟨list_fits hi.1, energies_ok h1⟩, ⟨list_fits hi.2.1, modes_ok h2⟩, fun x hx => decaySpectrum_valid (h3 x hx) (hi.2.2.2 x hx), hi.2.2.1⟩

/-- Radioactive decay data (MF8 MT457). -/
theorem C61_mf8mt457 {za : Int} {awr : Dbl} {lis liso : Int} {energies modes : LIST} {spectra : List DecaySpectrum} {s : Sect DecayData}
    (he : Make.EnergiesBuilt energies) (hm : Make.ModesBuilt modes) (hs : ∀ x ∈ spectra, Make.DecaySpectrumBuilt x)
    (h : Make.mf8mt457 za awr lis liso energies modes spectra = .ok s) :
    (s.za = za ∧ s.awr = awr ∧ s.mt = 457 ∧ s.data.energies = energies ∧ s.data.modes = modes ∧ s.data.spectra = spectra ∧
      (0 ≤ lis → lis < 4294967296 → s.data.lis = lis) ∧ (0 ≤ liso → liso < 4294967296 → s.data.liso = liso)) ∧
    (IsInt32 za → Make.DecayDataInts s.data → ReadsBack .mf8mt457 s) := by
  have e : s = ⟨za, awr, 457, ⟨toUInt32 lis, toUInt32 liso, energies, modes, spectra⟩⟩ := build_eq h
  refine ⟨?_, fun hz hi => built_round (T := .mf8mt457) h hz (by omega) ?_ trivial⟩
  · subst e
    refine ⟨rfl, rfl, rfl, rfl, rfl, rfl, ?_, ?_⟩ <;> (intro h1 h2; simp only [toUInt32]; omega)
  · subst e; exact decay_data_valid he hm hs hi (toUInt32_bounds _) (toUInt32_bounds _)

/-- A stable nuclide: no decay modes, no spectra, zero decay energies; the section can be written and read back. -/
theorem C61_mf8mt457_stable {za : Int} {awr : Dbl} {lis liso : Int} {spin parity : Dbl} {s : Sect DecayData}
    (h : Make.mf8mt457Stable za awr lis liso spin parity = .ok s) :
    s.data.nst = 1 ∧ s.data.spectra = [] ∧ DecayModes.spin s.data.modes = spin ∧ DecayModes.parity s.data.modes = parity ∧
    DecayModes.numberDecayModes s.data.modes = 0 ∧ (IsInt32 za → ReadsBack .mf8mt457 s) := by
  have h' := h
  obtain ⟨hd, _⟩ := build_ok h
  obtain ⟨m, hm, hd⟩ := bind_eq hd
  have hm' := hm
  obtain ⟨rfl, hk⟩ := verified_require hm
  have e : s.data = ⟨toUInt32 lis, toUInt32 liso, Make.noDecayEnergies, ⟨spin, parity, 0, 0, 0, List.replicate 6 Disco.zero⟩, []⟩ := (Except.ok.inj hd).symm
  have h0 : toInt32 0 = 0 := toInt32_of (show IsInt32 0 by decide)
  refine ⟨?_, by rw [e], by rw [e]; rfl, by rw [e]; rfl, by rw [e]; exact h0, fun hz => built_round (T := .mf8mt457) h' hz (by omega) ?_ trivial⟩
  · rw [e]; unfold DecayData.nst; simp only; rw [if_pos h0]
  · show mf8mt457.Valid s.data
    rw [e]
    refine decay_data_valid .none (.stable hm') (fun x hx => by cases hx) ⟨⟨fits0, fits0, fits0, by simp [Make.noDecayEnergies]⟩, ⟨fits0, fits0, fits0, ?_⟩, by simp, fun x hx => by cases hx⟩
      (toUInt32_bounds _) (toUInt32_bounds _)
    simp

/-! ### MF9 and MF10 -/

/-- A reaction product made by one of the constructors. -/
inductive Product9Built : TAB1 → Prop
  | full {qm qi : Dbl} {izap lfs : Int} {bounds ints : List Int} {energies values : List Dbl} {r : TAB1}
      (h : Make.reactionProduct9 qm qi izap lfs bounds ints energies values = .ok r) : Product9Built r
  | short {qm qi : Dbl} {izap lfs : Int} {energies values : List Dbl} {interpolant : Int} {r : TAB1}
      (h : Make.reactionProduct9Short qm qi izap lfs energies values interpolant = .ok r) : Product9Built r

theorem product9_fits {r : TAB1} (h : Product9Built r) (hi : r.Ints) : r.Fits := by
  cases h with
  | full h => exact tab1_fits h hi
  | short h =>
    unfold Make.reactionProduct9Short Make.reactionProduct9 at h
    exact tab1_fits h hi

theorem products_valid {lis : Int} {l : List TAB1} (hb : ∀ x ∈ l, Product9Built x) (hi : SeqInts TAB1.Ints l) :
    IsInt32 (toInt32 lis) ∧ (∀ x ∈ l, x.Fits) ∧ (l.length : Int) < 2147483648 :=
  ⟨isInt32_toInt32 _, fun x hx => product9_fits (hb x hx) (hi.2 x hx), hi.1⟩

/-- Multiplicities of radioactive products (MF9). -/
theorem C61_mf9 {mt za : Int} {awr : Dbl} {lis : Int} {products : List TAB1} {s : Sect Products} (hb : ∀ x ∈ products, Product9Built x)
    (h : Make.mfProducts 9 mt za awr lis products = .ok s) :
    (s.za = za ∧ s.awr = awr ∧ s.mt = mt ∧ s.data.products = products ∧ (IsInt32 lis → s.data.lis = lis)) ∧
    (IsInt32 za → mt ≤ 999 → SeqInts TAB1.Ints products → ReadsBack .mf9 s) := by
  have e : s = ⟨za, awr, mt, ⟨toInt32 lis, products⟩⟩ := build_eq h
  refine ⟨?_, fun hz hm hi => built_round (T := .mf9) h hz hm ?_ trivial⟩
  · subst e; exact ⟨rfl, rfl, rfl, rfl, fun h => toInt32_of h⟩
  · subst e; exact products_valid hb hi

/-- Cross sections of radioactive products (MF10). -/
theorem C61_mf10 {mt za : Int} {awr : Dbl} {lis : Int} {products : List TAB1} {s : Sect Products} (hb : ∀ x ∈ products, Product9Built x)
    (h : Make.mfProducts 10 mt za awr lis products = .ok s) :
    (s.za = za ∧ s.awr = awr ∧ s.mt = mt ∧ s.data.products = products ∧ (IsInt32 lis → s.data.lis = lis)) ∧
    (IsInt32 za → mt ≤ 999 → SeqInts TAB1.Ints products → ReadsBack .mf10 s) := by
  have e : s = ⟨za, awr, mt, ⟨toInt32 lis, products⟩⟩ := build_eq h
  refine ⟨?_, fun hz hm hi => built_round (T := .mf10) h hz hm ?_ trivial⟩
  · subst e; exact ⟨rfl, rfl, rfl, rfl, fun h => toInt32_of h⟩
  · subst e; exact products_valid hb hi

/-! ### MF12 and MF13 -/

theorem totalPartials_valid {b : TotalPartials} (h : Make.TotalPartialsBuilt b) (hi : Make.TotalPartialsInts b) (hk : b.1.isSome = true → b.2.length ≠ 1) : b.Ok := by
  obtain ⟨i1, i2, i3⟩ := hi
  have hn : ∀ {l : List TAB1}, (l.length : Int) < 2147483648 → toInt32 (asInt l.length) = l.length := fun h => by
    rw [← seq_count h]; exact toInt32_of ⟨by omega, h⟩
  cases h with
  | one hp h =>
    unfold Make.totalPartials at h
    split at h
    · cases h
    rename_i h0
    cases h
    obtain ⟨_, _, _, _, _, _, _, _, hp⟩ := hp
    refine ⟨⟨?_, ⟨hn i2, fun x hx => ?_⟩⟩, Int.not_le.mp h0⟩
    · show ¬ asInt 1 ≠ 1
      have : asInt 1 = 1 := toInt32_of ⟨by omega, by omega⟩
      simp [this]
    · simp only [List.mem_singleton] at hx; subst hx
      exact tab1_fits hp (i3 _ (by simp))
  | total ht hp h =>
    unfold Make.totalPartials at h
    split at h
    · cases h
    rename_i h0
    cases h
    refine ⟨⟨⟨?_, table_fits ht (i1 _ rfl)⟩, ⟨hn i2, fun x hx => ?_⟩⟩, Int.not_le.mp h0⟩
    · have := hk rfl
      simp only at this ⊢
      rw [← seq_count i2]; simp only; omega
    · obtain ⟨_, _, _, _, _, _, _, _, hp⟩ := hp x hx
      exact tab1_fits hp (i3 _ hx)

/-- Photon production multiplicities and transition probabilities (MF12), if a total is not given together with exactly one partial (the constructor accepts it,
    but the reader expects no total then). -/
theorem C61_mf12_partial {mt za : Int} {awr : Dbl} {production : PhotonProduction} {s : Sect PhotonProduction} (hb : Make.ProductionBuilt production)
    (h : Make.mf12 mt za awr production = .ok s) :
    s = ⟨za, awr, mt, production⟩ ∧ (IsInt32 za → mt ≤ 999 → Make.ProductionInts production →
      (∀ t l, production = .multiplicities (some t, l) → l.length ≠ 1) → ReadsBack .mf12 s) := by
  have e : s = ⟨za, awr, mt, production⟩ := build_eq h
  refine ⟨e, fun hz hm hi hk => built_round (T := .mf12) h hz hm ?_ trivial⟩
  subst e
  cases hb with
  | multiplicities hb =>
    refine totalPartials_valid hb hi fun ht => ?_
    obtain ⟨t, ht⟩ := Option.isSome_iff_exists.mp ht
    exact hk t _ (by rw [← ht])
  | transitions2 hq =>
    unfold TransitionProbabilities.make2 at hq
    split at hq
    · cases hq
    obtain ⟨e, hq'⟩ := verified_ok hq
    refine ⟨list_fits hi, ?_⟩
    rw [e]; exact hq'
  | transitions3 hq =>
    unfold TransitionProbabilities.make3 at hq
    split at hq
    · cases hq
    obtain ⟨e, hq'⟩ := verified_ok hq
    refine ⟨list_fits hi, ?_⟩
    rw [e]; exact hq'

/-- Photon production cross sections (MF13), if a total is not given together with exactly one partial. -/
theorem C61_mf13_partial {mt za : Int} {awr : Dbl} {total : Option TAB1} {partials : List TAB1} {s : Sect TotalPartials}
    (ht : (total = none ∧ ∃ r, partials = [r]) ∨ ∃ t, total = some t ∧ Make.TableBuilt t) (hp : ∀ x ∈ partials, Make.PartialTableBuilt x)
    (h : Make.mf13 mt za awr total partials = .ok s) :
    s = ⟨za, awr, mt, (total, partials)⟩ ∧
    (IsInt32 za → mt ≤ 999 → Make.TotalPartialsInts (total, partials) → (total ≠ none → partials.length ≠ 1) → ReadsBack .mf13 s) := by
  obtain ⟨hd, e1, e2, e3, _⟩ := build_ok h
  have hd' : s.data = (total, partials) := by
    unfold Make.totalPartials at hd
    split at hd
    · cases hd
    · exact (Except.ok.inj hd).symm
  refine ⟨?_, fun hz hm hi hk => built_round (T := .mf13) h hz hm ?_ trivial⟩
  · cases s; simp only at e1 e2 e3 hd'; subst e1 e2 hd'; simp [e3, mf13]
  · show TotalPartials.Ok s.data
    have hb : Make.TotalPartialsBuilt s.data := by
      rcases ht with ⟨rfl, r, rfl⟩ | ⟨t, rfl, ht⟩
      · exact .one (hp r (by simp)) hd
      · exact .total ht hp hd
    refine totalPartials_valid hb (by rw [hd']; exact hi) ?_
    rw [hd']
    intro hs
    exact hk (by intro hn; rw [hn] at hs; cases hs)

/-! ### MF14 -/

theorem photonDistributions_eq {α : Type} {energy level : Dbl} {bounds ints : List Int} {seq : List α} {r : ISeq α}
    (h : Make.photonDistributions energy level bounds ints seq = .ok r) : r = ⟨⟨energy, level, 0, 0, bounds, ints⟩, seq⟩ := by
  obtain ⟨tab2, h1, h2⟩ := bind_eq h
  obtain ⟨rfl, _⟩ := TAB2.make_ok.mp h1
  exact (iseq_make h2).1

/-- The angular distributions of a photon keep the energies of the photon and of the level, the interpolation ranges and the distributions. -/
theorem C61_photonDistributions {energy level : Dbl} {bounds ints : List Int} {legendre : List LIST} {tabulated : List TAB1} :
    (∀ r, Make.photonDistributions energy level bounds ints legendre = .ok r → r = ⟨⟨energy, level, 0, 0, bounds, ints⟩, legendre⟩) ∧
    (∀ r, Make.photonDistributions energy level bounds ints tabulated = .ok r → r = ⟨⟨energy, level, 0, 0, bounds, ints⟩, tabulated⟩) :=
  ⟨fun _ h => photonDistributions_eq h, fun _ h => photonDistributions_eq h⟩

theorem photon_valid {b : Photon} (h : Make.PhotonBuilt b) (hi : Make.PhotonInts b) (hk : b.isIso = false) : (anisotropicC b.ltt).Valid b := by
  cases h with
  | isotropic => cases hk
  | legendre hd h =>
    refine ⟨_, rfl, ?_⟩
    obtain ⟨tab2, h1, h2⟩ := bind_eq h
    refine (iseq_valid (c := listC) (I := LIST.Ints) h1 h2 hi fun x hx hI => ?_).1
    exact list_fits hI
  | tabulated hd h =>
    refine ⟨_, rfl, ?_⟩
    obtain ⟨tab2, h1, h2⟩ := bind_eq h
    refine (iseq_valid (c := tab1C) (I := TAB1.Ints) h1 h2 hi fun x hx hI => ?_).1
    obtain ⟨rfl, _⟩ := iseq_make h2
    obtain ⟨_, _, _, _, _, h⟩ := hd x hx
    exact tab1_fits h hI

/-- A section without photon data only keeps the number of photons. -/
theorem C61_mf14_isotropic {mt za : Int} {awr : Dbl} {nk : Int} {s : Sect MF14Data} (h : Make.mf14Isotropic mt za awr nk = .ok s) :
    s.data.photons = [] ∧ s.data.LI = 1 ∧ (IsInt32 nk → s.data.NK = nk) ∧ (IsInt32 za → mt ≤ 999 → ReadsBack .mf14 s) := by
  have e : s = ⟨za, awr, mt, ⟨toInt32 nk, []⟩⟩ := build_eq h
  refine ⟨by rw [e], by rw [e]; rfl, fun hk => by rw [e]; exact toInt32_of hk, fun hz hm => built_round (T := .mf14) h hz hm ?_ trivial⟩
  subst e
  refine ⟨isInt32_toInt32 _, .inl rfl, ⟨[], [], rfl, fun x hx => (by cases hx), fun x hx => (by cases hx)⟩, by simp⟩

/-- Photon angular distributions (MF14), if the isotropic photons come first and the others are all of the same kind (the constructor does not verify it, but the
    reader can read nothing else). -/
theorem C61_mf14_partial {mt za : Int} {awr : Dbl} {photons : List Photon} {s : Sect MF14Data} (hb : ∀ x ∈ photons, Make.PhotonBuilt x)
    (h : Make.mf14 mt za awr photons = .ok s) :
    (s.za = za ∧ s.awr = awr ∧ s.mt = mt ∧ s.data.photons = photons) ∧
    (IsInt32 za → mt ≤ 999 → SeqInts Make.PhotonInts photons →
      (∃ iso rest, photons = iso ++ rest ∧ (∀ x ∈ iso, x.isIso = true) ∧ (∀ x ∈ rest, x.isIso = false) ∧ ∀ x ∈ rest, ∀ y ∈ rest, x.ltt = y.ltt) → ReadsBack .mf14 s) := by
  have e : s = ⟨za, awr, mt, ⟨0, photons⟩⟩ := build_eq h
  refine ⟨by subst e; exact ⟨rfl, rfl, rfl, rfl⟩, fun hz hm hi hk => built_round (T := .mf14) h hz hm ?_ trivial⟩
  subst e
  obtain ⟨iso, rest, rfl, k1, k2, k3⟩ := hk
  refine ⟨show IsInt32 0 by decide, .inr rfl, ⟨iso, rest, rfl, fun x hx => ?_, fun x hx => ?_⟩, hi.1⟩
  · have := k1 x hx
    cases x with
    | isotropic => rfl
    | _ => cases this
  · have hne : rest ≠ [] := by intro h; rw [h] at hx; cases hx
    have hl : MF14Data.LTT ⟨0, iso ++ rest⟩ = x.ltt := by
      unfold MF14Data.LTT
      simp only
      rw [List.getLast?_append, List.getLast?_eq_some_getLast hne]
      simp only [Option.some_or]
      exact k3 _ (List.getLast_mem hne) _ hx
    rw [hl]
    exact photon_valid (hb x (by simp [hx])) (hi.2 x (by simp [hx])) (k2 x hx)

/-- The other two constructors put the isotropic photons first; the arrays of energies and levels must have the same size. -/
theorem C61_mf14_arrays {mt za : Int} {awr : Dbl} {energies levels : List Dbl} {anisotropic : List Photon} :
    (energies.length ≠ levels.length → Make.mf14Arrays mt za awr energies levels anisotropic = .error .exc) ∧
    (∀ s, Make.mf14Arrays mt za awr energies levels anisotropic = .ok s →
      s.data.photons = (energies.zip levels).map (fun p => .isotropic p.1 p.2) ++ anisotropic ∧
      ((∀ x ∈ anisotropic, Make.PhotonBuilt x ∧ x.isIso = false) → (∀ x ∈ anisotropic, ∀ y ∈ anisotropic, x.ltt = y.ltt) → IsInt32 za → mt ≤ 999 →
        SeqInts Make.PhotonInts s.data.photons → ReadsBack .mf14 s)) := by
  refine ⟨fun h => by unfold Make.mf14Arrays; rw [if_pos h], fun s h => ?_⟩
  unfold Make.mf14Arrays at h
  split at h
  · cases h
  have hh : Make.mf14 mt za awr ((energies.zip levels).map (fun p => .isotropic p.1 p.2) ++ anisotropic) = .ok s := h
  have e : s = ⟨za, awr, mt, ⟨0, _⟩⟩ := build_eq hh
  refine ⟨by rw [e], fun hb hk hz hm hi => ?_⟩
  refine (C61_mf14_partial (fun x hx => ?_) hh).2 hz hm (by rw [e] at hi; exact hi) ⟨_, _, rfl, fun x hx => ?_, fun x hx => (hb x hx).2, hk⟩
  · rcases List.mem_append.mp hx with hx | hx
    · obtain ⟨p, _, rfl⟩ := List.mem_map.mp hx
      exact .isotropic _ _
    · exact (hb x hx).1
  · obtain ⟨p, _, rfl⟩ := List.mem_map.mp hx
    rfl

/-! ### MF15 -/

theorem partial15_valid {b : Partial15} (h : Make.Partial15Built b) (hi : Make.Partial15Ints b) : partial15C.Valid b := by
  obtain ⟨p, d, ⟨_, _, _, _, _, _, hp⟩, hd, h⟩ := h
  unfold Make.partialDistribution15 at h
  split at h
  · cases h
  rename_i hl
  cases h
  refine ⟨⟨tab1_fits hp hi.1, by simpa using hl⟩, ?_⟩
  cases hd with
  | tabulated hd h =>
    obtain ⟨tab2, h1, h2⟩ := bind_eq h
    refine (iseq_valid (c := tab1C) (I := TAB1.Ints) h1 h2 hi.2 fun x hx hI => ?_).1
    obtain ⟨rfl, _⟩ := iseq_make h2
    obtain ⟨_, _, _, _, _, h⟩ := hd x hx
    exact tab1_fits h hI

/-- Continuous photon energy spectra (MF15). -/
theorem C61_mf15 {mt za : Int} {awr : Dbl} {partials : List Partial15} {s : Sect (List Partial15)} (hb : ∀ x ∈ partials, Make.Partial15Built x)
    (h : Make.mf15 mt za awr partials = .ok s) :
    s = ⟨za, awr, mt, partials⟩ ∧ (IsInt32 za → mt ≤ 999 → SeqInts Make.Partial15Ints partials → ReadsBack .mf15 s) := by
  have h' := h
  unfold Make.mf15 at h
  split at h
  · cases (build_ok h).1
  rename_i h0
  have e : s = ⟨za, awr, mt, partials⟩ := build_eq h
  refine ⟨e, fun hz hm hi => built_round (T := .mf15) h' hz hm ?_ trivial⟩
  subst e
  exact ⟨fun x hx => partial15_valid (hb x hx) (hi.2 x hx), seq_count hi.1, h0⟩

/-! ### MF28 -/

/-- Atomic relaxation data (MF28). -/
theorem C61_mf28 {mt za : Int} {awr : Dbl} {subshells : List LIST} {s : Sect (List LIST)}
    (hb : ∀ x ∈ subshells, ∃ subshell energy eln secondary tertiary energies probabilities,
      SubshellData.make subshell energy eln secondary tertiary energies probabilities = .ok x)
    (h : Make.mf28 mt za awr subshells = .ok s) :
    s = ⟨za, awr, mt, subshells⟩ ∧ (IsInt32 za → mt ≤ 999 → SeqInts LIST.Ints subshells → ReadsBack .mf28 s) := by
  have e : s = ⟨za, awr, mt, subshells⟩ := build_eq h
  refine ⟨e, fun hz hm hi => built_round (T := .mf28) h hz hm ?_ trivial⟩
  subst e
  refine ⟨fun x hx => ⟨list_fits (hi.2 x hx), ?_⟩, hi.1⟩
  obtain ⟨_, _, _, _, _, _, _, h⟩ := hb x hx
  unfold SubshellData.make at h
  simp only at h
  split at h
  · cases h
  obtain ⟨rfl, hv⟩ := verified_require h
  exact hv

end Props
end ENDFtk

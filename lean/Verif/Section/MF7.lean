import Verif.Section.Combi
/-
  The section types of file 7: section/7/2, section/7/4, section/7/451.
-/
set_option linter.unusedVariables false
set_option linter.unusedSectionVars false
set_option linter.unusedSimpArgs false
namespace ENDFtk
variable [Disco]

/-! ### MF7 MT2 -/

/-- The members `principal_` and `temperatures_` of section/7/2/CoherentElastic.hpp 15-17, `alphas_` and `temperatures_` of
    section/7/4/TabulatedFunctions/ScatteringFunction.hpp 17-19. -/
abbrev TabLists := TAB1 × List LIST

/-- A TAB1 record and as many LIST records as its L1 says. -/
def tabListsC : Comp TabLists := tab1C.andThen (fun p => seqC listC p.base.l1)

/-- section/7/2/CoherentElastic/src/verifyTemperatures.hpp 1-18 (NP is converted to `int`) -/
def coherentOk (b : TabLists) : Prop := ∀ l ∈ b.2, (l.npl : Int) = asInt b.1.np

instance (b : TabLists) : Decidable (coherentOk b) := by unfold coherentOk; exact inferInstance

/-- section/7/2/CoherentElastic: CoherentElastic/src/ctor.hpp 15-22, 92-133, print.hpp 11-15, NC.hpp 4-8 -/
def coherentC : Comp TabLists := tabListsC.checked coherentOk

/-- section/7/2.hpp 42-47; IncoherentElastic is a TAB1 record (IncoherentElastic/src/ctor.hpp 49-58) -/
inductive Elastic where
  | coherent (b : TabLists)
  | incoherent (b : TAB1)
  | mixed (c : TabLists) (i : TAB1)

/-- section/7/2/CoherentElastic.hpp 33, IncoherentElastic.hpp 20, MixedElastic.hpp 24 -/
def Elastic.lthr : Elastic → Int
  | .coherent _ => 1
  | .incoherent _ => 2
  | .mixed _ _ => 3

/-- The `print` and `NC` of the alternatives, section/7/2/MixedElastic/src/print.hpp 11-16, NC.hpp 4-7 -/
def elasticP : Printer Elastic where
  print := fun v t => match v with
    | .coherent b => coherentC.print b t
    | .incoherent b => b.print t
    | .mixed c i => coherentC.print c t ++ i.print t
  nc := fun v => match v with
    | .coherent b => coherentC.nc b
    | .incoherent b => b.nc
    | .mixed c i => coherentC.nc c + i.nc
  reals := fun v => match v with
    | .coherent b => coherentC.reals b
    | .incoherent b => tab1C.reals b
    | .mixed c i => coherentC.reals c ++ tab1C.reals i

/-- section/7/2/src/readScatteringLaw.hpp 1-23 (LTHR is an `int`), section/7/2/MixedElastic/src/ctor.hpp 24-55 -/
def elasticC (lthr : Int) : Comp Elastic :=
  if lthr = 1 then coherentC.via elasticP .coherent
  else if lthr = 2 then tab1C.via elasticP .incoherent
  else if lthr = 3 then (coherentC.andThen (fun _ => tab1C)).via elasticP (fun x => .mixed x.1 x.2)
  else elasticP.none

theorem tabListsC_law : tabListsC.Law := Comp.andThen_law tab1C_law (fun p => seqC_law listC_law _)
theorem coherentC_law : coherentC.Law := Comp.checked_law tabListsC_law _

theorem elasticC_law (l : Int) : (elasticC l).Law :=
  Comp.ite_law (Comp.via_law coherentC_law (fun _ _ => rfl) (fun _ => rfl) (fun _ => rfl))
    (Comp.ite_law (Comp.via_law tab1C_law (fun _ _ => rfl) (fun _ => rfl) (fun _ => rfl))
      (Comp.ite_law (Comp.via_law (E1 := StdErr) (Comp.andThen_law coherentC_law (fun _ => tab1C_law)) (fun _ _ => rfl) (fun _ => rfl) (fun _ => rfl))
        (Printer.none_law _)))

theorem elasticC_valid {l : Int} {b : Elastic} (h : (elasticC l).Valid b) : l = b.lthr := by
  unfold elasticC at h
  split at h
  · obtain ⟨a, rfl, _⟩ := h; assumption
  split at h
  · obtain ⟨a, rfl, _⟩ := h; assumption
  split at h
  · obtain ⟨a, rfl, _⟩ := h; assumption
  · exact h.elim

theorem lthr_fits (b : Elastic) : fits 11 b.lthr := by
  cases b
  · show fits 11 1; decide
  · show fits 11 2; decide
  · show fits 11 3; decide

theorem toInt32_lthr (b : Elastic) : toInt32 b.lthr = b.lthr := by cases b <;> simp [Elastic.lthr, toInt32]

/-- section::Type< 7, 2 >: section/7/2/src/ctor.hpp 30-44, print.hpp 10-19, NC.hpp 4-8 -/
def mf7mt2 : SecDef Elastic where
  mf := 7
  fixedMT := some 2
  checksHead := false
  head := fun b => (b.lthr, 0, 0, 0)
  read := fun head t => (elasticC (toInt32 head.base.l1)).read t
  body := fun _ b t => elasticP.print b t
  nc := elasticP.nc
  Valid := fun b => (elasticC b.lthr).Valid b
  reals := elasticP.reals

theorem elasticC_print (l : Int) : (elasticC l).print = elasticP.print ∧ (elasticC l).nc = elasticP.nc ∧ (elasticC l).reals = elasticP.reals := by
  unfold elasticC
  split
  · exact ⟨rfl, rfl, rfl⟩
  split
  · exact ⟨rfl, rfl, rfl⟩
  split <;> exact ⟨rfl, rfl, rfl⟩

theorem mf7mt2_law : mf7mt2.Law where
  mf_pos := by simp [mf7mt2]
  mt_fits := by intro mt h; cases h; exact ⟨by decide, by show fits 3 2; decide⟩
  head_fits := fun _ => ⟨lthr_fits _, fits0, fits0, fits0⟩
  round := by
    intro b t awr head hv ha hr ht hh _
    simp only [mf7mt2, Prod.mk.injEq] at hh
    have h := (elasticC_law b.lthr).rd hv (by rw [(elasticC_print _).2.2]; exact hr) ht
    rw [(elasticC_print _).1, (elasticC_print _).2.1] at h
    show Rd ((elasticC (toInt32 head.base.l1)).read t) _ _ _
    rw [hh.1, toInt32_lthr]
    exact h
  canon := fun {b t} _ hv ht => by
    have := (elasticC_law b.lthr).canon hv ht
    rw [(elasticC_print _).1, (elasticC_print _).2.1] at this
    exact this
  reads := fun head t _ => ((elasticC_law _).reads t).post (by
    rintro b ls ⟨h1, h2, h3⟩
    refine ⟨?_, h2, by rw [(elasticC_print _).2.1] at h3; exact h3⟩
    have := elasticC_valid h1
    rw [this] at h1; exact h1)

/-! ### MF7 MT4 -/

/-- section/7/4/TabulatedFunctions/ScatteringFunction/src/ctor.hpp 7-19, verifyBetaValues.hpp 1-17 -/
def betasOk (b : TabLists) : Prop := ∀ l ∈ b.2, Disco.eqD l.c2 b.1.base.c2 = true

instance (b : TabLists) : Decidable (betasOk b) := by unfold betasOk; exact inferInstance

/-- section/7/4/TabulatedFunctions/ScatteringFunction: ScatteringFunction/src/ctor.hpp 7-19, 94-134, print.hpp 11-15, NC.hpp 4-8 -/
def scatteringFunctionC : Comp TabLists := tabListsC.checked betasOk

/-- section/7/4/TabulatedFunctions: TabulatedFunctions/src/ctor.hpp 49-64, print.hpp 11-14, TabulatedFunctions.hpp 105 -/
def tabulatedFunctionsC : Comp (ISeq TabLists) := iseqC scatteringFunctionC

/-- section/7/4/ScatteringLawConstants/src/ctor.hpp 8-13, verifySize.hpp 1-20, checkLLN.hpp 1-11: NI and NS are converted to `int`.
    The accessors used while reading the rest (`totalFreeCrossSections()`, ScatteringLawConstants.hpp 78-112, and `analyticalFunctionTypes()`,
    156-161) need NS in 0..3: otherwise `__builtin_unreachable()` is reached.  (That happens for NS = -1 with an empty list, and for
    NS = 4294967296.  In the code it happens after this record was read and before the next one is read.) -/
def constantsCheck (l : LIST) : Except Err Unit :=
  if 3 < toInt32 l.n2 then .error .exc
  else if Over (6 * (toInt32 l.n2 + 1)) then .error .ub
  else if toInt32 l.npl ≠ 6 * (toInt32 l.n2 + 1) then .error .exc
  else if toInt32 l.l1 ≠ 0 ∧ toInt32 l.l1 ≠ 1 then .error .exc
  else if l.n2 < 0 ∨ 3 < l.n2 then .error .ub
  else .ok ()

/-- section/7/4/ScatteringLawConstants: ScatteringLawConstants/src/ctor.hpp 118-128 -/
def constantsC : Comp LIST := listC.checkedE constantsCheck

/-- section/7/4/ScatteringLawConstants.hpp 156-161 -/
def functionTypes (b : LIST) : List Dbl := strideL 6 (b.data.drop 6)

/-- `MSIGMA()[0]`, section/7/4/ScatteringLawConstants.hpp 78-106 -/
def sigma0 (b : LIST) : Dbl := b.data.headD Disco.zero

/-- section/7/4/src/readScatteringLaw.hpp 1-19; AnalyticalFunctions (`none`) has no data (section/7/4/AnalyticalFunctions.hpp 15-29) -/
def scatteringLawC (b : LIST) : Comp (Option (ISeq TabLists)) where
  read := fun t =>
    if Disco.eqD (sigma0 b) Disco.zero = true then pure none
    else do
      let f ← tabulatedFunctionsC.read t
      pure (some f)
  print := fun v t => match v with
    | none => []
    | some f => tabulatedFunctionsC.print f t
  nc := fun v => match v with
    | none => 0
    | some f => tabulatedFunctionsC.nc f
  Valid := fun v => match v with
    | none => Disco.eqD (sigma0 b) Disco.zero = true
    | some f => ¬ Disco.eqD (sigma0 b) Disco.zero = true ∧ tabulatedFunctionsC.Valid f
  reals := fun v => match v with
    | none => []
    | some f => tabulatedFunctionsC.reals f

/-- An EffectiveTemperature (a TAB1 record, section/7/4/EffectiveTemperature/src/ctor.hpp 45-54) if the type is 0. -/
def optTemperatureC (type : Dbl) : Comp (Option TAB1) where
  read := fun t =>
    if Disco.eqD type Disco.zero = true then do
      let r ← readTAB1 t
      pure (some r)
    else pure none
  print := fun v t => match v with
    | none => []
    | some r => r.print t
  nc := fun v => match v with
    | none => 0
    | some r => r.nc
  Valid := fun v => match v with
    | none => ¬ Disco.eqD type Disco.zero = true
    | some r => Disco.eqD type Disco.zero = true ∧ r.Fits
  reals := fun v => match v with
    | none => []
    | some r => tab1C.reals r

/-- section/7/4/src/readSecondaryTemperatures.hpp 1-25, verifySecondaryTemperatures.hpp 1-44, print.hpp 20-22, NC.hpp 8-11: one optional record for
    each of the types. -/
def temperaturesC : List Dbl → Comp (List (Option TAB1))
  | [] => nilC.via ⟨fun _ _ => [], fun _ => 0, fun _ => []⟩ (fun _ => [])
  | type :: types =>
    { read := fun t => do
        let o ← (optTemperatureC type).read t
        let os ← (temperaturesC types).read t
        pure (o :: os)
      print := fun v t => match v with
        | [] => []
        | o :: os => (optTemperatureC type).print o t ++ (temperaturesC types).print os t
      nc := fun v => match v with
        | [] => 0
        | o :: os => (optTemperatureC type).nc o + (temperaturesC types).nc os
      Valid := fun v => match v with
        | [] => False
        | o :: os => (optTemperatureC type).Valid o ∧ (temperaturesC types).Valid os
      reals := fun v => match v with
        | [] => []
        | o :: os => (optTemperatureC type).reals o ++ (temperaturesC types).reals os }

/-- section/7/4.hpp 61-69 -/
structure ScatteringData where
  lat : Int
  lasym : Int
  constants : LIST
  law : Option (ISeq TabLists)
  principal : TAB1
  secondary : List (Option TAB1)

/-- section::Type< 7, 4 >: section/7/4/src/ctor.hpp 24-125, checkValue.hpp 1-11 (only LAT is checked), print.hpp 10-24, NC.hpp 4-13 -/
def mf7mt4 : SecDef ScatteringData where
  mf := 7
  fixedMT := some 4
  checksHead := false
  head := fun b => (0, b.lat, b.lasym, 0)
  read := fun head t => do
    let c ← constantsC.read t
    let l ← (scatteringLawC c).read t
    let p ← readTAB1 t
    let s ← (temperaturesC (functionTypes c)).read t
    if toInt32 head.base.l2 ≠ 0 ∧ toInt32 head.base.l2 ≠ 1 then Parser.fail .exc
    else pure ⟨toInt32 head.base.l2, toInt32 head.base.n1, c, l, p, s⟩
  body := fun _ b t => b.constants.print t ++ ((scatteringLawC b.constants).print b.law t ++ (b.principal.print t ++
    (temperaturesC (functionTypes b.constants)).print b.secondary t))
  nc := fun b => b.constants.nc + ((scatteringLawC b.constants).nc b.law + (b.principal.nc + (temperaturesC (functionTypes b.constants)).nc b.secondary))
  Valid := fun b => (b.lat = 0 ∨ b.lat = 1) ∧ IsInt32 b.lasym ∧ constantsC.Valid b.constants ∧ (scatteringLawC b.constants).Valid b.law ∧
    b.principal.Fits ∧ (temperaturesC (functionTypes b.constants)).Valid b.secondary
  reals := fun b => constantsC.reals b.constants ++ ((scatteringLawC b.constants).reals b.law ++ (tab1C.reals b.principal ++
    (temperaturesC (functionTypes b.constants)).reals b.secondary))

theorem scatteringFunctionC_law : scatteringFunctionC.Law := Comp.checked_law tabListsC_law _
theorem tabulatedFunctionsC_law : tabulatedFunctionsC.Law := iseqC_law scatteringFunctionC_law

theorem constantsC_law : constantsC.Law UbErr := by
  refine Comp.checkedE_law (E1 := StdErr) listC_law _ ?_
  intro a e h
  unfold constantsCheck at h
  split at h
  · cases h; exact .inl rfl
  split at h
  · cases h; exact .inr rfl
  split at h
  · cases h; exact .inl rfl
  split at h
  · cases h; exact .inl rfl
  split at h
  · cases h; exact .inr rfl
  · cases h

theorem scatteringLawC_law (b : LIST) : (scatteringLawC b).Law where
  round := by
    intro v t hv hr ht
    cases v with
    | none => exact Rd.ite_pos hv (Rd.pure _)
    | some f => exact Rd.ite_neg hv.1 (Rd.bindPure (tabulatedFunctionsC_law.rd hv.2 hr ht) rfl)
  canon := by
    intro v t hv ht
    cases v with
    | none => exact .nil t
    | some f => exact tabulatedFunctionsC_law.canon hv.2 ht
  reads := fun t => RvK.toReads (RvK.ite (fun h => RvK.pure h rfl) fun h => RvK.bind (tabulatedFunctionsC_law.reads t) fun f hf =>
    RvK.pure ⟨h, hf⟩ (by simp [scatteringLawC]))

theorem optTemperatureC_law (x : Dbl) : (optTemperatureC x).Law where
  round := by
    intro v t hv hr ht
    cases v with
    | none => exact Rd.ite_neg hv (Rd.pure _)
    | some f => exact Rd.ite_pos hv.1 (Rd.bindPure (tab1C_law.rd hv.2 hr ht) rfl)
  canon := by
    intro v t hv ht
    cases v with
    | none => exact .nil t
    | some f => exact tab1C_law.canon hv.2 ht
  reads := fun t => RvK.toReads (RvK.ite (fun h => RvK.bind (tab1C_law.reads t) fun f hf => RvK.pure ⟨h, hf⟩ (by simp [optTemperatureC, tab1C]))
    fun h => RvK.pure h rfl)

theorem temperaturesC_law (l : List Dbl) : (temperaturesC l).Law := by
  induction l with
  | nil => exact Comp.via_law nilC_law (fun _ _ => rfl) (fun _ => rfl) (fun _ => rfl)
  | cons x l ih => exact {
      round := by
        intro v t hv hr ht
        cases v with
        | nil => exact hv.elim
        | cons o os =>
          exact Rd.bind ((optTemperatureC_law x).rd hv.1 (reps_append.mp hr).1 ht) (Rd.bindPure (ih.rd hv.2 (reps_append.mp hr).2 ht) rfl)
      canon := by
        intro v t hv ht
        cases v with
        | nil => exact hv.elim
        | cons o os => exact ((optTemperatureC_law x).canon hv.1 ht).append (ih.canon hv.2 ht)
      reads := fun t => RvK.toReads (RvK.bind ((optTemperatureC_law x).reads t) fun o ho => RvK.bind (ih.reads t) fun os hos =>
        RvK.pure ⟨ho, hos⟩ (by simp [temperaturesC])) }

theorem mf7mt4_law : mf7mt4.Law UbErr where
  mf_pos := by simp [mf7mt4]
  mt_fits := by intro mt h; cases h; exact ⟨by decide, by show fits 3 4; decide⟩
  head_fits := fun {b} hv => ⟨fits0, by rcases hv.1 with h | h <;> (show fits 11 b.lat; rw [h]; decide), fits_of_int32 hv.2.1, fits0⟩
  round := by
    rintro b t awr head ⟨v1, v2, v3, v4, v5, v6⟩ ha hr ht hh _
    simp only [mf7mt4, Prod.mk.injEq] at hh
    obtain ⟨r1, hr⟩ := reps_append.mp hr
    obtain ⟨r2, hr⟩ := reps_append.mp hr
    obtain ⟨r3, r4⟩ := reps_append.mp hr
    have hl : toInt32 head.base.l2 = b.lat := by rw [hh.2.1]; rcases v1 with h | h <;> rw [h] <;> simp [toInt32]
    refine Rd.bind (constantsC_law.rd v3 r1 ht) (Rd.bind ((scatteringLawC_law _).rd v4 r2 ht) (Rd.bind (tab1C_law.rd v5 r3 ht)
      (Rd.bindPure ((temperaturesC_law _).rd v6 r4 ht) ?_)))
    rw [hl, hh.2.2.1, if_neg (by omega), toInt32_of v2]
  canon := fun _ hv ht => (constantsC_law.canon hv.2.2.1 ht).append (((scatteringLawC_law _).canon hv.2.2.2.1 ht).append
    ((tab1C_law.canon hv.2.2.2.2.1 ht).append ((temperaturesC_law _).canon hv.2.2.2.2.2 ht)))
  reads := fun head t _ => RvK.toReads (RvK.bind (constantsC_law.reads t) fun c hc => RvK.bind ((scatteringLawC_law c).reads t) fun l hl =>
    RvK.bind (tab1C_law.reads t) fun p hp => RvK.bind ((temperaturesC_law _).reads t) fun s hs => RvK.ite (fun _ => RvK.fail (.inl rfl)) fun h =>
      RvK.pure ⟨by simp only; omega, isInt32_toInt32 _, hc, hl, hp, hs⟩ (by simp [mf7mt4, tab1C, constantsC, Comp.checkedE, listC]; omega))

/-! ### MF7 MT451 -/

/-- section/7/451/ElementInformation/src/ctor.hpp 6-10, verifySize.hpp 1-12 -/
def elementOk (l : LIST) : Prop := toInt32 l.npl = toInt32 l.n2 * 6

instance (l : LIST) : Decidable (elementOk l) := by unfold elementOk; exact inferInstance

/-- NI * 6 overflows: section/7/451/ElementInformation/src/verifySize.hpp 4 -/
def elementOv (l : LIST) : Prop := Over (toInt32 l.n2 * 6)

instance : DecidablePred elementOv := fun l => by unfold elementOv; exact inferInstance

/-- section/7/451/ElementInformation: ctor.hpp 57-65 -/
def elementC : Comp LIST := listC.checked elementOk elementOv

/-- section::Type< 7, 451 >: section/7/451/src/ctor.hpp 8-12, 35-53, verifySize.hpp 1-11, print.hpp 10-22, NC.hpp 4-12, section/7/451.hpp 48
    (`NA()` as `unsigned int`) -/
def mf7mt451 : SecDef (List LIST) where
  mf := 7
  fixedMT := some 451
  checksHead := false
  recHeadMT := true
  head := fun b => ((b.length : Int) % 4294967296, 0, 0, 0)
  read := fun head t => do
    let b ← (seqC elementC head.base.l1).read t
    if (b.length : Int) % 4294967296 = 0 then Parser.fail .exc else pure b
  body := fun _ b t => b.flatMap (fun x => x.print t)
  nc := fun b => (b.map LIST.nc).sum
  Valid := fun b => (∀ x ∈ b, elementC.Valid x) ∧ b ≠ [] ∧ (b.length : Int) < 2147483648
  reals := fun b => b.flatMap listC.reals

theorem elementC_law : elementC.Law UbErr := Comp.checked_lawU (E1 := StdErr) listC_law _

theorem mf7mt451_law : mf7mt451.Law UbErr where
  mf_pos := by simp [mf7mt451]
  mt_fits := by intro mt h; cases h; exact ⟨by decide, by show fits 3 451; decide⟩
  head_fits := fun {b} hv => by
    have := hv.2.2
    refine ⟨?_, fits0, fits0, fits0⟩
    show fits 11 ((b.length : Int) % 4294967296)
    exact fits_of_int32 ⟨by omega, by omega⟩
  round := by
    rintro b t awr head ⟨v1, v2, v3⟩ ha hr ht hh _
    simp only [mf7mt451, Prod.mk.injEq] at hh
    have hp : 0 < b.length := List.length_pos_iff.mpr v2
    refine Rd.bindPure ((seqC_law elementC_law _).rd ⟨?_, v1⟩ hr ht) (if_neg (by omega))
    rw [hh.1, Int.emod_eq_of_lt (by omega) (by omega), toInt32_of ⟨by omega, by omega⟩]
  canon := fun _ hv ht => elementC_law.flatMap hv.1 ht
  reads := fun head t _ => RvK.toReads (RvK.bind ((seqC_law elementC_law _).reads t) fun b hb => RvK.ite (fun _ => RvK.fail (.inl rfl)) fun h =>
    RvK.pure ⟨hb.2, by rintro rfl; simp at h, by have := hb.1; have := toInt32_range head.base.l1; omega⟩
      (by simp [mf7mt451, seqC, elementC, Comp.checked, listC]))

end ENDFtk

import Verif.Rounded.All
import Verif.Parsed.Types
/-
  Rounding the reals of section 32/151.
-/
set_option linter.unusedVariables false
set_option linter.unusedSectionVars false
set_option linter.unusedSimpArgs false
namespace ENDFtk
variable [Disco] [Rounding]

theorem hdrC_rounds {σ β : Type} {of : Cont → σ} {cont : σ → β → Cont} {d : Cont → Comp β} {ms : σ → σ} {mb : β → β}
    (ho : ∀ r, of r.rnd = ms (of r)) (hc : ∀ h b, cont (ms h) (mb b) = (cont h b).rnd) (hd : ∀ r, (d r).Rounds mb) (he : ∀ r, d r.rnd = d r) :
    (hdrC of cont d).Rounds (fun y => (ms y.1, mb y.2)) where
  valid := fun {y} h => by
    obtain ⟨h1, h2, h3⟩ := h
    refine ⟨?_, ?_, ?_⟩
    · show (cont (ms y.1) (mb y.2)).Fits
      rw [hc]; exact Cont.fits_rnd h1
    · show of (cont (ms y.1) (mb y.2)) = ms y.1
      rw [hc, ho, h2]
    · show (d (cont (ms y.1) (mb y.2))).Valid (mb y.2)
      rw [hc, he]; exact (hd _).valid h3
  print := fun y t => by
    show printCont (cont (ms y.1) (mb y.2)) t ++ (d (cont (ms y.1) (mb y.2))).print (mb y.2) t = _
    rw [hc, he, printCont_rnd, (hd _).print]; rfl
  reals := fun {y} _ => by
    show [(cont (ms y.1) (mb y.2)).c1, (cont (ms y.1) (mb y.2)).c2] ++ (d (cont (ms y.1) (mb y.2))).reals (mb y.2) =
      ([(cont y.1 y.2).c1, (cont y.1 y.2).c2] ++ (d (cont y.1 y.2)).reals y.2).map rnd
    rw [hc, he, (hd _).reals trivial, List.map_append]; rfl

theorem dapC_rounds : dapC.Rounds ENDFtk.rnd where
  valid := fun h => h
  print := fun x t => by
    show printCont ⟨Disco.zero, ENDFtk.rnd x, 0, 0, 0, 0⟩ t = printCont ⟨Disco.zero, x, 0, 0, 0, 0⟩ t
    rw [← printCont_rnd ⟨Disco.zero, x, 0, 0, 0, 0⟩]
    simp [Cont.rnd, ENDFtk.rnd, Rounding.zero]
  reals := fun _ => by simp [dapC, ENDFtk.rnd, Rounding.zero]

theorem dapNoneC_rounds : dapNoneC.Rounds LIST.rnd := none_rounds ⟨LIST.print_rnd, fun _ => rfl⟩

theorem limitedLValueC_rounds : limitedLValueC.Rounds LIST.rnd :=
  checkedNpl_rounds (fun l => by unfold limitedLValueOk; rw [LIST.npl_rnd]; exact Iff.rfl)
theorem shortRangeC_rounds : shortRangeC.Rounds LIST.rnd :=
  checkedNpl_rounds (fun l => by unfold shortRangeOk; rw [LIST.npl_rnd]; exact Iff.rfl)
theorem triangleC_rounds : triangleC.Rounds LIST.rnd :=
  checkedNpl_rounds (fun l => by unfold triangleOk; rw [LIST.npl_rnd]; exact Iff.rfl)
theorem compactUncertaintiesC_rounds : compactUncertaintiesC.Rounds LIST.rnd :=
  checkedNpl_rounds (fun l => by unfold compactOk; rw [LIST.npl_rnd]; exact Iff.rfl)
theorem longRangeC_rounds : longRangeC.Rounds LIST.rnd :=
  checkedE_rounds listC_rounds (fun a _ h => by
    unfold longRangeCheck covariancePairsCheck squareMatrixCheck at h ⊢
    rw [LIST.npl_rnd]; exact h)

abbrev rnd2 (h : Dbl × Dbl) : Dbl × Dbl := (ENDFtk.rnd h.1, ENDFtk.rnd h.2)

abbrev rndLimited (y : (Dbl × Dbl) × Option Dbl × List LIST) : (Dbl × Dbl) × Option Dbl × List LIST :=
  (rnd2 y.1, y.2.1.map ENDFtk.rnd, y.2.2.map LIST.rnd)

theorem limitedC_rounds : limitedC.Rounds rndLimited :=
  hdrC_rounds (ms := rnd2) (mb := fun b : Option Dbl × List LIST => (b.1.map ENDFtk.rnd, b.2.map LIST.rnd)) (fun _ => rfl)
    (fun h b => by simp [Cont.rnd])
    (fun r => checked_rounds (Comp.Rounds.weaken (P := fun x : Option Dbl × List LIST => (∀ y ∈ x.1, True) ∧ ∀ y ∈ x.2, True)
      (andThen_rounds (d := fun _ : Option Dbl => seqC limitedLValueC r.n1) (optC_rounds dapC_rounds (r.n2 ≠ 0)) (fun _ => seqC_rounds limitedLValueC_rounds r.n1) (fun _ => rfl))
      (fun _ _ => ⟨fun _ _ => trivial, fun _ _ => trivial⟩)) (fun a _ h => by simpa using h))
    (fun _ => rfl)

section
variable {δ α : Type} {dap : Comp δ} {md : δ → δ} {short : Comp α} {ma : α → α}

abbrev rndGeneral (md : δ → δ) (ma : α → α) (y : (Dbl × Dbl × Int) × Option δ × Dbl × List α × List LIST) :
    (Dbl × Dbl × Int) × Option δ × Dbl × List α × List LIST :=
  ((ENDFtk.rnd y.1.1, ENDFtk.rnd y.1.2.1, y.1.2.2), y.2.1.map md, ENDFtk.rnd y.2.2.1, y.2.2.2.1.map ma, y.2.2.2.2.map LIST.rnd)

theorem generalC_rounds (hdap : dap.Rounds md) (hs : short.Rounds ma) : (generalC dap short).Rounds (rndGeneral md ma) :=
  hdrC_rounds (ms := fun h : Dbl × Dbl × Int => (ENDFtk.rnd h.1, ENDFtk.rnd h.2.1, h.2.2))
    (mb := fun b : Option δ × Dbl × List α × List LIST => (b.1.map md, ENDFtk.rnd b.2.1, b.2.2.1.map ma, b.2.2.2.map LIST.rnd)) (fun _ => rfl)
    (fun h b => by simp [Cont.rnd])
    (fun r => Comp.Rounds.weaken (P := fun x : Option δ × Dbl × List α × List LIST => (∀ y ∈ x.1, True) ∧ True)
      (andThen_rounds (optC_rounds hdap (r.n2 ≠ 0))
        (k := fun b : Dbl × List α × List LIST => (ENDFtk.rnd b.1, b.2.1.map ma, b.2.2.map LIST.rnd))
        (fun _ => hdrC_rounds (ms := ENDFtk.rnd) (mb := fun b : List α × List LIST => (b.1.map ma, b.2.map LIST.rnd)) (fun _ => rfl)
          (fun h b => by simp [Cont.rnd, ENDFtk.rnd, Rounding.zero])
          (fun q => Comp.Rounds.weaken (P := fun x : List α × List LIST => (∀ y ∈ x.1, True) ∧ ∀ y ∈ x.2, True)
            (andThen_rounds (d := fun _ : List α => seqC longRangeC q.n2) (seqC_rounds hs q.n1) (fun _ => seqC_rounds longRangeC_rounds q.n2) (fun _ => rfl))
            (fun _ _ => ⟨fun _ _ => trivial, fun _ _ => trivial⟩)) (fun _ => rfl)) (fun _ => rfl))
      (fun _ _ => ⟨fun _ _ => trivial, trivial⟩))
    (fun _ => rfl)

end

abbrev rndShortRml (y : Unit × List LIST × LIST) : Unit × List LIST × LIST := (y.1, y.2.1.map LIST.rnd, y.2.2.rnd)

theorem shortRangeRmlC_rounds : shortRangeRmlC.Rounds rndShortRml :=
  hdrC_rounds (ms := fun h : Unit => h) (mb := fun b : List LIST × LIST => (b.1.map LIST.rnd, b.2.rnd)) (fun _ => rfl)
    (fun h b => by simp [Cont.rnd, ENDFtk.rnd, Rounding.zero])
    (fun r => Comp.Rounds.weaken (P := fun x : List LIST × LIST => (∀ y ∈ x.1, True) ∧ True)
      (andThen_rounds (d := fun _ : List LIST => triangleC) (seqC_rounds rmlParametersC_rounds r.l1) (fun _ => triangleC_rounds) (fun _ => rfl))
      (fun _ _ => ⟨fun _ _ => trivial, trivial⟩)) (fun _ => rfl)

abbrev rndUnresolved (y : (Dbl × Dbl) × List LIST × LIST) : (Dbl × Dbl) × List LIST × LIST := (rnd2 y.1, y.2.1.map LIST.rnd, y.2.2.rnd)

theorem unresolvedC_rounds : unresolvedC.Rounds rndUnresolved :=
  hdrC_rounds (ms := rnd2) (mb := fun b : List LIST × LIST => (b.1.map LIST.rnd, b.2.rnd)) (fun _ => rfl)
    (fun h b => by simp [Cont.rnd])
    (fun r => Comp.Rounds.weaken (P := fun x : List LIST × LIST => (∀ y ∈ x.1, True) ∧ True)
      (andThen_rounds (d := fun _ : List LIST => triangleC)
        (seqC_rounds (checkedNpl_rounds (fun l => by unfold lvalueAOk; rw [LIST.npl_rnd]; exact Iff.rfl)) r.n1) (fun _ => triangleC_rounds) (fun _ => rfl))
      (fun _ _ => ⟨fun _ _ => trivial, trivial⟩)) (fun _ => rfl)

abbrev rndGroup (y : LIST × LIST) : LIST × LIST := (y.1.rnd, y.2.rnd)

theorem compactGroupC_rounds : compactGroupC.Rounds rndGroup :=
  Comp.Rounds.weaken (P := fun _ : LIST × LIST => True ∧ True)
    (andThen_rounds (d := fun _ : LIST => listC.checked compactRmlParametersOk) channelsC_rounds
      (fun _ => checkedNpl_rounds (fun l => by unfold compactRmlParametersOk; rw [LIST.npl_rnd])) (fun _ => rfl))
    (fun _ _ => ⟨trivial, trivial⟩)

abbrev rndCompactRml (y : LIST × List (LIST × LIST)) : LIST × List (LIST × LIST) := (y.1.rnd, y.2.map rndGroup)

theorem compactRmlC_rounds : compactRmlC.Rounds rndCompactRml :=
  checked_rounds (Comp.Rounds.weaken (P := fun x : LIST × List (LIST × LIST) => True ∧ ∀ y ∈ x.2, True)
    (andThen_rounds (d := fun l : LIST => seqC compactGroupC (toInt32 l.l2)) particlePairsC_rounds (fun l => seqC_rounds compactGroupC_rounds (toInt32 l.l2)) (fun _ => rfl))
    (fun _ _ => ⟨trivial, fun _ _ => trivial⟩)) (fun a _ h => by simpa using h)

variable [CorrOps]

theorem corrC_rounds : corrC.Rounds id where
  valid := fun h => h
  print := fun _ _ => rfl
  reals := fun _ => by simp [corrC, ENDFtk.rnd, Rounding.zero]

section
variable {δ α : Type} {dap : Comp δ} {md : δ → δ} {unc : Comp α} {ma : α → α}

abbrev rndCompact (md : δ → δ) (ma : α → α) (y : (Dbl × Dbl × Int × Int) × Option δ × α × CorrMatrix) :
    (Dbl × Dbl × Int × Int) × Option δ × α × CorrMatrix :=
  ((ENDFtk.rnd y.1.1, ENDFtk.rnd y.1.2.1, y.1.2.2), y.2.1.map md, ma y.2.2.1, y.2.2.2)

theorem compactC_rounds (hdap : dap.Rounds md) (hu : unc.Rounds ma) : (compactC dap unc).Rounds (rndCompact md ma) :=
  hdrC_rounds (ms := fun h : Dbl × Dbl × Int × Int => (ENDFtk.rnd h.1, ENDFtk.rnd h.2.1, h.2.2))
    (mb := fun b : Option δ × α × CorrMatrix => (b.1.map md, ma b.2.1, b.2.2)) (fun _ => rfl)
    (fun h b => by simp [Cont.rnd])
    (fun r => Comp.Rounds.weaken (P := fun x : Option δ × α × CorrMatrix => (∀ y ∈ x.1, True) ∧ True ∧ True)
      (andThen_rounds (k := fun b : α × CorrMatrix => (ma b.1, b.2)) (d := fun _ : Option δ => unc.andThen (fun _ => corrC)) (optC_rounds hdap (r.n2 ≠ 0))
        (fun _ => andThen_rounds (d := fun _ : α => corrC) (k := id) hu (fun _ => corrC_rounds) (fun _ => rfl)) (fun _ => rfl))
      (fun _ _ => ⟨fun _ _ => trivial, trivial, trivial⟩))
    (fun _ => rfl)

end

def CovType.rndData : (k : CovType) → k.Data → k.Data
  | .limitedSLBW | .limitedMLBW => rndLimited
  | .generalSLBW | .generalMLBW => rndGeneral ENDFtk.rnd LIST.rnd
  | .generalRM => rndGeneral LIST.rnd LIST.rnd
  | .generalRML => rndGeneral LIST.rnd rndShortRml
  | .compactSLBW | .compactMLBW => rndCompact ENDFtk.rnd LIST.rnd
  | .compactRM => rndCompact LIST.rnd LIST.rnd
  | .compactRML => rndCompact LIST.rnd rndCompactRml
  | .unresolved => rndUnresolved

theorem CovType.rounds : (k : CovType) → k.comp.Rounds k.rndData
  | .limitedSLBW => limitedC_rounds
  | .limitedMLBW => limitedC_rounds
  | .generalSLBW => generalC_rounds dapC_rounds shortRangeC_rounds
  | .generalMLBW => generalC_rounds dapC_rounds shortRangeC_rounds
  | .generalRM => generalC_rounds listC_rounds shortRangeC_rounds
  | .generalRML => generalC_rounds dapNoneC_rounds shortRangeRmlC_rounds
  | .compactSLBW => compactC_rounds dapC_rounds compactUncertaintiesC_rounds
  | .compactMLBW => compactC_rounds dapC_rounds compactUncertaintiesC_rounds
  | .compactRM => compactC_rounds listC_rounds compactUncertaintiesC_rounds
  | .compactRML => compactC_rounds dapNoneC_rounds compactRmlC_rounds
  | .unresolved => unresolvedC_rounds

def CovParams.rnd (p : CovParams) : CovParams := ⟨p.type, p.type.rndData p.data⟩

theorem radiusCovC_rounds : radiusCovC.Rounds (fun y : Unit × List LIST => (y.1, y.2.map LIST.rnd)) :=
  hdrC_rounds (ms := fun h : Unit => h) (mb := List.map LIST.rnd) (fun _ => rfl)
    (fun h b => by simp [Cont.rnd, ENDFtk.rnd, Rounding.zero])
    (fun r => Comp.Rounds.weaken (P := fun x : List LIST => ∀ y ∈ x, True) (seqC_rounds explicitC_rounds r.n2) (fun _ _ => fun _ _ => trivial)) (fun _ => rfl)

def CovRange.rnd (r : CovRange) : CovRange :=
  ⟨ENDFtk.rnd r.el, ENDFtk.rnd r.eh, r.naps, r.parameters.rnd, r.radius.map (fun y => (y.1, y.2.map LIST.rnd))⟩

theorem CovRange.valid_rnd {r : CovRange} (h : r.Valid) : r.rnd.Valid := by
  obtain ⟨⟨h1, h2, h3⟩, h4⟩ := h
  refine ⟨⟨h1, ?_, ?_⟩, r.parameters.type.rounds.valid h4⟩
  · intro x hx
    cases hr : r.radius with
    | none => simp [CovRange.rnd, hr] at hx
    | some y =>
      simp only [CovRange.rnd, hr, Option.map_some, Option.some.injEq] at hx
      subst hx
      exact radiusCovC_rounds.valid (h2 y hr)
  · simpa [CovRange.rnd, CovParams.rnd] using h3

theorem CovRange.print_rnd (r : CovRange) (t : Nums) : r.rnd.print t = r.print t := by
  unfold CovRange.print
  have e1 : r.rnd.cont = r.cont.rnd := by simp [CovRange.cont, CovRange.rnd, Cont.rnd, CovParams.rnd]
  have e2 : radiusPrint t r.rnd.radius = radiusPrint t r.radius := by
    cases hr : r.radius with
    | none => simp [CovRange.rnd, hr]
    | some y => simp only [CovRange.rnd, hr, Option.map_some]; exact radiusCovC_rounds.print y t
  rw [e1, printCont_rnd, e2, show r.rnd.parameters.print t = r.parameters.print t from r.parameters.type.rounds.print _ t]

theorem CovRange.reals_rnd (r : CovRange) : r.rnd.reals = r.reals.map ENDFtk.rnd := by
  unfold CovRange.reals
  have e2 : radiusReals r.rnd.radius = (radiusReals r.radius).map ENDFtk.rnd := by
    cases hr : r.radius with
    | none => simp [CovRange.rnd, hr, radiusReals]
    | some y => simp only [CovRange.rnd, hr, Option.map_some]; exact radiusCovC_rounds.reals (a := y) trivial
  rw [e2, show r.rnd.parameters.reals = r.parameters.reals.map ENDFtk.rnd from r.parameters.type.rounds.reals trivial]
  simp [CovRange.rnd]

def CovIsotope.rnd (b : CovIsotope) : CovIsotope := ⟨ENDFtk.rnd b.zai, ENDFtk.rnd b.abn, b.lfw, b.ranges.map CovRange.rnd⟩

theorem CovIsotope.valid_rnd {b : CovIsotope} (h : b.Valid) : b.rnd.Valid :=
  ⟨by simpa [CovIsotope.rnd] using h.1, forall_map CovRange.valid_rnd h.2⟩

theorem CovIsotope.print_rnd (b : CovIsotope) (t : Nums) : b.rnd.print t = b.print t := by
  unfold CovIsotope.print
  rw [show b.rnd.cont = b.cont.rnd by simp [CovIsotope.cont, CovIsotope.rnd, Cont.rnd], printCont_rnd]
  congr 1
  simp only [CovIsotope.rnd, List.flatMap_map]
  congr 1; funext r; exact r.print_rnd t

theorem CovIsotope.reals_rnd (b : CovIsotope) : b.rnd.reals = b.reals.map ENDFtk.rnd := by
  unfold CovIsotope.reals
  rw [List.map_append,
    show b.rnd.ranges = b.ranges.map CovRange.rnd from rfl, flatMap_reals_rnd (fun a _ => CovRange.reals_rnd a)]
  rfl

theorem mf32mt151_rounds : mf32mt151.Rounds (List.map CovIsotope.rnd) where
  valid := fun {b} h => ⟨by simpa using h.1, by simpa using h.2.1, forall_map CovIsotope.valid_rnd h.2.2⟩
  head := fun b => by simp [mf32mt151]
  body := fun _ b t => by
    simp only [mf32mt151, List.flatMap_map]
    congr 1; funext r; exact r.print_rnd t
  reals := fun _ => flatMap_reals_rnd (fun a _ => CovIsotope.reals_rnd a)
  mtOk := fun _ _ _ => trivial

end ENDFtk

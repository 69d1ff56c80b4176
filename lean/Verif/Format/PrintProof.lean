import Verif.Format.Print
/-
  The printers of all section types print the records of `Fmt.printed`.
-/
set_option linter.unusedVariables false
set_option linter.unusedSectionVars false
set_option linter.unusedSimpArgs false
namespace ENDFtk
variable [Disco]
open Fmt

theorem head_eq : (T : SectionType) → (x : T.Data) → T.defn.head x = Fmt.head T x
  | .mf1mt451, x => rfl
  | .mf1mt452, x => by cases x <;> rfl
  | .mf1mt455, x => by
    obtain ⟨l, n⟩ := x
    cases l <;> cases n <;> rfl
  | .mf1mt456, x => by cases x <;> rfl
  | .mf1mt458, x => by cases x <;> rfl
  | .mf1mt460, x => by cases x <;> rfl
  | .mf2mt151, x => rfl
  | .mf2mt152, x => rfl
  | .mf3, x => rfl
  | .mf4, x => by
    obtain ⟨l, d⟩ := x
    cases d <;> rfl
  | .mf5, x => rfl
  | .mf6, x => rfl
  | .mf7mt2, x => by cases x <;> rfl
  | .mf7mt4, x => rfl
  | .mf7mt451, x => rfl
  | .mf8mt454, x => rfl
  | .mf8mt457, x => rfl
  | .mf8mt459, x => rfl
  | .mf9, x => rfl
  | .mf10, x => rfl
  | .mf12, x => by cases x <;> rfl
  | .mf13, x => rfl
  | .mf14, x => by
    show ((x.LI, x.LTT, x.NK, x.NI) : Int × Int × Int × Int) = head14 x
    unfold head14 MF14Data.LI MF14Data.LTT MF14Data.NK MF14Data.NI
    rcases List.eq_nil_or_concat x.photons with h | ⟨l, p, h⟩
    · simp [h, asInt]
      show toInt32 0 = 0
      rw [toInt32_of ⟨by decide, by decide⟩]
    · have hn : x.photons ≠ [] := by rw [h]; simp
      have hl : x.photons.getLast? = some p := by rw [h]; simp
      rw [if_neg hn, if_neg hn, hl]
      have e : Photon.isIso = fun p => match p with | .isotropic _ _ => true | _ => false := by funext p; cases p <;> rfl
      rw [e]
      cases p <;> rfl
  | .mf15, x => rfl
  | .mf23, x => rfl
  | .mf26, x => rfl
  | .mf27, x => rfl
  | .mf28, x => rfl
  | .mf31, x => rfl
  | .mf33, x => rfl
  | .mf34, x => rfl
  | .mf35, x => rfl
  | .mf40, x => rfl

/-! ### components -/

section
variable (t : Nums)

theorem listP_print (l : LIST) : printRecs (listP l) t = l.print t := by simp [listP, printRecs, Rec.print]
theorem tab1P_print (l : TAB1) : printRecs (tab1P l) t = l.print t := by simp [tab1P, printRecs, Rec.print]

theorem tab2P_print {α : Type} {f : α → List Rec} {pr : α → Nums → Text} (h : ∀ x, printRecs (f x) t = pr x t) (b : ISeq α) :
    printRecs (tab2P f b) t = b.print pr t := by
  simp only [tab2P, printRecs_cons, printRecs_flatMap, Rec.print, ISeq.print, h]

theorem tab2P_list (b : ISeq LIST) : printRecs (tab2P listP b) t = b.print LIST.print t := tab2P_print t (listP_print t) b
theorem tab2P_tab1 (b : ISeq TAB1) : printRecs (tab2P tab1P b) t = b.print TAB1.print t := tab2P_print t (tab1P_print t) b

theorem nubarP_print (x : Nubar) : printRecs (nubarP x) t = x.print t := by cases x <;> simp [nubarP, printRecs, Rec.print, Nubar.print]

theorem tabListsP_print (x : TabLists) : printRecs (tabListsP x) t = tabListsC.print x t := by
  simp only [tabListsP, printRecs_cons, printRecs_map, Rec.print, tabListsC, Comp.andThen, seqC, tab1C, listC]

theorem totalPartialsP_print (n : Int) (x : TotalPartials) : printRecs (totalPartialsP x) t = (totalPartialsC n).print x t := by
  obtain ⟨o, l⟩ := x
  cases o <;> simp [totalPartialsP, printRecs_cons, printRecs_map, Rec.print, totalPartialsC, Comp.checked, Comp.andThen, seqC, optC, tab1C]

theorem derivedP_print (x : Derived) : printRecs (derivedP x) t = derivedC.print x t := by
  cases x <;> simp [derivedP, printRecs_cons, printRecs_nil, Rec.print, derivedC, Derived.lty, Derived.list]

theorem reactionBlockP_print (x : ReactionBlock) : printRecs (reactionBlockP x) t = reactionBlockC.print x t := by
  simp only [reactionBlockP, printRecs_cons, printRecs_append, printRecs_map, printRecs_flatMap, derivedP_print, Rec.print, reactionBlockC, ReactionBlock.cont,
    asInt, size, explicitC, Comp.checkedE, listC, List.cons_append]

theorem legendreBlockP_print (x : LegendreBlock) : printRecs (legendreBlockP x) t = legendreBlockC.print x t := by
  simp only [legendreBlockP, printRecs_cons, printRecs_map, Rec.print, legendreBlockC, asInt, size, explicitC, Comp.checkedE, listC]

theorem reactionBlock34P_print (x : ReactionBlock34) (mt : Int) : printRecs (reactionBlock34P x) t = (reactionBlock34C mt).print x t := by
  simp only [reactionBlock34P, printRecs_cons, printRecs_flatMap, legendreBlockP_print, Rec.print, reactionBlock34C]

theorem levelBlockP_print (x : LevelBlock) : printRecs (levelBlockP x) t = levelBlockC.print x t := by
  simp only [levelBlockP, printRecs_cons, printRecs_flatMap, reactionBlockP_print, Rec.print, levelBlockC, asInt, size]

theorem decaySpectrumP_print (x : DecaySpectrum) : printRecs (decaySpectrumP x) t = decaySpectrumC.print x t := by
  obtain ⟨l, ls, o⟩ := x
  cases o <;> simp [decaySpectrumP, printRecs_cons, printRecs_append, printRecs_nil, printRecs_map, Rec.print, decaySpectrumC, Comp.checked, Comp.andThen, seqC,
    optC, tab1C, listC, discreteC]

theorem photonP_print (x : Photon) : printRecs (Fmt.photonP x) t = ENDFtk.photonP.print x t := by
  cases x with
  | isotropic a b => simp [Fmt.photonP, ENDFtk.photonP, printRecs, Rec.print]
  | legendre b => exact tab2P_list t b
  | tabulated b => exact tab2P_tab1 t b

theorem law26P_print (x : Law26) : printRecs (Fmt.law26P x) t = ENDFtk.law26P.print x t := by
  cases x with
  | continuum b =>
    show _ = continuum26C.print b t
    rw [show Fmt.law26P (.continuum b) = tab2P listP b from rfl, tab2P_list]
    show _ = b.print (continuum26ElemC b.tab2).print t
    have : (continuum26ElemC b.tab2).print = LIST.print := by unfold continuum26ElemC Comp.checkedE; split <;> rfl
    rw [this]
  | twoBody b => exact tab2P_list t b
  | transfer r => exact tab1P_print t r

theorem law6P_print (x : Law6) : printRecs (law6P x) t = x.print t := by
  cases x with
  | elsewhere l => rfl
  | unknown => rfl
  | continuum b =>
    show _ = continuumC.print b t
    rw [show law6P (.continuum b) = tab2P listP b from rfl, tab2P_list]
    show _ = b.print (continuumElemC b.tab2).print t
    have : (continuumElemC b.tab2).print = LIST.print := by unfold continuumElemC Comp.checkedE; split <;> rfl
    rw [this]
  | twoBody b => exact tab2P_list t b
  | isotropic => rfl
  | recoils => rfl
  | charged b => exact tab2P_list t b
  | nBody c => simp [law6P, printRecs, Rec.print, Law6.print]
  | laboratory b => exact tab2P_print t (fun x => tab2P_tab1 t x) b

theorem spectrumP_print (x : Spectrum) : printRecs (spectrumP x) t = x.print t := by
  cases x with
  | tabulated b => exact tab2P_tab1 t b
  | _ => simp [spectrumP, printRecs, Rec.print, Spectrum.print]

theorem angularP_print (x : Angular) : printRecs (angularP x) t = x.print t := by
  cases x with
  | isotropic => rfl
  | legendre b => exact tab2P_list t b
  | tabulated b => exact tab2P_tab1 t b
  | mixed b =>
    simp only [angularP, printRecs_append, tab2P_list, tab2P_tab1, Angular.print]
    rfl

theorem elasticP_print (x : Elastic) : printRecs (Fmt.elasticP x) t = ENDFtk.elasticP.print x t := by
  cases x with
  | coherent b => exact tabListsP_print t b
  | incoherent r => exact tab1P_print t r
  | mixed b r =>
    simp only [Fmt.elasticP, printRecs_append, tabListsP_print]
    simp only [printRecs_cons, printRecs_nil, Rec.print, List.append_nil]
    rfl

theorem temperatures_print (types : List Dbl) (x : List (Option TAB1)) (h : (temperaturesC types).Valid x) :
    (temperaturesC types).print x t = printRecs (x.flatMap (fun o => o.toList.map .tab1)) t := by
  induction types generalizing x with
  | nil =>
    obtain ⟨_, rfl, _⟩ := h
    rfl
  | cons ty types ih =>
    cases x with
    | nil => exact h.elim
    | cons o os =>
      rw [List.flatMap_cons, printRecs_append, ← ih os h.2, printRecs_opt]
      cases o <;> rfl

theorem scatteringP_print (x : ScatteringData) (h : mf7mt4.Valid x) : mf7mt4.body awr x t = printRecs (scatteringP x) t := by
  obtain ⟨lat, lasym, c, l, p, s⟩ := x
  have ht := temperatures_print t _ _ h.2.2.2.2.2
  show c.print t ++ ((scatteringLawC c).print l t ++ (p.print t ++ (temperaturesC (functionTypes c)).print s t)) = _
  rw [ht]
  simp only [scatteringP, printRecs_append, printRecs_cons, printRecs_nil, Rec.print, List.append_nil, List.append_assoc, List.cons_append]
  congr 2
  cases l with
  | none => rfl
  | some b =>
    rw [show (some b).toList.flatMap (tab2P tabListsP) = tab2P tabListsP b from by simp]
    exact (tab2P_print t (fun x => tabListsP_print t x) b).symm

theorem breitWignerP_print (x : BwHeader × Unit × List LIST) : printRecs (breitWignerP x) t = breitWignerC.print x t := by
  simp only [breitWignerP, printRecs_cons, printRecs_map, Rec.print, breitWignerC, Comp.checked, contSeqC, nilC, lvalueC, listC, List.nil_append, bwHeader]
  rfl

theorem lvalueP_print (x : LValueC) : printRecs (lvalueP x) t = lvalueCC.print x t ∧ printRecs (lvalueP x) t = lvalueBC.print x t := by
  constructor
  · simp only [lvalueP, printRecs_cons, printRecs_map, Rec.print, lvalueCC, Comp.checked, contSeqC, nilC, jvalueC, Comp.checkedE, listC, List.nil_append, lvHeader]
    rfl
  · simp only [lvalueP, printRecs_cons, printRecs_map, Rec.print, lvalueBC, Comp.checked, contSeqC, nilC, jvalueBC, Comp.checkedE, listC, List.nil_append, lvHeader]
    rfl

theorem backgroundP_print (b : Background) : printRecs (Fmt.backgroundP b).2 t = ENDFtk.backgroundP.print b t ∧ (Fmt.backgroundP b).1 = b.lbk := by
  cases b <;> simp [Fmt.backgroundP, ENDFtk.backgroundP, Background.lbk, printRecs, Rec.print]

theorem channels_print (nch : Int) (bs : List (Option Background)) (i : Nat) :
    printRecs ((bs.zipIdx i).flatMap channelP) t = (presentFrom i bs).flatMap (fun x => (backgroundC nch).print x t) := by
  induction bs generalizing i with
  | nil => rfl
  | cons o bs ih =>
    rw [List.zipIdx_cons, List.flatMap_cons, printRecs_append, ih]
    cases o with
    | none => rfl
    | some b =>
      simp only [presentFrom, List.flatMap_cons, channelP, printRecs_cons, (backgroundP_print t b).1, (backgroundP_print t b).2, Rec.print]
      rfl

theorem spinGroupP_print (x : SpinGroup) : printRecs (spinGroupP x) t = spinGroupC.print x t := by
  simp only [spinGroupP, printRecs_cons, Rec.print]
  rw [channels_print t (toInt32 (x.1.1.data.length / 6 : Nat)) x.2 1]
  rw [← List.append_assoc]
  rfl

theorem rmlP_print (x : RmlHeader × LIST × List SpinGroup) : printRecs (rmlP x) t = rmlC.print x t := by
  simp only [rmlP, printRecs_cons, printRecs_flatMap, spinGroupP_print, Rec.print, rmlC, Comp.checked, contSeqC, particlePairsC, listC, rmlHeader]
  rfl

theorem resParamsP_print (x : ResParams) : printRecs (resParamsP x).2.2 t = ResParams.printer.print x t ∧ (resParamsP x).1 = x.lru ∧ (resParamsP x).2.1 = x.lrf := by
  cases x with
  | special a b => simp [resParamsP, ResParams.printer, ResParams.lru, ResParams.lrf, printRecs, Rec.print]
  | slbw b => exact ⟨breitWignerP_print t b, rfl, rfl⟩
  | mlbw b => exact ⟨breitWignerP_print t b, rfl, rfl⟩
  | reichMoore b => exact ⟨breitWignerP_print t b, rfl, rfl⟩
  | rml b => exact ⟨rmlP_print t b, rfl, rfl⟩
  | caseA b =>
    refine ⟨?_, rfl, rfl⟩
    simp only [resParamsP, printRecs_cons, printRecs_map, Rec.print, ResParams.printer, caseAC, Comp.checked, contSeqC, nilC, listC, List.nil_append, urHeader]
    rfl
  | caseB b =>
    refine ⟨?_, rfl, rfl⟩
    simp only [resParamsP, printRecs_cons, printRecs_flatMap, (lvalueP_print t _).2, Rec.print, ResParams.printer, caseBC, Comp.checked, Comp.andThen, seqC, listC]
  | caseC b =>
    refine ⟨?_, rfl, rfl⟩
    simp only [resParamsP, printRecs_cons, printRecs_flatMap, (lvalueP_print t _).1, Rec.print, ResParams.printer, caseCC, Comp.checked, contSeqC, nilC,
      List.nil_append, urHeader]
    rfl

theorem resRangeP_print (x : ResRange) (lfw : Int) : printRecs (resRangeP x) t = (resRangeC lfw).print x t := by
  simp only [resRangeP, List.cons_append, printRecs_cons, printRecs_append, (resParamsP_print t x.parameters).1, (resParamsP_print t x.parameters).2.1,
    (resParamsP_print t x.parameters).2.2, Rec.print, printRecs_opt]
  rfl

theorem isotopeP_print (x : Isotope) : printRecs (isotopeP x) t = x.print t := by
  simp only [isotopeP, printRecs_cons, printRecs_flatMap, resRangeP_print t _ 0, Rec.print, Isotope.print]
  rfl

end

theorem body_eq (awr : Dbl) (t : Nums) : (T : SectionType) → (x : T.Data) → T.defn.Valid x → T.defn.body awr x t = printRecs (Fmt.records T awr x) t
  | .mf1mt451, x, _ => by
    simp only [records, printRecs_append, printRecs_cons, printRecs_nil, printRecs_map, Rec.print]
    simp [SectionType.defn, mf1mt451, Info451.print]
  | .mf1mt452, x, _ => (nubarP_print t x).symm
  | .mf1mt455, x, _ => by
    obtain ⟨l, n⟩ := x
    simp only [records, printRecs_append, nubarP_print]
    cases l with
    | indep r => simp [decayP, printRecs, Rec.print, SectionType.defn, mf1mt455, Decay.print]
    | dep b => simp only [decayP, tab2P_list]; rfl
  | .mf1mt456, x, _ => (nubarP_print t x).symm
  | .mf1mt458, x, _ => by
    cases x with
    | thermal r => exact (listP_print t r).symm
    | poly r => exact (listP_print t r).symm
    | tab b =>
      simp only [records, releaseP, printRecs_cons, printRecs_flatMap, printRecs_opt, Rec.print]
      show b.print t = _
      unfold TabComp.print
      congr 2
      funext o; cases o <;> rfl
  | .mf1mt460, x, _ => by
    cases x with
    | discrete l => simp only [records, photonsP, printRecs_map, Rec.print]; rfl
    | continuous r => exact (listP_print t r).symm
  | .mf2mt151, x, _ => by
    simp only [records, printRecs_flatMap, isotopeP_print]; rfl
  | .mf2mt152, x, _ => (listP_print t x.data).symm
  | .mf3, x, _ => (tab1P_print t x).symm
  | .mf4, x, _ => by
    simp only [records, printRecs_cons, angularP_print, Rec.print]
    obtain ⟨l, d⟩ := x
    cases d <;> rfl
  | .mf5, x, _ => by
    simp only [records, printRecs_flatMap, printRecs_cons, spectrumP_print, Rec.print]; rfl
  | .mf6, x, _ => by
    simp only [records, printRecs_flatMap, printRecs_cons, law6P_print, Rec.print]; rfl
  | .mf7mt2, x, _ => (elasticP_print t x).symm
  | .mf7mt4, x, h => scatteringP_print t x h
  | .mf7mt451, x, _ => by simp only [records, printRecs_map, Rec.print]; rfl
  | .mf8mt454, x, _ => by simp only [records, printRecs_map, Rec.print]; rfl
  | .mf8mt457, x, _ => by simp only [records, printRecs_cons, printRecs_flatMap, decaySpectrumP_print, Rec.print]; rfl
  | .mf8mt459, x, _ => by simp only [records, printRecs_map, Rec.print]; rfl
  | .mf9, x, _ => by simp only [records, printRecs_map, Rec.print]; rfl
  | .mf10, x, _ => by simp only [records, printRecs_map, Rec.print]; rfl
  | .mf12, x, _ => by
    cases x with
    | multiplicities b => exact (totalPartialsP_print t _ b).symm
    | transitions l => exact (listP_print t l).symm
  | .mf13, x, _ => (totalPartialsP_print t _ x).symm
  | .mf14, x, _ => by simp only [records, printRecs_flatMap, photonP_print]; rfl
  | .mf15, x, _ => by
    simp only [records, printRecs_flatMap, printRecs_cons, tab2P_tab1, Rec.print]; rfl
  | .mf23, x, _ => (tab1P_print t x).symm
  | .mf26, x, _ => by simp only [records, printRecs_flatMap, printRecs_cons, law26P_print, Rec.print]; rfl
  | .mf27, x, _ => (tab1P_print t x).symm
  | .mf28, x, _ => by simp only [records, printRecs_map, Rec.print]; rfl
  | .mf31, x, _ => by simp only [records, printRecs_flatMap, reactionBlockP_print]; rfl
  | .mf33, x, _ => by simp only [records, printRecs_flatMap, reactionBlockP_print]; rfl
  | .mf34, x, _ => by simp only [records, printRecs_flatMap, reactionBlock34P_print t _ t.mt]; rfl
  | .mf35, x, _ => by simp only [records, printRecs_map, Rec.print]; rfl
  | .mf40, x, _ => by simp only [records, printRecs_flatMap, levelBlockP_print]; rfl

theorem lines_eq (T : SectionType) (x : Sect T.Data) (h : T.defn.Valid x.data) (mat mf : Int) :
    T.defn.lines x mat mf = printRecs (Fmt.printed T x) ⟨mat, mf, x.mt⟩ := by
  unfold SecDef.lines SecDef.headCont Fmt.printed
  rw [body_eq x.awr ⟨mat, mf, x.mt⟩ T x.data h, printRecs_cons, head_eq]
  rfl

end ENDFtk

import Verif.Rounded.Mid
/-
  Rounding the reals of the section types of files 2, 31, 33, 34, 35 and 40; all section types together.
-/
set_option linter.unusedVariables false
set_option linter.unusedSectionVars false
set_option linter.unusedSimpArgs false
namespace ENDFtk
variable [Disco] [Rounding]

/-! ### MF31, MF33 -/

theorem explicitC_rounds : explicitC.Rounds LIST.rnd :=
  checkedE_rounds listC_rounds (fun a _ h => by
    unfold explicitCheck covariancePairsCheck squareMatrixCheck rectangularMatrixCheck at h ⊢
    rw [LIST.npl_rnd]; exact h)

def Derived.rnd : Derived → Derived
  | .redundant l => .redundant l.rnd
  | .ratio lty l => .ratio lty l.rnd

theorem Derived.lty_rnd (d : Derived) : d.rnd.lty = d.lty := by cases d <;> rfl
theorem Derived.list_rnd (d : Derived) : d.rnd.list = d.list.rnd := by cases d <;> rfl

theorem printCont_zero_rnd (l1 l2 n1 n2 : Int) (c : Cont) (h : c = ⟨Disco.zero, Disco.zero, l1, l2, n1, n2⟩) : c.rnd = c := by
  subst h; simp [Cont.rnd, ENDFtk.rnd, Rounding.zero]

theorem derivedC_rounds : derivedC.Rounds Derived.rnd where
  valid := fun {d} h => by
    refine ⟨by rw [Derived.list_rnd]; exact LIST.fits_rnd h.1, ?_⟩
    cases d with
    | redundant l => trivial
    | ratio lty l => exact h.2
  print := fun d t => by simp only [derivedC, Derived.lty_rnd, Derived.list_rnd, LIST.print_rnd]
  reals := fun {d} _ => by
    simp only [derivedC, Derived.list_rnd, List.map_append]
    rw [listC_rounds.reals trivial]
    simp [ENDFtk.rnd, Rounding.zero]

def ReactionBlock.rnd (b : ReactionBlock) : ReactionBlock := { b with derived := b.derived.map Derived.rnd, explicit := b.explicit.map LIST.rnd }

/-- XMF1 and XLFS1, integers that are printed as reals, have up to seven digits. -/
def ReactionBlock.Small (b : ReactionBlock) : Prop := SevenDigits b.xmf1 ∧ SevenDigits b.xlfs1

theorem reactionBlockC_rounds : reactionBlockC.Rounds ReactionBlock.rnd ReactionBlock.Small where
  valid := fun {b} h => ⟨h.1, h.2.1, h.2.2.1, h.2.2.2.1, by simpa [ReactionBlock.rnd] using h.2.2.2.2.1,
    by simpa [ReactionBlock.rnd] using h.2.2.2.2.2.1, forall_map derivedC_rounds.valid h.2.2.2.2.2.2.1, forall_map explicitC_rounds.valid h.2.2.2.2.2.2.2⟩
  print := fun b t => by
    have e : b.rnd.cont = b.cont := by simp [ReactionBlock.cont, ReactionBlock.rnd]
    show printCont b.rnd.cont t ++ ((b.derived.map Derived.rnd).flatMap (fun x => derivedC.print x t) ++
      (b.explicit.map LIST.rnd).flatMap (fun x => explicitC.print x t)) = _
    rw [e, flatMap_print_rnd derivedC_rounds.print, flatMap_print_rnd explicitC_rounds.print]
    rfl
  reals := fun {b} h => by
    show [Disco.ofInt b.xmf1, Disco.ofInt b.xlfs1] ++ ((b.derived.map Derived.rnd).flatMap derivedC.reals ++ (b.explicit.map LIST.rnd).flatMap explicitC.reals) =
      ([Disco.ofInt b.xmf1, Disco.ofInt b.xlfs1] ++ (b.derived.flatMap derivedC.reals ++ b.explicit.flatMap explicitC.reals)).map ENDFtk.rnd
    rw [flatMap_reals_rnd (fun a _ => derivedC_rounds.reals trivial), flatMap_reals_rnd (fun a _ => explicitC_rounds.reals trivial)]
    simp [rnd_ofInt h.1, rnd_ofInt h.2]

theorem mf31_rounds : mf31.Rounds (List.map ReactionBlock.rnd) (fun b => ∀ x ∈ b, x.Small) where
  valid := fun h => ⟨by simpa using h.1, forall_map reactionBlockC_rounds.valid h.2⟩
  head := fun b => by simp only [mf31, List.length_map]
  body := fun _ b t => flatMap_print_rnd reactionBlockC_rounds.print b t
  reals := fun h => flatMap_reals_rnd (fun a ha => reactionBlockC_rounds.reals (h a ha))
  mtOk := fun _ _ h => h

theorem mf33_rounds : mf33.Rounds (fun b => (b.1, b.2.map ReactionBlock.rnd)) (fun b => ∀ x ∈ b.2, x.Small) where
  valid := fun h => ⟨h.1, by simpa using h.2.1, forall_map reactionBlockC_rounds.valid h.2.2⟩
  head := fun b => by simp only [mf33, List.length_map]
  body := fun _ b t => flatMap_print_rnd reactionBlockC_rounds.print b.2 t
  reals := fun h => flatMap_reals_rnd (fun a ha => reactionBlockC_rounds.reals (h a ha))
  mtOk := fun _ _ h => h

/-! ### MF34, MF35, MF40, MF2 MT152 -/

def LegendreBlock.rnd (b : LegendreBlock) : LegendreBlock := { b with data := b.data.map LIST.rnd }

theorem legendreBlockC_rounds : legendreBlockC.Rounds LegendreBlock.rnd where
  valid := fun {b} h => ⟨h.1, h.2.1, h.2.2.1, by simpa [LegendreBlock.rnd] using h.2.2.2.1, forall_map explicitC_rounds.valid h.2.2.2.2⟩
  print := fun b t => by
    simp only [legendreBlockC, LegendreBlock.rnd, List.length_map]
    rw [flatMap_print_rnd explicitC_rounds.print]
  reals := fun {b} _ => by
    simp only [legendreBlockC, LegendreBlock.rnd, List.map_append]
    rw [flatMap_reals_rnd (fun a _ => explicitC_rounds.reals trivial)]
    simp [ENDFtk.rnd, Rounding.zero]

def ReactionBlock34.rnd (b : ReactionBlock34) : ReactionBlock34 := { b with blocks := b.blocks.map LegendreBlock.rnd }

theorem reactionBlock34C_print_rnd (mt : Int) (b : ReactionBlock34) (t : Nums) : (reactionBlock34C mt).print b.rnd t = (reactionBlock34C mt).print b t := by
  simp only [reactionBlock34C, ReactionBlock34.rnd]
  rw [flatMap_print_rnd legendreBlockC_rounds.print]

theorem reactionBlock34C_reals_rnd (mt : Int) (b : ReactionBlock34) : (reactionBlock34C mt).reals b.rnd = ((reactionBlock34C mt).reals b).map ENDFtk.rnd := by
  simp only [reactionBlock34C, ReactionBlock34.rnd, List.map_append]
  rw [flatMap_reals_rnd (fun a _ => legendreBlockC_rounds.reals trivial)]
  simp [ENDFtk.rnd, Rounding.zero]

theorem ReactionBlock34.ok_rnd {b : ReactionBlock34} (h : b.Ok) : b.rnd.Ok :=
  ⟨h.1, h.2.1, h.2.2.1, by simpa [ReactionBlock34.rnd] using h.2.2.2.1, forall_map legendreBlockC_rounds.valid h.2.2.2.2⟩

theorem mf34_rounds : mf34.Rounds (fun b => (b.1, b.2.map ReactionBlock34.rnd)) where
  valid := fun h => ⟨h.1, by simpa using h.2.1, forall_map ReactionBlock34.ok_rnd h.2.2⟩
  head := fun b => by simp only [mf34, List.length_map]
  body := fun _ b t => flatMap_print_rnd (c := reactionBlock34C t.mt) (reactionBlock34C_print_rnd t.mt) b.2 t
  reals := fun _ => flatMap_reals_rnd (fun a _ => reactionBlock34C_reals_rnd 0 a)
  mtOk := fun mt b h x hx => by
    obtain ⟨y, hy, rfl⟩ := List.mem_map.mp hx
    have := h y hy
    simpa [ReactionBlock34.rnd] using this

theorem squareMatrix35C_rounds : squareMatrix35C.Rounds LIST.rnd :=
  checkedE_rounds listC_rounds (fun a _ h => by
    unfold squareMatrix35Check at h ⊢
    rw [LIST.npl_rnd]; exact h)

theorem mf35_rounds : mf35.Rounds (List.map LIST.rnd) where
  valid := fun h => ⟨by simpa using h.1, forall_map squareMatrix35C_rounds.valid h.2⟩
  head := fun b => by simp only [mf35, List.length_map]
  body := fun _ b t => flatMap_print_rnd squareMatrix35C_rounds.print b t
  reals := fun _ => flatMap_reals_rnd (fun a _ => squareMatrix35C_rounds.reals trivial)
  mtOk := fun _ _ h => h

def LevelBlock.rnd (b : LevelBlock) : LevelBlock := ⟨ENDFtk.rnd b.qm, ENDFtk.rnd b.qi, b.izap, b.lfs, b.reactions.map ReactionBlock.rnd⟩

def LevelBlock.Small (b : LevelBlock) : Prop := ∀ x ∈ b.reactions, x.Small

theorem levelBlockC_rounds : levelBlockC.Rounds LevelBlock.rnd LevelBlock.Small where
  valid := fun {b} h => ⟨h.1, h.2.1, by simpa [LevelBlock.rnd] using h.2.2.1, forall_map reactionBlockC_rounds.valid h.2.2.2⟩
  print := fun b t => by
    simp only [levelBlockC, LevelBlock.rnd, List.length_map]
    rw [flatMap_print_rnd reactionBlockC_rounds.print]
    exact congrArg (· ++ _) (printCont_rnd ⟨b.qm, b.qi, _, _, _, _⟩ t)
  reals := fun {b} h => by
    simp only [levelBlockC, LevelBlock.rnd, List.map_append]
    rw [flatMap_reals_rnd (fun a ha => reactionBlockC_rounds.reals (h a ha))]
    simp

theorem mf40_rounds : mf40.Rounds (fun b => (b.1, b.2.map LevelBlock.rnd)) (fun b => ∀ x ∈ b.2, x.Small) where
  valid := fun h => ⟨h.1, by simpa using h.2.1, forall_map levelBlockC_rounds.valid h.2.2⟩
  head := fun b => by simp only [mf40, List.length_map]
  body := fun _ b t => flatMap_print_rnd levelBlockC_rounds.print b.2 t
  reals := fun h => flatMap_reals_rnd (fun a ha => levelBlockC_rounds.reals (h a ha))
  mtOk := fun _ _ h => h

theorem dilutionC_rounds : dilutionC.Rounds LIST.rnd :=
  checkedNpl_rounds (fun l => by unfold dilutionSizeOk; rw [LIST.npl_rnd]; exact Iff.rfl)

def Dilution.rnd (b : Dilution) : Dilution := { b with data := b.data.rnd }

theorem mf2mt152_rounds : mf2mt152.Rounds Dilution.rnd where
  valid := fun h => ⟨h.1, dilutionC_rounds.valid h.2⟩
  head := fun _ => rfl
  body := fun _ b t => dilutionC_rounds.print b.data t
  reals := fun _ => dilutionC_rounds.reals trivial
  mtOk := fun _ _ h => h

/-! ### MF2 MT151 -/

/-- The two reals of a CONT record that starts a class are rounded. -/
structure Header.Rounds {σ : Type} (H : Header σ) (k : σ → σ) : Prop where
  ok : ∀ {h}, H.ok h → H.ok (k h)
  cont : ∀ h n, H.cont (k h) n = (H.cont h n).rnd

theorem contSeqC_rounds {σ μ α : Type} {H : Header σ} {k : σ → σ} {m : Comp μ} {mm : μ → μ} {c : Comp α} {mc : α → α}
    (hH : H.Rounds k) (hm : m.Rounds mm) (hc : c.Rounds mc) : (contSeqC H m c).Rounds (fun b => (k b.1, mm b.2.1, b.2.2.map mc)) where
  valid := fun {b} h => ⟨hH.ok h.1, hm.valid h.2.1, by simpa using h.2.2.1, forall_map hc.valid h.2.2.2⟩
  print := fun b t => by
    show printCont (H.cont (k b.1) (b.2.2.map mc).length) t ++ (m.print (mm b.2.1) t ++ (b.2.2.map mc).flatMap (fun x => c.print x t)) = _
    rw [hH.cont, printCont_rnd, hm.print, flatMap_print_rnd hc.print, List.length_map]
    rfl
  reals := fun {b} _ => by
    show [(H.cont (k b.1) (b.2.2.map mc).length).c1, (H.cont (k b.1) (b.2.2.map mc).length).c2] ++ (m.reals (mm b.2.1) ++ (b.2.2.map mc).flatMap c.reals) =
      ([(H.cont b.1 b.2.2.length).c1, (H.cont b.1 b.2.2.length).c2] ++ (m.reals b.2.1 ++ b.2.2.flatMap c.reals)).map ENDFtk.rnd
    rw [hH.cont, hm.reals trivial, flatMap_reals_rnd (fun a _ => hc.reals trivial), List.length_map, List.map_append, List.map_append]
    rfl

theorem atLeastOne_rounds {σ μ α : Type} {c : Comp (σ × μ × List α)} {k : σ → σ} {mm : μ → μ} {mc : α → α}
    (h : c.Rounds (fun b => (k b.1, mm b.2.1, b.2.2.map mc))) : (c.checked atLeastOne).Rounds (fun b => (k b.1, mm b.2.1, b.2.2.map mc)) :=
  checked_rounds h (fun b _ hb => by
    show 1 ≤ asInt (b.2.2.map mc).length
    rw [List.length_map]; exact hb)

theorem lvalueC_rounds : lvalueC.Rounds LIST.rnd :=
  checkedNpl_rounds (fun l => by unfold lvalueOk; rw [LIST.npl_rnd]; exact Iff.rfl)

def BwHeader.rnd (h : BwHeader) : BwHeader := { h with spi := ENDFtk.rnd h.spi, ap := ENDFtk.rnd h.ap }
def UrHeader.rnd (h : UrHeader) : UrHeader := { h with spi := ENDFtk.rnd h.spi, ap := ENDFtk.rnd h.ap }
def LvHeader.rnd (h : LvHeader) : LvHeader := { h with awri := ENDFtk.rnd h.awri }

theorem bwHeader_rounds : bwHeader.Rounds BwHeader.rnd := ⟨fun h => h, fun _ _ => rfl⟩
theorem urHeader_rounds : urHeader.Rounds UrHeader.rnd := ⟨fun h => h, fun _ _ => rfl⟩
theorem lvHeader_rounds : lvHeader.Rounds LvHeader.rnd :=
  ⟨fun h => h, fun h n => by simp [lvHeader, LvHeader.rnd, Cont.rnd, ENDFtk.rnd, Rounding.zero]⟩
theorem rmlHeader_rounds : rmlHeader.Rounds id :=
  ⟨fun h => h, fun h n => by simp [rmlHeader, Cont.rnd, ENDFtk.rnd, Rounding.zero]⟩

def bwRnd (b : BwHeader × Unit × List LIST) : BwHeader × Unit × List LIST := (b.1.rnd, b.2.1, b.2.2.map LIST.rnd)
def urRnd (b : UrHeader × Unit × List LIST) : UrHeader × Unit × List LIST := (b.1.rnd, b.2.1, b.2.2.map LIST.rnd)
def lvRnd (b : LValueC) : LValueC := (b.1.rnd, b.2.1, b.2.2.map LIST.rnd)
def ucRnd (b : UrHeader × Unit × List LValueC) : UrHeader × Unit × List LValueC := (b.1.rnd, b.2.1, b.2.2.map lvRnd)

theorem breitWignerC_rounds : breitWignerC.Rounds bwRnd := atLeastOne_rounds (contSeqC_rounds bwHeader_rounds nilC_rounds lvalueC_rounds)

theorem nlscOk_rnd {b : BwHeader × Unit × List LIST} (h : nlscOk b) : nlscOk (bwRnd b) := by
  have e : (bwRnd b).2.2.length = b.2.2.length := by simp [bwRnd]
  unfold nlscOk at h ⊢
  rw [e]; exact h

theorem reichMooreC_rounds : reichMooreC.Rounds bwRnd := checked_rounds breitWignerC_rounds (fun _ _ h => nlscOk_rnd h)

theorem caseAC_rounds : caseAC.Rounds urRnd := atLeastOne_rounds (contSeqC_rounds urHeader_rounds nilC_rounds
  (checkedNpl_rounds (fun l => by unfold lvalueAOk; rw [LIST.npl_rnd]; exact Iff.rfl)))

theorem jvalueC_rounds : jvalueC.Rounds LIST.rnd :=
  checkedE_rounds listC_rounds (fun a _ h => by
    unfold jvalueCheck jvalueNE at h ⊢
    rw [LIST.npl_rnd, LIST.length_rnd]; exact h)

theorem lvalueCC_rounds : lvalueCC.Rounds lvRnd := atLeastOne_rounds (contSeqC_rounds lvHeader_rounds nilC_rounds jvalueC_rounds)
theorem caseCC_rounds : caseCC.Rounds ucRnd := atLeastOne_rounds (contSeqC_rounds urHeader_rounds nilC_rounds lvalueCC_rounds)

theorem jvalueBC_rounds : jvalueBC.Rounds LIST.rnd :=
  checkedE_rounds listC_rounds (fun a _ h => by
    unfold jvalueBCheck at h ⊢
    rw [LIST.length_rnd]; exact h)

theorem jvalueBNE_rnd (l : LIST) : jvalueBNE l.rnd = jvalueBNE l := by unfold jvalueBNE; rw [LIST.length_rnd]
theorem lvalueBNE_rnd (b : LValueC) : lvalueBNE (lvRnd b) = lvalueBNE b := by
  obtain ⟨h, u, l⟩ := b
  cases l with
  | nil => rfl
  | cons j l => exact jvalueBNE_rnd j

theorem sameNE_rnd {b : LValueC} (h : sameNE b) : sameNE (lvRnd b) := by
  intro j hj
  obtain ⟨j', hj', rfl⟩ := List.mem_map.mp hj
  rw [lvalueBNE_rnd, jvalueBNE_rnd]
  exact h j' hj'

theorem lvalueBC_rounds : lvalueBC.Rounds lvRnd :=
  checked_rounds (m := lvRnd) (atLeastOne_rounds (contSeqC_rounds lvHeader_rounds nilC_rounds jvalueBC_rounds)) (fun _ _ h => sameNE_rnd h)

def caseBRnd (b : LIST × List LValueC) : LIST × List LValueC := (b.1.rnd, b.2.map lvRnd)

theorem caseBOk_rnd {b : LIST × List LValueC} (h : caseBOk b) : caseBOk (caseBRnd b) := by
  have e : (caseBRnd b).2.length = b.2.length := by simp [caseBRnd]
  refine ⟨by rw [e]; exact h.1, ?_⟩
  intro l hl
  obtain ⟨l', hl', rfl⟩ := List.mem_map.mp hl
  rw [lvalueBNE_rnd, ← h.2 l' hl', ← LIST.npl_rnd b.1]; rfl

theorem caseBC_rounds : caseBC.Rounds caseBRnd :=
  Comp.Rounds.weaken (P := fun x => True ∧ ∀ y ∈ x.2, True)
    (checked_rounds (m := caseBRnd) (andThen_rounds (d := fun l : LIST => seqC lvalueBC l.n2) listC_rounds (fun l => seqC_rounds lvalueBC_rounds l.n2) (fun _ => rfl))
      (fun _ _ h => caseBOk_rnd h)) (fun _ _ => ⟨trivial, fun _ _ => trivial⟩)

theorem particlePairsC_rounds : particlePairsC.Rounds LIST.rnd :=
  checkedNpl_rounds (fun l => by unfold particlePairsOk; rw [LIST.npl_rnd]; exact Iff.rfl)
theorem channelsC_rounds : channelsC.Rounds LIST.rnd :=
  checkedNpl_rounds (fun l => by unfold channelsOk; rw [LIST.npl_rnd]; exact Iff.rfl)
theorem rmlParametersC_rounds : rmlParametersC.Rounds LIST.rnd :=
  checkedNpl_rounds (fun l => by unfold rmlParametersOk; rw [LIST.npl_rnd])

def Background.rnd : Background → Background
  | .none => .none
  | .tabulated x y => .tabulated x.rnd y.rnd
  | .sammy ed eu r => .sammy (ENDFtk.rnd ed) (ENDFtk.rnd eu) (r.map ENDFtk.rnd)
  | .frohner ed eu r => .frohner (ENDFtk.rnd ed) (ENDFtk.rnd eu) (r.map ENDFtk.rnd)

theorem Background.lbk_rnd (b : Background) : b.rnd.lbk = b.lbk := by cases b <;> rfl

theorem backgroundP_rounds : backgroundP.Rounds Background.rnd where
  print := fun b t => by
    cases b with
    | none => rfl
    | tabulated x y =>
      show x.rnd.print t ++ y.rnd.print t = _
      rw [TAB1.print_rnd, TAB1.print_rnd]; rfl
    | sammy ed eu r => exact LIST.print_rnd ⟨ed, eu, 0, 0, 0, r⟩ t
    | frohner ed eu r => exact LIST.print_rnd ⟨ed, eu, 0, 0, 0, r⟩ t
  reals := fun {b} _ => by
    cases b with
    | none => rfl
    | tabulated x y =>
      show tab1C.reals x.rnd ++ tab1C.reals y.rnd = (tab1C.reals x ++ tab1C.reals y).map ENDFtk.rnd
      rw [tab1C_rounds.reals trivial, tab1C_rounds.reals trivial, List.map_append]
    | sammy ed eu r => rfl
    | frohner ed eu r => rfl

theorem tabulatedOk_rnd {b : TAB1 × TAB1} (h : tabulatedOk b) : tabulatedOk (b.1.rnd, b.2.rnd) := by
  unfold tabulatedOk at h ⊢
  rw [TAB1.np_rnd, TAB1.np_rnd]; exact h

theorem backgroundBodyC_rounds (lbk : Int) : (backgroundBodyC lbk).Rounds Background.rnd :=
  ite_rounds (via_rounds nilC_rounds backgroundP_rounds (fun _ => rfl))
    (ite_rounds (via_rounds (checked_rounds (andThen_rounds tab1C_rounds (fun _ => tab1C_rounds) (fun _ => rfl)) (fun _ _ h => tabulatedOk_rnd h))
        backgroundP_rounds (fun _ => rfl))
      (ite_rounds ⟨by rintro _ ⟨x, y, r, rfl, h⟩; exact ⟨_, _, _, rfl, by simpa using h⟩, backgroundP_rounds.print, fun h => backgroundP_rounds.reals h⟩
        (ite_rounds ⟨by rintro _ ⟨x, y, r, rfl, h⟩; exact ⟨_, _, _, rfl, by simpa using h⟩, backgroundP_rounds.print, fun h => backgroundP_rounds.reals h⟩
          (none_rounds backgroundP_rounds))))

def bgRnd (b : Int × Background) : Int × Background := (b.1, b.2.rnd)

theorem backgroundC_rounds (nch : Int) : (backgroundC nch).Rounds bgRnd where
  valid := fun {b} h => ⟨h.1, h.2.1, h.2.2.1, by
    show (backgroundBodyC b.2.rnd.lbk).Valid b.2.rnd
    rw [Background.lbk_rnd]; exact (backgroundBodyC_rounds _).valid h.2.2.2⟩
  print := fun b t => by simp only [backgroundC, bgRnd, Background.lbk_rnd, backgroundP_rounds.print]
  reals := fun {b} _ => by
    show Disco.zero :: Disco.zero :: backgroundP.reals b.2.rnd = (Disco.zero :: Disco.zero :: backgroundP.reals b.2).map ENDFtk.rnd
    rw [backgroundP_rounds.reals trivial]
    simp [ENDFtk.rnd, Rounding.zero]

theorem presentFrom_rnd (bs : List (Option Background)) (i : Nat) :
    presentFrom i (bs.map (Option.map Background.rnd)) = (presentFrom i bs).map bgRnd := by
  induction bs generalizing i with
  | nil => rfl
  | cons b bs ih =>
    cases b with
    | none => exact ih (i + 1)
    | some b =>
      show ((i : Int), b.rnd) :: presentFrom (i + 1) _ = _
      rw [ih]; rfl

theorem countPresent_rnd (bs : List (Option Background)) : countPresent (bs.map (Option.map Background.rnd)) = countPresent bs := by
  unfold countPresent
  rw [List.filter_map, List.length_map]
  congr 2
  funext o
  cases o <;> rfl

theorem backgroundsC_rounds (nch kbk : Int) : (backgroundsC nch kbk).Rounds (List.map (Option.map Background.rnd)) where
  valid := fun {bs} h => by
    refine ⟨by simpa using h.1, by simpa using h.2.1, by rw [countPresent_rnd]; exact h.2.2.1, ?_⟩
    rw [presentFrom_rnd]
    exact forall_map (backgroundC_rounds nch).valid h.2.2.2
  print := fun bs t => by
    simp only [backgroundsC, presentFrom_rnd]
    exact flatMap_print_rnd (backgroundC_rounds nch).print _ t
  reals := fun {bs} _ => by
    simp only [backgroundsC, presentFrom_rnd]
    exact flatMap_reals_rnd (fun a _ => (backgroundC_rounds nch).reals trivial)

def SpinGroup.rnd (b : SpinGroup) : SpinGroup := ((b.1.1.rnd, b.1.2.rnd), b.2.map (Option.map Background.rnd))

theorem channelsNCH_rnd (l : LIST) : channelsNCH l.rnd = channelsNCH l := by unfold channelsNCH; rw [LIST.npl_rnd]

theorem spinGroupC_rounds : spinGroupC.Rounds SpinGroup.rnd :=
  Comp.Rounds.weaken (P := fun _ => (True ∧ True) ∧ True)
    (andThen_rounds (m := fun x : LIST × LIST => (x.1.rnd, x.2.rnd)) (d := fun x : LIST × LIST => backgroundsC (channelsNCH x.1) (toInt32 x.1.l1))
      (andThen_rounds (d := fun _ => rmlParametersC) channelsC_rounds (fun _ => rmlParametersC_rounds) (fun _ => rfl))
      (fun x => backgroundsC_rounds (channelsNCH x.1) (toInt32 x.1.l1)) (fun x => by simp only [channelsNCH_rnd]; rfl))
    (fun _ _ => ⟨⟨trivial, trivial⟩, trivial⟩)

def rmlRnd (b : RmlHeader × LIST × List SpinGroup) : RmlHeader × LIST × List SpinGroup := (b.1, b.2.1.rnd, b.2.2.map SpinGroup.rnd)

theorem rmlC_rounds : rmlC.Rounds rmlRnd := atLeastOne_rounds (k := id) (contSeqC_rounds rmlHeader_rounds particlePairsC_rounds spinGroupC_rounds)

def ResParams.rnd : ResParams → ResParams
  | .special spi ap => .special (ENDFtk.rnd spi) (ENDFtk.rnd ap)
  | .slbw b => .slbw (bwRnd b)
  | .mlbw b => .mlbw (bwRnd b)
  | .reichMoore b => .reichMoore (bwRnd b)
  | .rml b => .rml (rmlRnd b)
  | .caseA b => .caseA (urRnd b)
  | .caseB b => .caseB (caseBRnd b)
  | .caseC b => .caseC (ucRnd b)

theorem resPrinter_rounds : ResParams.printer.Rounds ResParams.rnd where
  print := fun b t => by
    cases b with
    | special spi ap => exact printCont_rnd ⟨spi, ap, 0, 0, 0, 0⟩ t
    | slbw b => exact breitWignerC_rounds.print b t
    | mlbw b => exact breitWignerC_rounds.print b t
    | reichMoore b => exact reichMooreC_rounds.print b t
    | rml b => exact rmlC_rounds.print b t
    | caseA b => exact caseAC_rounds.print b t
    | caseB b => exact caseBC_rounds.print b t
    | caseC b => exact caseCC_rounds.print b t
  reals := fun {b} _ => by
    cases b with
    | special spi ap => rfl
    | slbw b => exact breitWignerC_rounds.reals (a := b) trivial
    | mlbw b => exact breitWignerC_rounds.reals (a := b) trivial
    | reichMoore b => exact reichMooreC_rounds.reals (a := b) trivial
    | rml b => exact rmlC_rounds.reals (a := b) trivial
    | caseA b => exact caseAC_rounds.reals (a := b) trivial
    | caseB b => exact caseBC_rounds.reals (a := b) trivial
    | caseC b => exact caseCC_rounds.reals (a := b) trivial

theorem ResParams.valid_rnd {b : ResParams} (h : b.Valid) : b.rnd.Valid := by
  cases b with
  | special spi ap => trivial
  | slbw b => exact breitWignerC_rounds.valid h
  | mlbw b => exact breitWignerC_rounds.valid h
  | reichMoore b => exact reichMooreC_rounds.valid h
  | rml b => exact rmlC_rounds.valid h
  | caseA b => exact caseAC_rounds.valid h
  | caseB b => exact caseBC_rounds.valid h
  | caseC b => exact caseCC_rounds.valid h

theorem ResParams.lru_rnd (b : ResParams) : b.rnd.lru = b.lru := by cases b <;> rfl
theorem ResParams.lrf_rnd (b : ResParams) : b.rnd.lrf = b.lrf := by cases b <;> rfl
theorem ResParams.lfwOk_rnd {lfw : Int} {b : ResParams} (h : b.lfwOk lfw) : b.rnd.lfwOk lfw := by cases b <;> exact h

theorem radiusC_rounds (nro : Int) : (radiusC nro).Rounds (Option.map TAB1.rnd) :=
  (checked_rounds (optC_rounds tab1C_rounds (nro = 1)) (fun _ _ h => h)).weaken (fun _ _ _ _ => trivial)

def ResRange.rnd (r : ResRange) : ResRange := ⟨ENDFtk.rnd r.el, ENDFtk.rnd r.eh, r.naps, r.parameters.rnd, r.radius.map TAB1.rnd⟩

theorem ResRange.nro_rnd (r : ResRange) : r.rnd.nro = r.nro := by
  unfold ResRange.nro ResRange.rnd
  cases r.radius <;> rfl

theorem optionsOk_rnd {r : ResRange} (h : optionsOk r) : optionsOk r.rnd := by
  unfold optionsOk at h ⊢
  simp only [ResRange.rnd, ResParams.lru_rnd, ResParams.lrf_rnd, ne_eq, Option.map_eq_none_iff]
  exact h

theorem resRangeC_rounds (lfw : Int) : (resRangeC lfw).Rounds ResRange.rnd where
  valid := fun {r} h => by
    refine ⟨h.1, ?_, ResParams.lfwOk_rnd h.2.2.1, ResParams.valid_rnd h.2.2.2.1, optionsOk_rnd h.2.2.2.2⟩
    rw [ResRange.nro_rnd]
    exact (radiusC_rounds _).valid h.2.1
  print := fun r t => by
    simp only [resRangeC, ResRange.nro_rnd]
    simp only [ResRange.rnd, ResParams.lru_rnd, ResParams.lrf_rnd, resPrinter_rounds.print, (radiusC_rounds _).print]
    exact congrArg (· ++ _) (printCont_rnd ⟨r.el, r.eh, _, _, _, _⟩ t)
  reals := fun {r} _ => by
    simp only [resRangeC, ResRange.nro_rnd]
    simp only [ResRange.rnd, List.map_append]
    rw [resPrinter_rounds.reals trivial, (radiusC_rounds _).reals trivial]
    rfl

def Isotope.rnd (b : Isotope) : Isotope := ⟨b.zai, ENDFtk.rnd b.abn, b.lfw, b.ranges.map ResRange.rnd⟩

theorem Isotope.valid_rnd {b : Isotope} (h : b.Valid) : b.rnd.Valid :=
  ⟨h.1, by simpa [Isotope.rnd] using h.2.1, by
    intro x hx
    obtain ⟨y, hy, rfl⟩ := List.mem_map.mp hx
    obtain ⟨lfw, hl⟩ := h.2.2 y hy
    exact ⟨lfw, (resRangeC_rounds lfw).valid hl⟩⟩

theorem Isotope.print_rnd (b : Isotope) (t : Nums) : b.rnd.print t = b.print t := by
  simp only [Isotope.print, Isotope.rnd, List.length_map]
  rw [flatMap_print_rnd (resRangeC_rounds 0).print]
  congr 1
  simp [printCont, contText, ENDFtk.rnd, Rounding.write]

theorem Isotope.reals_rnd {b : Isotope} (h : SevenDigits b.zai) : b.rnd.reals = b.reals.map ENDFtk.rnd := by
  simp only [Isotope.reals, Isotope.rnd, List.map_append]
  rw [flatMap_reals_rnd (fun a _ => (resRangeC_rounds 0).reals trivial)]
  simp [rnd_ofInt h]

theorem mf2mt151_rounds : mf2mt151.Rounds (List.map Isotope.rnd) (fun b => ∀ x ∈ b, SevenDigits x.zai) where
  valid := fun h => ⟨by simpa using h.1, by simpa using h.2.1, forall_map Isotope.valid_rnd h.2.2⟩
  head := fun b => by simp only [mf2mt151, List.length_map]
  body := fun _ b t => by simp only [mf2mt151, List.flatMap_map, Isotope.print_rnd]
  reals := fun h => flatMap_reals_rnd (fun a ha => Isotope.reals_rnd (h a ha))
  mtOk := fun mt b h x hx => by
    obtain ⟨y, hy, rfl⟩ := List.mem_map.mp hx
    intro z hz
    obtain ⟨w, hw, rfl⟩ := List.mem_map.mp hz
    exact ResParams.lfwOk_rnd (h y hy w hw)

end ENDFtk

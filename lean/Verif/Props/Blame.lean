import Verif.Section.Blame
/-
  C49: what must be in a text for the behaviour of the parser to be undefined.
-/
set_option linter.unusedVariables false
set_option linter.unusedSectionVars false
set_option linter.unusedSimpArgs false
namespace ENDFtk.Props
variable [Disco]

/-! ### specification -/

/-- The number is larger than `m` or smaller than `-m`. -/
def Beyond (m n : Int) : Prop := m < n ∨ n < -m

/-- What a record (its line number, counted from 0, and the data of its line) must look like for the behaviour to be undefined, for each type of section;
    `head` is the line of the HEAD record. -/
def Culprit (T : SectionType) (head : Cont) (k : Nat) (c : Cont) : Prop :=
  match T with
  -- unresolved resonances with energy dependent parameters, or too many resonances
  | .mf2mt151 => (toInt32 c.l1 = 2 ∧ (toInt32 c.l2 = 1 ∨ toInt32 c.l2 = 2)) ∨ Beyond 300000000 c.n2
  -- too many reactions, dilutions or energies
  | .mf2mt152 => Beyond 1200 c.l1 ∨ Beyond 1200 c.l2 ∨ Beyond 1200 c.n2
  -- more discrete energies than energies, a negative number of them or of angular parameters, or large counts
  | .mf6 | .mf26 => c.l1 < 0 ∨ c.l2 ≤ -2 ∨ (1 ≤ c.l1 ∧ c.n1 ≤ (c.l1 - 1) * (c.l2 + 2)) ∨ Beyond 46000 c.l2 ∨ Beyond 46000 c.n2
  -- the number of non principal scatterers
  | .mf7mt4 => k = 1 ∧ (c.n2 < 0 ∨ 3 < c.n2)
  | .mf7mt451 | .mf8mt454 | .mf8mt457 | .mf8mt459 | .mf28 => Beyond 300000000 c.n2
  -- transition probabilities, but no transitions
  | .mf12 => toInt32 head.l1 = 2 ∧ k = 1 ∧ c.n2 = 0
  -- a rectangular matrix without rows, or large counts
  | .mf31 | .mf33 | .mf40 => (c.l2 = 6 ∧ c.n2 = 0) ∨ Beyond 2000000000 c.n1 ∨ Beyond 46000 c.n2
  | .mf34 => (c.l2 = 6 ∧ c.n2 = 0) ∨ Beyond 46000 c.n1 ∨ Beyond 46000 c.n2
  | .mf35 => Beyond 2000000000 c.n1 ∨ Beyond 46000 c.n2
  | _ => False

/-! ### the records -/

/-- A large count. -/
def QBig (m : Int) (c : Cont) : Prop := Beyond m c.n2
def QCont (c : Cont) : Prop :=
  c.l1 < 0 ∨ c.l2 ≤ -2 ∨ (1 ≤ c.l1 ∧ c.n1 ≤ (c.l1 - 1) * (c.l2 + 2)) ∨ Beyond 46000 c.l2 ∨ Beyond 46000 c.n2
def QCov (m : Int) (c : Cont) : Prop := (c.l2 = 6 ∧ c.n2 = 0) ∨ Beyond m c.n1 ∨ Beyond 46000 c.n2
def QSquare (c : Cont) : Prop := Beyond 2000000000 c.n1 ∨ Beyond 46000 c.n2
def QDil (c : Cont) : Prop := Beyond 1200 c.l1 ∨ Beyond 1200 c.l2 ∨ Beyond 1200 c.n2
def QRes (c : Cont) : Prop := (toInt32 c.l1 = 2 ∧ (toInt32 c.l2 = 1 ∨ toInt32 c.l2 = 2)) ∨ Beyond 300000000 c.n2

theorem within {m n : Int} (hm : m < 2147483648) (h : ¬Beyond m n) : toInt32 n = n ∧ -m ≤ n ∧ n ≤ m := by
  unfold Beyond at h
  exact ⟨toInt32_of ⟨by omega, by omega⟩, by omega, by omega⟩

theorem beyond_of {m n : Int} (hm : m < 2147483648) {P : Prop} (hp : P) (h : toInt32 n = n → -m ≤ n → n ≤ m → ¬P) : Beyond m n := by
  by_cases hb : Beyond m n
  · exact hb
  · obtain ⟨h1, h2, h3⟩ := within hm hb
    exact (h h1 h2 h3 hp).elim

instance : CBlames (QBig 300000000) elementC := list_checked fun l _ h => by
  unfold elementOv at h
  exact beyond_of (by decide) h fun e _ _ => by show ¬Over (toInt32 l.n2 * 6); rw [show toInt32 l.n2 = l.n2 from e]; simp only [listLine] at *; simp only [Over]; omega
instance : CBlames (QBig 300000000) yieldsC := list_checked fun l _ h => by
  unfold yieldsOv at h
  exact beyond_of (by decide) h fun e _ _ => by show ¬Over (toInt32 l.n2 * 4); rw [show toInt32 l.n2 = l.n2 from e]; simp only [listLine] at *; simp only [Over]; omega
instance : CBlames (QBig 300000000) decayModesC := list_checked fun l _ h => by
  obtain ⟨-, h⟩ : decayModesOv l := h
  exact beyond_of (by decide) h fun e _ _ => by show ¬Over (6 * toInt32 l.n2); rw [show toInt32 l.n2 = l.n2 from e]; simp only [listLine] at *; simp only [Over]; omega
instance : CBlames (QBig 300000000) subshellC := list_checked fun l _ h => by
  have h : Over (toInt32 l.n2 + 1) ∨ Over ((toInt32 l.n2 + 1) * 6) := h
  exact beyond_of (by decide) h fun e _ _ => by
    show ¬(Over (toInt32 l.n2 + 1) ∨ Over ((toInt32 l.n2 + 1) * 6)); rw [show toInt32 l.n2 = l.n2 from e]; simp only [listLine] at *; simp only [Over]; omega

theorem mul_bound {a b : Int} {A B : Nat} (ha : -(A : Int) ≤ a ∧ a ≤ A) (hb : -(B : Int) ≤ b ∧ b ≤ B) : -((A * B : Nat) : Int) ≤ a * b ∧ a * b ≤ (A * B : Nat) := by
  have h1 : a.natAbs ≤ A := by omega
  have h2 : b.natAbs ≤ B := by omega
  have h3 : (a * b).natAbs ≤ A * B := by rw [Int.natAbs_mul]; exact Nat.mul_le_mul h1 h2
  omega

instance : CBlames QDil dilutionC := list_checked fun l _ h => by
  refine Classical.byContradiction fun hn => ?_
  have hn : ¬(Beyond 1200 l.l1 ∨ Beyond 1200 l.l2 ∨ Beyond 1200 l.n2) := hn
  rw [not_or, not_or] at hn
  obtain ⟨a1, a2, a3⟩ := within (by decide) hn.1
  obtain ⟨b1, b2, b3⟩ := within (by decide) hn.2.1
  obtain ⟨c1, c2, c3⟩ := within (by decide) hn.2.2
  unfold dilutionOv at h
  rw [a1, b1, c1] at h
  have h1 := mul_bound (a := l.l1) (b := l.l2) (A := 1200) (B := 1200) ⟨a2, a3⟩ ⟨b2, b3⟩
  have h2 := mul_bound (a := l.l1 * l.l2 + 1) (b := l.n2) (A := 1440001) (B := 1200) (by omega) ⟨c2, c3⟩
  simp only [Over] at h
  omega

theorem square_within {ls ne nt : Int} (h1 : -46000 ≤ ne ∧ ne ≤ 46000) (h2 : -2000000000 ≤ nt ∧ nt ≤ 2000000000) : squareSizeCheck ls ne nt ≠ .error .ub := by
  have q1 := mul_bound (a := ne) (b := ne - 1) (A := 46000) (B := 46001) h1 (by omega)
  have q2 := mul_bound (a := ne - 1) (b := ne - 1) (A := 46001) (B := 46001) (by omega) (by omega)
  have o1 : ¬(Over (nt - ne) ∨ Over (ne - 1)) := by simp only [Over]; omega
  have o2 : ¬Over (ne * (ne - 1)) := by simp only [Over]; omega
  have o3 : ¬Over ((ne - 1) * (ne - 1)) := by simp only [Over]; omega
  unfold squareSizeCheck
  simp only [if_neg o1, if_neg o2, if_neg o3]
  intro h
  split at h <;> split at h <;> cases h

theorem square_blame {l : LIST} {ls : Int} (h : squareSizeCheck ls (toInt32 l.n2) (toInt32 l.npl) = .error .ub) : QSquare (listLine l) := by
  refine Classical.byContradiction fun hn => ?_
  have hn : ¬(Beyond 2000000000 l.npl ∨ Beyond 46000 l.n2) := hn
  rw [not_or] at hn
  obtain ⟨a1, a2, a3⟩ := within (by decide) hn.1
  obtain ⟨b1, b2, b3⟩ := within (by decide) hn.2
  rw [a1, b1] at h
  exact square_within ⟨b2, b3⟩ ⟨a2, a3⟩ h

instance : CBlames QSquare squareMatrix35C := list_checkedE fun l h => by
  unfold squareMatrix35Check at h
  split at h
  · cases h
  · exact square_blame h

theorem beyond_mono {m m' n : Int} (h : Beyond m' n) (hm : m ≤ m') : Beyond m n := by unfold Beyond at h ⊢; omega

theorem explicit_blame {m : Int} (hm : m ≤ 2000000000) : CBlames (QCov m) explicitC := list_checkedE fun l h => by
  have two : Over (2 * toInt32 l.n2) → Beyond 46000 l.n2 := fun ho => beyond_of (by decide) ho fun e _ _ => by rw [e]; simp only [Over]; omega
  unfold explicitCheck at h
  split at h
  · refine .inr (.inr (two (Classical.byContradiction fun hn => ?_)))
    unfold covariancePairsCheck at h
    simp only [if_neg hn] at h
    repeat' split at h
    all_goals cases h
  split at h
  · unfold squareMatrixCheck at h
    split at h
    · cases h
    · rcases square_blame h with h | h
      · exact .inr (.inl (beyond_mono h hm))
      · exact .inr (.inr h)
  split at h
  · rename_i h6
    unfold rectangularMatrixCheck at h
    split at h
    · cases h
    split at h
    · rename_i h0
      by_cases hz : l.n2 = 0
      · exact .inl ⟨h6, hz⟩
      · refine .inr (.inr (beyond_of (by decide) h0 fun e _ _ => ?_))
        rw [show toInt32 l.n2 = l.n2 from e]; exact hz
    · split at h <;> cases h
  · cases h

instance : CBlames (QCov 2000000000) explicitC := explicit_blame (by decide)
instance : CBlames (QCov 46000) explicitC := explicit_blame (by decide)
instance {Q : Cont → Prop} : CBlames Q derivedC := .ofLaw derivedC_law
instance {m : Int} [CBlames (QCov m) explicitC] : CBlames (QCov m) reactionBlockC := by cblam reactionBlockC
instance {m : Int} [CBlames (QCov m) explicitC] : CBlames (QCov m) legendreBlockC := by cblam legendreBlockC
instance {m : Int} [CBlames (QCov m) explicitC] : CBlames (QCov m) levelBlockC := by cblam levelBlockC

instance : CBlames (QBig 300000000) lvalueC := list_checked fun l _ h => by
  obtain ⟨-, -, h⟩ : lvalueOv l := h
  exact beyond_of (by decide) h fun e _ _ => by show ¬Over (6 * toInt32 l.n2); rw [show toInt32 l.n2 = l.n2 from e]; simp only [listLine] at *; simp only [Over]; omega


/-! ### files 6 and 26 -/

theorem stride_short {α : Type} {m : Nat} (hm : 0 < m) {l : List α} {n : Int} (h : ((strideL m l).length : Int) < n) : (l.length : Int) ≤ (n - 1) * m := by
  obtain ⟨k, rfl⟩ : ∃ k : Nat, n = k + 1 := ⟨(n - 1).toNat, by omega⟩
  rw [strideL_length hm] at h
  have h1 : (l.length + m - 1) / m < k + 1 := by omega
  rw [Nat.div_lt_iff_lt_mul hm, Nat.add_mul] at h1
  have : ((l.length : Nat) : Int) ≤ ((k * m : Nat) : Int) := by omega
  rw [Int.natCast_mul] at this
  rw [show (k : Int) + 1 - 1 = k by omega]
  exact this

theorem continuum_blame {lang : Int} {l : LIST} (h : continuumCheck lang l = .error .ub) : QCont (listLine l) := by
  unfold continuumCheck at h
  split at h
  · cases h
  split at h
  · rename_i h1
    by_cases a : 2 + l.l2 ≤ 0
    · exact .inr (.inl (show l.l2 ≤ -2 by omega))
    by_cases b : l.l1 < 0
    · exact .inl b
    have c : ((strideL (2 + l.l2).toNat l.data).length : Int) < l.l1 := by
      rcases h1 with h1 | h1 | h1
      · exact (a h1).elim
      · exact (b h1).elim
      · exact h1
    have d := stride_short (m := (2 + l.l2).toNat) (by omega) c
    rw [show (((2 + l.l2).toNat : Nat) : Int) = l.l2 + 2 by omega] at d
    exact .inr (.inr (.inl ⟨show 1 ≤ l.l1 by omega, d⟩))
  split at h
  · cases h
  split at h
  · rename_i h1
    refine Classical.byContradiction fun hn => ?_
    have hn : ¬(l.l1 < 0 ∨ l.l2 ≤ -2 ∨ (1 ≤ l.l1 ∧ l.npl ≤ (l.l1 - 1) * (l.l2 + 2)) ∨ Beyond 46000 l.l2 ∨ Beyond 46000 l.n2) := hn
    simp only [not_or] at hn
    obtain ⟨b1, b2, b3⟩ := within (by decide) hn.2.2.2.1
    obtain ⟨c1, c2, c3⟩ := within (by decide) hn.2.2.2.2
    rw [b1, c1] at h1
    have h2 := mul_bound (a := l.n2) (b := l.l2 + 2) (A := 46000) (B := 46002) ⟨c2, c3⟩ (by omega)
    simp only [Over] at h1
    omega
  split at h
  · cases h
  split at h
  · cases h
  · cases h

instance (r : TAB2) : CBlames QCont (continuumElemC r) := by
  unfold continuumElemC
  exact list_checkedE' (fun {t s a s'} h => by
    split at h
    · exact h
    · obtain ⟨b, s1, h1, h2⟩ := Parser.bind_eq_ok.mp h
      rw [if_neg (fun h => h)] at h2; cases h2) fun l h => continuum_blame h
instance (r : TAB2) : CBlames QCont (continuum26ElemC r) := by
  unfold continuum26ElemC
  exact list_checkedE' (fun {t s a s'} h => by
    split at h
    · exact h
    · obtain ⟨b, s1, h1, h2⟩ := Parser.bind_eq_ok.mp h
      rw [if_neg (fun h => h)] at h2; cases h2) fun l h => continuum_blame h

theorem qcont_n2 {l : LIST} {P : Prop} (hp : P) (h : toInt32 l.n2 = l.n2 → -46000 ≤ l.n2 → l.n2 ≤ 46000 → ¬P) : QCont (listLine l) :=
  .inr (.inr (.inr (.inr (beyond_of (by decide) hp h))))

instance : CBlames QCont (listC.checked twoBodyOk twoBodyOv) := list_checked fun l _ h => by
  obtain ⟨-, h⟩ : twoBodyOv l := h
  exact qcont_n2 h fun e _ _ => by rw [e]; simp only [Over]; omega
instance : CBlames QCont (listC.checked twoBody26Ok twoBody26Ov) := list_checked fun l _ h => by
  obtain ⟨-, h⟩ : twoBody26Ov l := h
  exact qcont_n2 h fun e _ _ => by rw [e]; simp only [Over]; omega
instance : CBlames QCont (listC.checked chargedOk chargedOv) := list_checked fun l _ h => by
  exact qcont_n2 h fun e _ _ => by unfold chargedOv; rw [e]; simp only [Over]; omega

instance : CBlames QCont continuumC := by cblam continuumC
instance : CBlames QCont continuum26C := by cblam continuum26C
instance : CBlames QCont twoBodyC := by cblam twoBodyC
instance : CBlames QCont twoBody26C := by cblam twoBody26C
instance : CBlames QCont chargedC := by cblam chargedC
instance {Q : Cont → Prop} : CBlames Q laboratoryC := .ofLaw laboratoryC_law
instance (law : Int) (t : Nums) : Blames QCont (Law6.read law t) := by unfold Law6.read; blam
instance (t : Nums) : Blames QCont (Product6.read t) := by unfold Product6.read; blam
instance (law : Int) : CBlames QCont (law26C law) := by cblam law26C
instance : CBlames QCont product26C := by cblam product26C


/-! ### file 34 -/

instance (mt : Int) : CBlames (QCov 46000) (reactionBlock34C mt) := ⟨fun t => by
  dsimp only [reactionBlock34C]
  refine Blames.mapErr catchStd_isUb ⟨fun {s} h => ?_⟩
  cases hc : readCont t s with
  | error e =>
    rw [Parser.bind_err hc] at h
    cases h
    exact Blames.blame (p := readCont t) hc
  | ok r =>
    obtain ⟨c, s1⟩ := r
    rw [Parser.bind_ok hc] at h
    by_cases hb : Beyond 46000 c.n1 ∨ Beyond 46000 c.n2
    · exact ⟨0, c, (cont_line hc).1, .inr hb⟩
    · rw [not_or] at hb
      obtain ⟨a1, a2, a3⟩ := within (by decide) hb.1
      obtain ⟨b1, b2, b3⟩ := within (by decide) hb.2
      have ho : ¬legendreSizeOv (toInt32 c.n1) (toInt32 c.n2) (mt == toInt32 c.l2) := by
        have q1 := mul_bound (a := c.n1) (b := c.n1 + 1) (A := 46000) (B := 46001) ⟨a2, a3⟩ (by omega)
        have q2 := mul_bound (a := c.n1) (b := c.n2) (A := 46000) (B := 46000) ⟨a2, a3⟩ ⟨b2, b3⟩
        rw [a1, b1]
        unfold legendreSizeOv Over
        split <;> omega
      rw [if_neg ho] at h
      have : Blames (QCov 46000) (do
          let bs ← (seqC legendreBlockC (toInt32 (if mt = c.l2 then Int.tdiv (c.n1 * (c.n2 + 1)) 2 else c.n1 * c.n2))).read t
          if legendreSizeOk (toInt32 c.n1) (toInt32 c.n2) (asInt bs.length) (mt == toInt32 c.l2) then
            (pure ⟨toInt32 c.l2, toInt32 c.n1, toInt32 c.n2, bs⟩ : Parser ReactionBlock34)
          else Parser.fail .exc) := by blam
      obtain ⟨k, d, h1, h2⟩ := this.blame h
      obtain ⟨k', h3⟩ := Blames.later hc h1
      exact ⟨k', d, h3, h2⟩⟩

/-! ### file 2 -/

theorem CBlames.mono {Q Q' : Cont → Prop} (hq : ∀ c, Q c → Q' c) {α : Type} {c : Comp α} (h : CBlames Q c) : CBlames Q' c :=
  ⟨fun t => ⟨fun hs => by obtain ⟨k, d, h1, h2⟩ := (h.read t).blame hs; exact ⟨k, d, h1, hq d h2⟩⟩⟩

instance : CBlames (QBig 300000000) (listC.checked lvalueAOk lvalueAOv) := list_checked fun l _ h => by
  have h : Over (6 * toInt32 l.n2) := h
  exact beyond_of (by decide) h fun e _ _ => by show ¬Over (6 * toInt32 l.n2); rw [show toInt32 l.n2 = l.n2 from e]; simp only [listLine] at *; simp only [Over]; omega
instance : CBlames (QBig 300000000) breitWignerC := by cblam breitWignerC
instance : CBlames (QBig 300000000) reichMooreC := by cblam reichMooreC
instance : CBlames (QBig 300000000) caseAC := by cblam caseAC
instance {Q : Cont → Prop} : CBlames Q rmlC := .ofLaw rmlC_law
instance {Q : Cont → Prop} : CBlames Q specialC := .ofLaw specialC_law
instance {Q : Cont → Prop} (n : Int) : CBlames Q (radiusC n) := .ofLaw (radiusC_law n)

theorem resParams_blame {lru lrf lfw : Int} (h : ¬(lru = 2 ∧ (lrf = 1 ∨ lrf = 2))) : CBlames (QBig 300000000) (resParamsC lru lrf lfw) := by
  unfold resParamsC
  split
  · infer_instance
  split
  · infer_instance
  split
  · split
    · exact (h ⟨by assumption, .inl (by assumption)⟩).elim
    split
    · exact (h ⟨by assumption, .inr (by assumption)⟩).elim
    · infer_instance
  · infer_instance

instance (lfw : Int) : CBlames QRes (resRangeC lfw) := ⟨fun t => by
  dsimp only [resRangeC]
  refine ⟨fun {s} h => ?_⟩
  cases hc : readCont t s with
  | error e =>
    rw [Parser.bind_err hc] at h
    cases h
    exact Blames.blame (p := readCont t) hc
  | ok r =>
    obtain ⟨c, s1⟩ := r
    rw [Parser.bind_ok hc] at h
    by_cases hb : toInt32 c.l1 = 2 ∧ (toInt32 c.l2 = 1 ∨ toInt32 c.l2 = 2)
    · exact ⟨0, c, (cont_line hc).1, .inl hb⟩
    · have := CBlames.mono (Q' := QRes) (fun _ => .inr) (resParams_blame (lfw := lfw) hb)
      have : Blames QRes (do
          let radius ← (radiusC (toInt32 c.n1)).read t
          let parameters ← (resParamsC (toInt32 c.l1) (toInt32 c.l2) lfw).read t
          if optionsOk ⟨c.c1, c.c2, toInt32 c.n2, parameters, radius⟩ then (pure ⟨c.c1, c.c2, toInt32 c.n2, parameters, radius⟩ : Parser ResRange)
          else Parser.fail .exc) := by blam
      obtain ⟨k, d, h1, h2⟩ := this.blame h
      obtain ⟨k', h3⟩ := Blames.later hc h1
      exact ⟨k', d, h3, h2⟩⟩

instance (t : Nums) : Blames QRes (Isotope.read t) := by unfold Isotope.read; blam


/-! ### sections -/

theorem checkBase_ub (za : Int) (awr : Dbl) (mt : Option Int) : checkBase za awr mt ≠ .error .ub := by
  unfold checkBase
  intro h
  repeat' split at h
  all_goals cases h

theorem checkHead_ub (head : Division) (mat mf : Int) (mt : Option Int) : checkHead head mat mf mt ≠ .error .ub := by
  unfold checkHead
  intro h
  split at h
  · rename_i e he; cases h; exact checkBase_ub _ _ _ he
  repeat' split at h
  all_goals cases h

theorem parse_ub {β : Type} {D : SecDef β} {s : St} (h : D.parse s = .error .ub) :
    ∃ head t s', LineShows 0 s head.base ∧ s'.rest = afterLine s.rest ∧ D.read head t s' = .error .ub := by
  unfold SecDef.parse at h
  cases hd : readDivision s with
  | error e =>
    rw [Parser.bind_err hd] at h
    cases h
    have := readDivision_reads s
    rw [hd] at this
    exact (stdErr_ub this).elim
  | ok r =>
    obtain ⟨head, s1⟩ := r
    rw [Parser.bind_ok hd] at h
    obtain ⟨l0, -, e0⟩ := division_line hd
    refine ⟨head, D.recNums head head.tail.mat, s1, l0, e0, ?_⟩
    unfold SecDef.readSect at h
    obtain ⟨e, h1, h2⟩ := Parser.mapErr_error.mp h
    cases catchStd_isUb e h2
    generalize hx : (if D.checksHead then checkHead head head.tail.mat D.mf (D.mtCheck head) else checkBase (headZA head) head.base.c2 (D.mtCheck head)) = x at h1
    cases x with
    | error e =>
      rw [Parser.bind_err (e := e) rfl] at h1
      cases h1
      split at hx
      · exact (checkHead_ub _ _ _ _ hx).elim
      · exact (checkBase_ub _ _ _ hx).elim
    | ok u =>
      rw [Parser.bind_ok (a := u) (s' := s1) rfl] at h1
      cases hr : D.read head (D.recNums head head.tail.mat) s1 with
      | error e => rw [Parser.bind_err hr] at h1; cases h1; rfl
      | ok r =>
        obtain ⟨b, s2⟩ := r
        rw [Parser.bind_ok hr] at h1
        cases hs : readSEND head.tail.mat D.mf s2 with
        | ok r => rw [Parser.bind_ok hs] at h1; cases h1
        | error e =>
          rw [Parser.bind_err hs] at h1
          cases h1
          have := readSEND_reads head.tail.mat D.mf s2
          rw [hs] at this
          exact (stdErr_ub this).elim

theorem list_first {f : LIST → Except Err Unit} {t : Nums} {s : St} (h : (listC.checkedE f).read t s = .error .ub) :
    ∃ l, LineShows 0 s (listLine l) ∧ f l = .error .ub := by
  have h : (do let a ← readLIST t; liftE (f a); pure a : Parser LIST) s = .error .ub := h
  cases hl : readLIST t s with
  | error e =>
    rw [Parser.bind_err hl] at h
    cases h
    have := listC_law.reads t s
    rw [show listC.read t s = readLIST t s from rfl, hl] at this
    exact (stdErr_ub this).elim
  | ok r =>
    obtain ⟨l, s'⟩ := r
    rw [Parser.bind_ok hl] at h
    refine ⟨l, list_line hl, ?_⟩
    cases hf : f l with
    | ok u => rw [hf] at h; cases h
    | error e => rw [hf] at h; rw [Parser.bind_err (e := e) rfl] at h; cases h; rfl

instance {Q : Cont → Prop} (b : LIST) : CBlames Q (scatteringLawC b) := .ofLaw (scatteringLawC_law b)
instance {Q : Cont → Prop} (l : List Dbl) : CBlames Q (temperaturesC l) := .ofLaw (temperaturesC_law l)
instance {Q : Cont → Prop} (n : Int) : CBlames Q (totalPartialsC n) := .ofLaw (totalPartialsC_law n)
instance {Q : Cont → Prop} : CBlames Q decayEnergiesC := .ofLaw decayEnergiesC_law
instance {Q : Cont → Prop} : CBlames Q decaySpectrumC := .ofLaw decaySpectrumC_law

/-- If the behaviour of parsing a section is undefined, then a line of the text shows a record that is to blame for it. -/
theorem C49_blame (T : SectionType) {s : St} (h : T.defn.parse s = .error .ub) :
    ∃ head k c, LineShows 0 s head ∧ LineShows k s c ∧ Culprit T head k c := by
  have std : T.clean = true → False := fun hc => by
    have := C49_std_only_partial T hc h
    cases this
  obtain ⟨head, t, s', h1, h2, h3⟩ := parse_ub h
  have key : ∀ {Q : Cont → Prop}, Blames Q (T.defn.read head t) → (∀ k c, Q c → Culprit T head.base k c) →
      ∃ head k c, LineShows 0 s head ∧ LineShows k s c ∧ Culprit T head k c := fun hb hq => by
    obtain ⟨k, c, a, b⟩ := hb.blame h3
    exact ⟨_, k + 1, c, h1, (line_succ h2).mp a, hq _ _ b⟩
  cases T with
  | mf2mt151 => exact key (Q := QRes) (by simp only [SectionType.defn, mf2mt151]; blam) fun _ _ h => h
  | mf2mt152 => exact key (Q := QDil) (by simp only [SectionType.defn, mf2mt152]; blam) fun _ _ h => h
  | mf6 => exact key (Q := QCont) (by simp only [SectionType.defn, mf6]; blam) fun _ _ h => h
  | mf26 => exact key (Q := QCont) (by simp only [SectionType.defn, mf26]; blam) fun _ _ h => h
  | mf7mt451 => exact key (Q := QBig 300000000) (by simp only [SectionType.defn, mf7mt451]; blam) fun _ _ h => h
  | mf8mt454 => exact key (Q := QBig 300000000) (by simp only [SectionType.defn, mf8mt454, mf8yields]; blam) fun _ _ h => h
  | mf8mt459 => exact key (Q := QBig 300000000) (by simp only [SectionType.defn, mf8mt459, mf8yields]; blam) fun _ _ h => h
  | mf8mt457 => exact key (Q := QBig 300000000) (by simp only [SectionType.defn, mf8mt457]; blam) fun _ _ h => h
  | mf28 => exact key (Q := QBig 300000000) (by simp only [SectionType.defn, mf28]; blam) fun _ _ h => h
  | mf31 => exact key (Q := QCov 2000000000) (by simp only [SectionType.defn, mf31]; blam) fun _ _ h => h
  | mf33 => exact key (Q := QCov 2000000000) (by simp only [SectionType.defn, mf33]; blam) fun _ _ h => h
  | mf40 => exact key (Q := QCov 2000000000) (by simp only [SectionType.defn, mf40]; blam) fun _ _ h => h
  | mf34 => exact key (Q := QCov 46000) (by simp only [SectionType.defn, mf34]; blam) fun _ _ h => h
  | mf35 => exact key (Q := QSquare) (by simp only [SectionType.defn, mf35]; blam) fun _ _ h => h
  | mf7mt4 =>
    have h3 : (do
        let c ← constantsC.read t
        let l ← (scatteringLawC c).read t
        let p ← readTAB1 t
        let s ← (temperaturesC (functionTypes c)).read t
        if toInt32 head.base.l2 ≠ 0 ∧ toInt32 head.base.l2 ≠ 1 then Parser.fail .exc
        else pure ⟨toInt32 head.base.l2, toInt32 head.base.n1, c, l, p, s⟩ : Parser ScatteringData) s' = .error .ub := h3
    cases hc : constantsC.read t s' with
    | error e =>
      rw [Parser.bind_err hc] at h3
      cases h3
      obtain ⟨l, hl, hf⟩ := list_first hc
      refine ⟨_, 1, listLine l, h1, (line_succ h2).mp hl, rfl, ?_⟩
      show l.n2 < 0 ∨ 3 < l.n2
      unfold constantsCheck at hf
      split at hf
      · cases hf
      split at hf
      · rename_i ho
        by_cases hb : l.n2 < 0 ∨ 3 < l.n2
        · exact hb
        · rw [toInt32_of ⟨by omega, by omega⟩] at ho
          simp only [Over] at ho
          omega
      split at hf
      · cases hf
      split at hf
      · cases hf
      split at hf
      · assumption
      · cases hf
    | ok r =>
      obtain ⟨c, s2⟩ := r
      rw [Parser.bind_ok hc] at h3
      have : Blames (fun _ => False) (do
          let l ← (scatteringLawC c).read t
          let p ← readTAB1 t
          let s ← (temperaturesC (functionTypes c)).read t
          if toInt32 head.base.l2 ≠ 0 ∧ toInt32 head.base.l2 ≠ 1 then Parser.fail .exc
          else pure ⟨toInt32 head.base.l2, toInt32 head.base.n1, c, l, p, s⟩ : Parser ScatteringData) := by blam
      obtain ⟨_, _, _, h⟩ := this.blame h3
      exact h.elim
  | mf12 =>
    have h3 : (if toInt32 head.base.l1 = 1 then do
        let b ← (totalPartialsC (toInt32 head.base.n1)).read t
        pure (.multiplicities b)
      else if toInt32 head.base.l1 = 2 then do
        let b ← transitionC.read t
        pure (.transitions b)
      else Parser.fail .exc : Parser PhotonProduction) s' = .error .ub := h3
    split at h3
    · have : Blames (fun _ => False) (do
          let b ← (totalPartialsC (toInt32 head.base.n1)).read t
          pure (.multiplicities b) : Parser PhotonProduction) := by blam
      obtain ⟨_, _, _, h⟩ := this.blame h3
      exact h.elim
    split at h3
    · rename_i hlo
      cases hc : transitionC.read t s' with
      | ok r =>
        obtain ⟨b, s2⟩ := r
        rw [Parser.bind_ok hc] at h3
        cases h3
      | error e =>
        rw [Parser.bind_err hc] at h3
        cases h3
        obtain ⟨l, hl, hf⟩ := list_first hc
        refine ⟨_, 1, listLine l, h1, (line_succ h2).mp hl, hlo, rfl, ?_⟩
        show l.n2 = 0
        unfold transitionCheck at hf
        split at hf
        · assumption
        split at hf <;> cases hf
    · cases h3
  | _ => exact (std rfl).elim

/-- A text none of whose lines shows such a record is either parsed, or an exception derived from `std::exception` is thrown. -/
theorem C49_safe_texts (T : SectionType) {s : St} (hs : ∀ head k c, LineShows 0 s head → LineShows k s c → ¬Culprit T head k c) {er : Err}
    (h : T.defn.parse s = .error er) : er.isStd = true := by
  rcases C49_std_or_ub T h with h' | rfl
  · exact h'
  · obtain ⟨head, k, c, h1, h2, h3⟩ := C49_blame T h
    exact (hs head k c h1 h2 h3).elim

end ENDFtk.Props

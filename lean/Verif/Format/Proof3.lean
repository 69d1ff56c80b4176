import Verif.Format.Proof2
/-
  The readers of files 9, 10, 12-15, 26, 28, 31, 33-35, 40 and of MF2 MT152 accept exactly the formats of Verif/Format/Spec.lean.
-/
set_option linter.unusedVariables false
set_option linter.unusedSectionVars false
set_option linter.unusedSimpArgs false
namespace ENDFtk
variable [Disco]

variable {t : Nums}

/-! ### files 9, 10, 12, 13 -/

theorem mfProducts_is (mf : Int) (head : Division) : Is ((mfProducts mf).read head t) t (Fmt.products head.base) := by
  refine (Is.map (Is.seqC Is.tab1 _)).congr ?_
  intro x rs
  simp only [many_map']
  constructor
  · rintro ⟨b, rfl, h1, rfl⟩; exact ⟨rfl, h1, rfl⟩
  · rintro ⟨h1, h2, rfl⟩; exact ⟨x.products, by rw [← h1], h2, rfl⟩

theorem totalPartials_is (nk : Int) : Is ((totalPartialsC (toInt32 nk)).read t) t (Fmt.totalPartials nk) := by
  refine (Is.checked (Is.andThen (c := optC (toInt32 nk ≠ 1) tab1C) (d := fun _ => seqC tab1C (toInt32 nk)) (Is.opt Is.tab1) fun _ => Is.seqC Is.tab1 _)).congr ?_
  intro x rs
  obtain ⟨o, l⟩ := x
  simp only [many_map', toInt32_toInt32, Fmt.totalPartials]
  constructor
  · rintro ⟨⟨r1, r2, rfl, h1, h2, rfl⟩, h3⟩
    have h4 := (count_pos h2).mp h3
    rcases h1 with ⟨a, rfl, h1, rfl⟩ | ⟨rfl, h1, rfl⟩
    · exact ⟨h2, h4, by simp; omega, by simp⟩
    · exact ⟨h2, h4, by simp only [true_iff]; omega, by simp⟩
  · rintro ⟨h1, h2, h3, rfl⟩
    refine ⟨⟨o.toList.map .tab1, l.map .tab1, by simp, ?_, h1, rfl⟩, (count_pos h1).mpr h2⟩
    cases o with
    | none => exact .inr ⟨rfl, by simp only [true_iff] at h3; omega, rfl⟩
    | some a => exact .inl ⟨a, rfl, by simp only [reduceCtorEq, false_iff] at h3; omega, rfl⟩

theorem mf13_is (head : Division) : Is (mf13.read head t) t (Fmt.mf13 head.base) := totalPartials_is _

theorem transitionCheck_ok (l : LIST) : transitionCheck l = .ok () ↔ l.n2 ≠ 0 ∧
    (toInt32 (Int.tdiv l.data.length l.n2 - 1) = 1 ∨ toInt32 (Int.tdiv l.data.length l.n2 - 1) = 2) := by
  unfold transitionCheck
  have e : transitionLG l = toInt32 (Int.tdiv l.data.length l.n2 - 1) := rfl
  rw [← e]
  constructor
  · intro h
    split at h
    · cases h
    split at h
    · cases h
    exact ⟨by omega, by omega⟩
  · rintro ⟨h1, h2⟩
    rw [if_neg h1, if_neg (by omega)]

theorem mf12_is (head : Division) : Is (mf12.read head t) t (Fmt.mf12 head.base) := by
  refine (Is.ite (fun _ => Is.map (totalPartials_is _)) fun _ => Is.ite (fun _ => Is.map is_listE) fun _ => Is.fail _).congr ?_
  intro x rs
  simp only [transitionCheck_ok]
  cases x <;> simp only [Fmt.mf12, PhotonProduction.multiplicities.injEq, PhotonProduction.transitions.injEq, reduceCtorEq, false_and, and_false, exists_eq_left',
    exists_false, or_false, false_or, and_true]
  constructor
  · rintro ⟨_, h⟩; exact h
  · intro h; exact ⟨by omega, h⟩

/-! ### file 14 -/

theorem isotropicPhoton_is : Is (isotropicPhotonC.read t) t Fmt.isotropicPhoton := by
  refine (Is.map Is.cont).congr ?_
  intro x rs
  constructor
  · rintro ⟨c, rfl, rfl⟩; exact ⟨c, rfl, rfl⟩
  · rintro ⟨c, rfl, rfl⟩; exact ⟨c, rfl, rfl⟩

theorem anisotropicPhoton_is (ltt : Int) : Is ((anisotropicC ltt).read t) t (Fmt.anisotropicPhoton ltt) := by
  refine (Is.iteC (Is.via tab2Of_list) (Is.iteC (Is.via tab2Of_tab1) Is.none)).congr ?_
  intro x rs
  cases x <;> simp only [Fmt.anisotropicPhoton, Photon.legendre.injEq, Photon.tabulated.injEq, reduceCtorEq, false_and, and_false, exists_eq_left', exists_false,
    or_false, false_or]
  constructor
  · rintro ⟨_, h⟩; exact h
  · intro h; exact ⟨by omega, h⟩

theorem mf14_is (head : Division) : Is (mf14.read head t) t (Fmt.mf14 head.base) := by
  refine (Is.map (Is.ite (fun _ => Is.ite (fun _ => Is.fail _) fun _ => Is.ite (fun _ => Is.fail _) fun _ =>
    Is.bind (Is.sequenceL isotropicPhoton_is _) fun iso => Is.map (Is.sequenceL (anisotropicPhoton_is _) _)) fun _ => Is.pure _)).congr ?_
  intro x rs
  constructor
  · rintro ⟨p, rfl, (⟨h1, (⟨_, h⟩ | ⟨h2, (⟨_, h⟩ | ⟨h3, iso, r1, r2, rfl, ⟨h4, h5⟩, other, rfl, h6, h7⟩)⟩)⟩ | ⟨h1, rfl, rfl⟩)⟩
    · exact h.elim
    · exact h.elim
    · exact ⟨rfl, .inr ⟨h1, by omega, iso, other, r1, r2, rfl, rfl, h4, by omega, h5, h7⟩⟩
    · exact ⟨rfl, .inl ⟨by omega, rfl, rfl⟩⟩
  · rintro ⟨h0, (⟨h1, h2, rfl⟩ | ⟨h1, h2, iso, other, r1, r2, h3, rfl, h4, h5, h6, h7⟩)⟩
    · exact ⟨x.photons, by rw [← h0], .inr ⟨by simpa using h1, rfl, h2⟩⟩
    · exact ⟨x.photons, by rw [← h0], .inl ⟨h1, .inr ⟨by omega, .inr ⟨by omega, iso, r1, r2, rfl, ⟨h4, h6⟩, other, h3, by omega, h7⟩⟩⟩⟩

/-! ### file 15 -/

theorem partial15_is : Is (partial15C.read t) t Fmt.partial15 := by
  refine (Is.andThen is_tab1 fun _ => tab2Of_tab1).congr ?_
  intro x rs
  constructor
  · rintro ⟨r1, r2, rfl, ⟨rfl, h1⟩, h2⟩; exact ⟨h1, r2, rfl, h2⟩
  · rintro ⟨h1, r, rfl, h2⟩; exact ⟨[_], r, rfl, ⟨rfl, h1⟩, h2⟩

theorem mf15_is (head : Division) : Is (mf15.read head t) t (Fmt.mf15 head.base) := by
  refine (Is.bind (Is.sequence partial15_is _) fun b => Is.ite (fun _ => Is.fail _) fun _ => Is.pure _).congr ?_
  intro x rs
  constructor
  · rintro ⟨b, r1, r2, rfl, ⟨h1, h2⟩, (⟨_, h⟩ | ⟨h3, rfl, rfl⟩)⟩
    · exact h.elim
    · exact ⟨h1, (ne_nil_of_count h1).mpr h3, by simpa using h2⟩
  · rintro ⟨h1, h2, h3⟩
    exact ⟨x, rs, [], by simp, ⟨h1, h3⟩, .inr ⟨(ne_nil_of_count h1).mp h2, rfl, rfl⟩⟩

/-! ### files 26 and 28 -/

theorem continuum26_is : Is (continuum26C.read t) t (Fmt.tab2Lists fun r l => r.l1 = 1 ∧ Fmt.continuumOk 1 l) := by
  have h : ∀ r, Is ((continuum26ElemC r).read t) t (fun l rs => rs = [.list l] ∧ (r.l1 = 1 ∧ Fmt.continuumOk 1 l)) := by
    intro r
    refine (Is.checkedE (Is.iteC Is.list is_list)).congr ?_
    intro l rs
    rw [continuumCheck_ok]
    simp only [and_false, or_false]
    constructor
    · rintro ⟨⟨h1, rfl⟩, h2⟩; exact ⟨rfl, h1, h2⟩
    · rintro ⟨rfl, h1, h2⟩; exact ⟨⟨h1, rfl⟩, h2⟩
  refine (Is.iseqL h).congr ?_
  intro b rs
  simp only [many_map, Fmt.tab2Lists]
  constructor
  · rintro ⟨r, rfl, h1, h2, rfl, h3⟩; exact ⟨rfl, h1, h2, h3⟩
  · rintro ⟨rfl, h1, h2, h3⟩; exact ⟨_, rfl, h1, h2, rfl, h3⟩

theorem twoBody26_is : Is (twoBody26C.read t) t (fun b rs => Fmt.tab2Of .list b rs ∧ ∀ l ∈ b.seq, toInt32 l.l1 ∈ [12, 14] ∧ toInt32 l.data.length = 2 * toInt32 l.n2) := by
  refine (Is.iseq is_list).congr ?_
  intro b rs
  simp only [many_map, Fmt.tab2Of, twoBody26Ok, LIST.npl, List.mem_cons, List.not_mem_nil, or_false]
  constructor
  · rintro ⟨r, rfl, h1, h2, rfl, h3⟩; exact ⟨⟨rfl, h1, h2⟩, h3⟩
  · rintro ⟨⟨rfl, h1, h2⟩, h3⟩; exact ⟨_, rfl, h1, h2, rfl, h3⟩

theorem law26_is (law : Int) : Is ((law26C law).read t) t (Fmt.law26 law) := by
  refine (Is.iteC (Is.via continuum26_is) (Is.iteC (Is.via twoBody26_is) (Is.iteC (Is.via Is.tab1) Is.none))).congr ?_
  intro x rs
  cases x <;> simp only [Fmt.law26, Law26.continuum.injEq, Law26.twoBody.injEq, Law26.transfer.injEq, reduceCtorEq, false_and, and_false, exists_eq_left', exists_false,
    or_false, false_or]
  all_goals
    constructor
    · grind
    · grind

theorem law26_law {law : Int} {x : Law26} {rs : List Rec} (h : Fmt.law26 law x rs) : law = x.law := by
  cases x <;> exact h.1

theorem product26_is : Is (product26C.read t) t Fmt.product26 := by
  refine (Is.tab1Bind fun p => Is.bind (law26_is _) fun d => Is.ite (fun _ => Is.fail _) fun _ => Is.pure _).congr ?_
  intro x rs
  constructor
  · rintro ⟨p, r, rfl, d, r1, r2, rfl, h1, (⟨_, h⟩ | ⟨h2, rfl, rfl⟩)⟩
    · exact h.elim
    · exact ⟨r1, by simp, h1⟩
  · rintro ⟨r, rfl, h⟩
    have := law26_law h
    exact ⟨_, r, rfl, x.dist, r, [], by simp, h, .inr ⟨by simpa using this, rfl, rfl⟩⟩

theorem mf26_is (head : Division) : Is (mf26.read head t) t (Fmt.mf26 head.base) := Is.sequence product26_is _

theorem mf28_is (head : Division) : Is (mf28.read head t) t (Fmt.mf28 head.base) :=
  lists_is (by intro l; simp only [subshellOk, LIST.npl]; omega) _

/-! ### files 31, 33, 34, 35, 40 -/

theorem squareSizeCheck_ok (ls : Int) {ne n : Int} (h1 : IsInt32 ne) (h2 : IsInt32 n) : squareSizeCheck ls ne n = .ok () ↔ Fmt.squareOk ls ne n := by
  unfold squareSizeCheck Fmt.squareOk
  simp only [IsInt32] at h1 h2
  by_cases h : ls = 0
  · simp only [h, ne_eq, not_true_eq_false, if_false, if_true]
    have p := self_nonneg (ne - 1)
    constructor
    · intro hc
      split at hc
      · cases hc
      split at hc
      · cases hc
      split at hc
      · cases hc
      rename_i c1 c2 c3
      simp only [Over] at c2
      exact ⟨by omega, by omega⟩
    · rintro ⟨c1, c2⟩
      have b := self_bound c1
      rw [if_neg (by simp only [Over]; omega), if_neg (by simp only [Over]; omega), if_neg (by omega)]
  · simp only [h, ne_eq, not_false_eq_true, if_true, if_false]
    have e : ne * (ne - 1) = (ne - 1) * (ne - 1 + 1) := by rw [Int.sub_add_cancel, Int.mul_comm]
    rw [e]
    have p := mulSucc_nonneg (ne - 1)
    constructor
    · intro hc
      split at hc
      · cases hc
      split at hc
      · cases hc
      split at hc
      · cases hc
      rename_i c1 c2 c3
      simp only [Over] at c2
      exact ⟨by omega, by omega⟩
    · rintro ⟨c1, c2⟩
      have b := mulSucc_bound c1
      have t : Int.tdiv ((ne - 1) * (ne - 1 + 1)) 2 = (ne - 1) * (ne - 1 + 1) / 2 := Int.tdiv_eq_ediv_of_nonneg p
      rw [if_neg (by simp only [Over]; omega), if_neg (by simp only [Over]; omega), if_neg (by omega)]

theorem covariancePairsCheck_ok (l : LIST) : covariancePairsCheck l = .ok () ↔
    (toInt32 l.l2 ∈ [0, 1, 2, 8, 9] ∧ toInt32 l.l1 = 0 ∧ toInt32 l.data.length = 2 * toInt32 l.n2) ∨
    (toInt32 l.l2 ∈ [3, 4] ∧ 0 < toInt32 l.l1 ∧ toInt32 l.data.length = 2 * toInt32 l.n2) := by
  unfold covariancePairsCheck
  have e : toInt32 (l.npl : Int) = toInt32 (l.data.length : Int) := rfl
  rw [← e]
  simp only [List.mem_cons, List.not_mem_nil, or_false]
  have i := isInt32_toInt32 (l.npl : Int)
  simp only [IsInt32] at i
  generalize toInt32 l.l2 = lb, toInt32 l.l1 = lt, toInt32 (l.npl : Int) = n, toInt32 l.n2 = np at i ⊢
  split
  · split
    · simp only [reduceCtorEq, false_iff]; omega
    split
    · rename_i ho; simp only [Over] at ho; simp only [reduceCtorEq, false_iff]; omega
    · split
      · simp only [reduceCtorEq, false_iff]; omega
      · simp only [true_iff]; omega
  · split
    · split
      · simp only [reduceCtorEq, false_iff]; omega
      split
      · rename_i ho; simp only [Over] at ho; simp only [reduceCtorEq, false_iff]; omega
      · split
        · simp only [reduceCtorEq, false_iff]; omega
        · simp only [true_iff]; omega
    · simp only [reduceCtorEq, false_iff]; omega

theorem explicitCheck_ok (l : LIST) : explicitCheck l = .ok () ↔ Fmt.explicitOk l := by
  unfold explicitCheck Fmt.explicitOk
  simp only [List.mem_cons, List.not_mem_nil, or_false]
  have e : toInt32 (l.npl : Int) = toInt32 (l.data.length : Int) := rfl
  split
  · rename_i h
    have hi : toInt32 l.l2 = l.l2 := toInt32_lt1000 (by omega) (by omega)
    rw [covariancePairsCheck_ok, hi]
    simp only [List.mem_cons, List.not_mem_nil, or_false]
    omega
  · rename_i h
    split
    · rename_i h5
      have hi : toInt32 l.l2 = l.l2 := toInt32_lt1000 (by omega) (by omega)
      rw [squareMatrixCheck, hi, if_neg (by omega), squareSizeCheck_ok _ (isInt32_toInt32 _) (isInt32_toInt32 _), e]
      simp [h5]
    · split
      · rename_i h5 h6
        have hi : toInt32 l.l2 = l.l2 := toInt32_lt1000 (by omega) (by omega)
        rw [rectangularMatrixCheck, hi, if_neg (by omega), e]
        simp only [h6]
        by_cases hz : toInt32 l.n2 = 0
        · simp [hz]
        · rw [if_neg hz, Int.dvd_iff_tmod_eq_zero]
          by_cases hd : (toInt32 (l.data.length : Int) - 1).tmod (toInt32 l.n2) = 0
          · simp [hz, hd]
          · simp [hz, hd]
      · simp only [reduceCtorEq, false_iff]; omega

theorem explicit_is : Is (explicitC.read t) t (fun l rs => rs = [.list l] ∧ Fmt.explicitOk l) :=
  is_listE.congr (by intro l rs; rw [explicitCheck_ok])

theorem derived_is : Is (derivedC.read t) t Fmt.derived := by
  refine (Is.contBind fun c => Is.ite (fun _ => Is.map Is.list) fun _ => Is.ite (fun _ => Is.map Is.list) fun _ => Is.fail _).congr ?_
  intro x rs
  constructor
  · rintro ⟨c, r, rfl, (⟨h1, l, rfl, rfl⟩ | ⟨h1, (⟨h2, l, rfl, rfl⟩ | ⟨_, h⟩)⟩)⟩
    · exact ⟨c, h1, rfl⟩
    · exact ⟨c, rfl, by simpa using h2, rfl⟩
    · exact h.elim
  · rintro ⟨c, h⟩
    cases x with
    | redundant l => obtain ⟨h1, rfl⟩ := h; exact ⟨c, _, rfl, .inl ⟨h1, l, rfl, rfl⟩⟩
    | ratio lty l =>
      obtain ⟨rfl, h2, rfl⟩ := h
      simp only [List.mem_cons, List.not_mem_nil, or_false] at h2
      exact ⟨c, _, rfl, .inr ⟨by omega, .inl ⟨h2, l, rfl, rfl⟩⟩⟩

theorem Is.manyC {α : Type} {c : Comp α} {G : α → List Rec → Prop} (h : Is (c.read t) t G) (n : Int) :
    Is ((ENDFtk.manyC c n).read t) t (fun xs rs => (xs.length : Int) = max 0 n ∧ Many G xs rs) :=
  (Is.many h n.toNat).congr (by
    intro xs rs
    constructor
    · rintro ⟨h1, h2⟩; exact ⟨by omega, h2⟩
    · rintro ⟨h1, h2⟩; exact ⟨by omega, h2⟩)

theorem reactionBlock_is : Is (reactionBlockC.read t) t Fmt.reactionBlock := by
  refine (Is.mapErr (Is.contBind fun c => Is.bind (Is.manyC derived_is _) fun d => Is.map (Is.seqC explicit_is _))).congr ?_
  intro x rs
  simp only [many_map]
  constructor
  · rintro ⟨c, r, rfl, d, r1, r2, rfl, ⟨h1, h2⟩, e, rfl, h3, rfl, h4⟩
    exact ⟨c, r1, rfl, rfl, rfl, rfl, rfl, h1, h3, h2, h4⟩
  · rintro ⟨c, r, rfl, h1, h2, h3, h4, h5, h6, h7, h8⟩
    exact ⟨c, _, List.cons_append .., x.derived, r, _, rfl, ⟨h5, h7⟩, x.explicit, by rw [← h1, ← h2, ← h3, ← h4], h6, rfl, h8⟩

theorem mf31_is (head : Division) : Is (mf31.read head t) t (Fmt.mf31 head.base) := Is.seqC reactionBlock_is _

theorem mf33_is (head : Division) : Is (mf33.read head t) t (Fmt.mf33 head.base) := by
  refine (Is.map (Is.seqC reactionBlock_is _)).congr ?_
  intro x rs
  constructor
  · rintro ⟨b, rfl, h1, h2⟩; exact ⟨rfl, h1, h2⟩
  · rintro ⟨h1, h2, h3⟩; exact ⟨x.2, by rw [← h1], h2, h3⟩

theorem legendreBlock_is : Is (legendreBlockC.read t) t Fmt.legendreBlock := by
  refine (Is.mapErr (Is.contBind fun c => Is.map (Is.seqC explicit_is _))).congr ?_
  intro x rs
  simp only [many_map]
  constructor
  · rintro ⟨c, r, rfl, e, rfl, h3, rfl, h4⟩; exact ⟨c, rfl, rfl, rfl, rfl, h3, h4⟩
  · rintro ⟨c, rfl, h1, h2, h3, h4, h5⟩; exact ⟨c, _, rfl, x.data, by rw [← h1, ← h2, ← h3], h4, rfl, h5⟩

theorem legendreSizeOk_iff (nl nl1 nss : Int) (mt mt1 : Int) : legendreSizeOk nl nl1 nss (mt == mt1) = true ↔
    if mt = mt1 then nl = nl1 ∧ nl * (nl + 1) < 2147483648 ∧ Int.tdiv (nl * (nl + 1)) 2 = nss else nl * nl1 = nss := by
  unfold legendreSizeOk
  by_cases h : mt = mt1
  · have p := mulSucc_nonneg nl
    have hi : ¬Over (nl * (nl + 1)) ↔ nl * (nl + 1) < 2147483648 := by simp only [Over]; omega
    simp only [h, beq_self_eq_true, if_true, Bool.and_eq_true, beq_iff_eq, Bool.not_eq_true', decide_eq_false_iff_not, hi, and_assoc]
  · simp [h]

theorem reactionBlock34_is (mt : Int) : Is ((reactionBlock34C mt).read t) t (Fmt.reactionBlock34 mt) := by
  refine (Is.mapErr (Is.contBind fun c => Is.bind (Is.seqC legendreBlock_is _) fun b => Is.ite (fun _ => Is.pure _) fun _ => Is.fail _)).congr ?_
  intro x rs
  simp only [legendreSizeOk_iff, toInt32_toInt32]
  have key : ∀ (n : Int) (b : List LegendreBlock), toInt32 n = b.length → asInt b.length = b.length := by
    intro n b h; rw [asInt, ← h, toInt32_toInt32]
  constructor
  · rintro ⟨c, r, rfl, b, r1, r2, rfl, ⟨h1, h2⟩, (⟨h3, rfl, rfl⟩ | ⟨_, h⟩)⟩
    · rw [key _ _ h1] at h3
      exact ⟨c, r1, by simp, rfl, rfl, rfl, h1, h3, h2⟩
    · exact h.elim
  · rintro ⟨c, r, rfl, h1, h2, h3, h4, h5, h6⟩
    refine ⟨c, r, rfl, x.blocks, r, [], by simp, ⟨h4, h6⟩, .inl ⟨?_, rfl, ?_⟩⟩
    · rw [key _ _ h4, ← h1, ← h2, ← h3]; exact h5
    · rw [← h1, ← h2, ← h3]

theorem mf34_is (head : Division) : Is (mf34.read head t) t (Fmt.mf34 head.base t.mt) := by
  refine (Is.map (Is.seqC (reactionBlock34_is _) _)).congr ?_
  intro x rs
  constructor
  · rintro ⟨b, rfl, h1, h2⟩; exact ⟨rfl, h1, h2⟩
  · rintro ⟨h1, h2, h3⟩; exact ⟨x.2, by rw [← h1], h2, h3⟩

theorem squareMatrix35Check_ok (l : LIST) : squareMatrix35Check l = .ok () ↔ toInt32 l.l2 = 7 ∧ Fmt.squareOk 1 (toInt32 l.n2) (toInt32 l.data.length) := by
  unfold squareMatrix35Check
  by_cases h : toInt32 l.l2 = 7
  · rw [if_neg (by simpa using h), squareSizeCheck_ok _ (isInt32_toInt32 _) (isInt32_toInt32 _)]; simp [h, LIST.npl]
  · rw [if_pos h]; simp [h]

theorem mf35_is (head : Division) : Is (mf35.read head t) t (Fmt.mf35 head.base) := by
  refine (Is.seqC is_listE _).congr ?_
  intro x rs
  simp only [many_map, Fmt.mf35, Fmt.lists, squareMatrix35Check_ok]

theorem levelBlock_is : Is (levelBlockC.read t) t Fmt.levelBlock := by
  refine (Is.mapErr (Is.contBind fun c => Is.map (Is.seqC reactionBlock_is _))).congr ?_
  intro x rs
  constructor
  · rintro ⟨c, r, rfl, e, rfl, h3, h4⟩; exact ⟨c, r, rfl, rfl, rfl, rfl, rfl, h3, h4⟩
  · rintro ⟨c, r, rfl, h1, h2, h3, h4, h5, h6⟩; exact ⟨c, r, rfl, x.reactions, by rw [← h1, ← h2, ← h3, ← h4], h5, h6⟩

theorem mf40_is (head : Division) : Is (mf40.read head t) t (Fmt.mf40 head.base) := by
  refine (Is.map (Is.seqC levelBlock_is _)).congr ?_
  intro x rs
  constructor
  · rintro ⟨b, rfl, h1, h2⟩; exact ⟨rfl, h1, h2⟩
  · rintro ⟨h1, h2, h3⟩; exact ⟨x.2, by rw [← h1], h2, h3⟩

theorem mf2mt152_is (head : Division) : Is (mf2mt152.read head t) t (Fmt.mf2mt152 head.base) := by
  refine (Is.map is_list).congr ?_
  intro x rs
  have key : ∀ l : LIST, dilutionSizeOk l ↔ toInt32 l.data.length = toInt32 l.l2 + toInt32 l.n2 * (1 + toInt32 l.l1 * toInt32 l.l2) ∧
      IsInt32 (toInt32 l.l1 * toInt32 l.l2) ∧ IsInt32 (1 + toInt32 l.l1 * toInt32 l.l2) ∧ IsInt32 (toInt32 l.n2 * (1 + toInt32 l.l1 * toInt32 l.l2)) := by
    intro l
    simp only [dilutionSizeOk, dilutionOv, LIST.npl, Over]
    rw [Int.mul_comm (toInt32 l.n2), Int.add_comm 1, Int.add_comm (toInt32 l.l2)]
    have i := isInt32_toInt32 (l.data.length : Int)
    simp only [IsInt32] at i ⊢
    generalize toInt32 (l.data.length : Int) = n, (toInt32 l.l1 * toInt32 l.l2 + 1) * toInt32 l.n2 = q, toInt32 l.l1 * toInt32 l.l2 = p at i ⊢
    omega
  simp only [key]
  constructor
  · rintro ⟨l, rfl, rfl, h⟩; exact ⟨by simp, rfl, rfl, h⟩
  · rintro ⟨h1, h2, rfl, h⟩
    refine ⟨x.data, ?_, rfl, h⟩
    have : x.lssf = (head.base.l1 != 0) := by rw [Bool.eq_iff_iff, h1]; simp
    rw [← this, ← h2]

end ENDFtk

import Verif.Format.Proof3
/-
  The reader of MF2 MT151 accepts exactly the format of Verif/Format/Spec.lean.
-/
set_option linter.unusedVariables false
set_option linter.unusedSectionVars false
set_option linter.unusedSimpArgs false
namespace ENDFtk
variable [Disco]

variable {t : Nums}

theorem Is.contSeqC {σ μ α : Type} {H : Header σ} {m : Comp μ} {c : Comp α} {F : μ → List Rec → Prop} {G : α → List Rec → Prop}
    (hm : Is (m.read t) t F) (hc : Is (c.read t) t G) :
    Is ((ENDFtk.contSeqC H m c).read t) t (fun x rs => ∃ (a : Cont) (r1 r2 : List Rec), rs = .cont a :: (r1 ++ r2) ∧ x.1 = H.of a ∧ F x.2.1 r1 ∧
      toInt32 (H.count a) = x.2.2.length ∧ Many G x.2.2 r2) := by
  refine (Is.contBind fun a => Is.bind hm fun x => Is.map (Is.seqC hc _)).congr ?_
  intro x rs
  constructor
  · rintro ⟨a, r, rfl, y, r1, r2, rfl, h1, xs, rfl, h2, h3⟩; exact ⟨a, r1, r2, rfl, rfl, h1, h2, h3⟩
  · rintro ⟨a, r1, r2, rfl, h1, h2, h3, h4⟩; exact ⟨a, _, rfl, x.2.1, r1, r2, rfl, h2, x.2.2, by rw [← h1], h3, h4⟩

theorem atLeastOne_iff {σ μ α : Type} {n : Int} {b : σ × μ × List α} (h : toInt32 n = b.2.2.length) : atLeastOne b ↔ b.2.2 ≠ [] := by
  rw [← count_pos h]; unfold atLeastOne; omega

theorem toBool_iff (b : Bool) (n : Int) : b = toBool n ↔ (b = true ↔ n ≠ 0) := by
  unfold toBool; rw [Bool.eq_iff_iff]; simp

theorem bw_of (h : BwHeader) (c : Cont) : h = bwHeader.of c ↔ h.spi = c.c1 ∧ h.ap = c.c2 ∧ (h.lad = true ↔ c.l1 ≠ 0) ∧ h.nlsc = toInt32 c.n2 := by
  rw [← toBool_iff]; cases h; simp [bwHeader]

theorem ur_of (h : UrHeader) (c : Cont) : h = urHeader.of c ↔ h.spi = c.c1 ∧ h.ap = c.c2 ∧ (h.lssf = true ↔ c.l1 ≠ 0) := by
  rw [← toBool_iff]; cases h; simp [urHeader]

theorem lv_of (h : LvHeader) (c : Cont) : h = lvHeader.of c ↔ h.awri = c.c1 ∧ h.l = toInt32 c.l1 := by
  cases h; simp [lvHeader]

theorem rml_of (h : RmlHeader) (c : Cont) : h = rmlHeader.of c ↔ (h.ifg = true ↔ c.l1 ≠ 0) ∧ h.krm = toInt32 c.l2 ∧ (h.krl = true ↔ c.n2 ≠ 0) := by
  rw [← toBool_iff, ← toBool_iff]; cases h; simp [rmlHeader]; grind

theorem breitWigner_is : Is (breitWignerC.read t) t Fmt.breitWigner := by
  refine (Is.checked (Is.contSeqC Is.nilc (is_list (P := lvalueOk)))).congr ?_
  intro x rs
  simp only [many_map, bw_of]
  have key : ∀ l : LIST, lvalueOk l ↔ 1 ≤ toInt32 l.n2 ∧ toInt32 l.data.length = 6 * toInt32 l.n2 := by
    intro l; simp only [lvalueOk, LIST.npl]; omega
  simp only [key]
  constructor
  · rintro ⟨⟨a, r1, r2, rfl, ⟨b1, b2, b3, b4⟩, rfl, h2, rfl, h3⟩, h4⟩
    exact ⟨a, rfl, b1, b2, b3, b4, h2, (atLeastOne_iff h2).mp h4, h3⟩
  · rintro ⟨a, rfl, b1, b2, b3, b4, h2, h4, h3⟩
    exact ⟨⟨a, [], _, rfl, ⟨b1, b2, b3, b4⟩, rfl, h2, rfl, h3⟩, (atLeastOne_iff h2).mpr h4⟩

theorem reichMoore_is : Is (reichMooreC.read t) t (fun b rs => Fmt.breitWigner b rs ∧ (b.2.2.length : Int) ≤ b.1.nlsc) := by
  refine (Is.checked breitWigner_is).congr ?_
  intro b rs
  have key : Fmt.breitWigner b rs → asInt b.2.2.length = b.2.2.length := by
    rintro ⟨c, -, -, -, -, -, h, -⟩; rw [asInt, ← h, toInt32_toInt32]
  constructor
  · rintro ⟨h1, h2⟩; refine ⟨h1, ?_⟩; rw [← key h1]; exact h2
  · rintro ⟨h1, h2⟩; refine ⟨h1, ?_⟩; rw [nlscOk, key h1]; exact h2

theorem caseA_is : Is (caseAC.read t) t Fmt.caseA := by
  refine (Is.checked (Is.contSeqC Is.nilc (is_list (P := lvalueAOk)))).congr ?_
  intro x rs
  simp only [many_map, ur_of]
  constructor
  · rintro ⟨⟨a, r1, r2, rfl, ⟨b1, b2, b3⟩, rfl, h2, rfl, h3⟩, h4⟩
    exact ⟨a, rfl, b1, b2, b3, h2, (atLeastOne_iff h2).mp h4, h3⟩
  · rintro ⟨a, rfl, b1, b2, b3, h2, h4, h3⟩
    exact ⟨⟨a, [], _, rfl, ⟨b1, b2, b3⟩, rfl, h2, rfl, h3⟩, (atLeastOne_iff h2).mpr h4⟩

theorem lvalue_is {f : LIST → Except Err Unit} {P : LIST → Prop} (hP : ∀ l, f l = .ok () ↔ P l) :
    Is (((contSeqC lvHeader nilC (listC.checkedE f)).checked atLeastOne).read t) t (Fmt.lvalue P) := by
  refine (Is.checked (Is.contSeqC Is.nilc is_listE)).congr ?_
  intro x rs
  simp only [many_map, lv_of, hP]
  constructor
  · rintro ⟨⟨a, r1, r2, rfl, ⟨b1, b2⟩, rfl, h2, rfl, h3⟩, h4⟩
    exact ⟨a, rfl, b1, b2, h2, (atLeastOne_iff h2).mp h4, h3⟩
  · rintro ⟨a, rfl, b1, b2, h2, h4, h3⟩
    exact ⟨⟨a, [], _, rfl, ⟨b1, b2⟩, rfl, h2, rfl, h3⟩, (atLeastOne_iff h2).mpr h4⟩

theorem jvalueCheck_ok (l : LIST) : jvalueCheck l = .ok () ↔ 6 ≤ l.data.length ∧ ∃ ne : Int, ne = ((l.data.length - 6 + 5) / 6 : Nat) % 4294967296 ∧ ne ≠ 0 ∧
    (l.data.length : Int) % 4294967296 = (6 + 6 * ne) % 4294967296 := by
  unfold jvalueCheck
  have e : jvalueNE l = ((l.data.length - 6 + 5) / 6 : Nat) % 4294967296 := rfl
  have e2 : toUInt32 l.npl = (l.data.length : Int) % 4294967296 := rfl
  have e3 : toUInt32 (6 + jvalueNE l * 6) = (6 + jvalueNE l * 6) % 4294967296 := rfl
  rw [e2, e3]
  simp only [← e, exists_eq_left, Int.mul_comm 6]
  constructor
  · intro h
    split at h
    · cases h
    split at h
    · cases h
    split at h
    · cases h
    exact ⟨by omega, by omega, by omega⟩
  · rintro ⟨h1, h2, h3⟩
    rw [if_neg (by omega), if_neg h2, if_neg (by omega)]

theorem caseC_is : Is (caseCC.read t) t Fmt.caseC := by
  refine (Is.checked (Is.contSeqC Is.nilc (lvalue_is jvalueCheck_ok))).congr ?_
  intro x rs
  simp only [ur_of]
  constructor
  · rintro ⟨⟨a, r1, r2, rfl, ⟨b1, b2, b3⟩, rfl, h2, h3⟩, h4⟩
    exact ⟨a, r2, rfl, b1, b2, b3, h2, (atLeastOne_iff h2).mp h4, h3⟩
  · rintro ⟨a, r, rfl, b1, b2, b3, h2, h4, h3⟩
    exact ⟨⟨a, [], r, rfl, ⟨b1, b2, b3⟩, rfl, h2, h3⟩, (atLeastOne_iff h2).mpr h4⟩

theorem jvalueBCheck_ok (l : LIST) : jvalueBCheck l = .ok () ↔ 6 ≤ l.data.length ∧ jvalueBNE l ≠ 0 := by
  unfold jvalueBCheck
  have e : toUInt32 ((l.data.length - 6 : Nat) : Int) = jvalueBNE l := rfl
  have h0 : 0 ≤ jvalueBNE l := by unfold jvalueBNE toUInt32; omega
  rw [e]
  constructor
  · intro h
    split at h
    · cases h
    split at h
    · cases h
    exact ⟨by omega, by omega⟩
  · rintro ⟨h1, h2⟩
    rw [if_neg (by omega), if_neg (by omega)]

theorem Many.and {α : Type} {G : α → List Rec → Prop} {P : α → Prop} {xs : List α} {rs : List Rec} :
    Many (fun a r => G a r ∧ P a) xs rs ↔ Many G xs rs ∧ ∀ x ∈ xs, P x := by
  induction xs generalizing rs with
  | nil => simp [many_nil]
  | cons x xs ih =>
    simp only [many_cons, ih, List.mem_cons, forall_eq_or_imp]
    constructor
    · rintro ⟨r1, r2, rfl, ⟨a, b⟩, c, d⟩; exact ⟨⟨r1, r2, rfl, a, c⟩, b, d⟩
    · rintro ⟨⟨r1, r2, rfl, a, c⟩, b, d⟩; exact ⟨r1, r2, rfl, ⟨a, b⟩, c, d⟩

theorem caseB_is : Is (caseBC.read t) t Fmt.caseB := by
  refine (Is.checked (P := caseBOk) (Is.andThen (c := listC) (d := fun l => seqC lvalueBC l.n2) Is.list fun l => Is.seqC (Is.checked (P := sameNE) (lvalue_is jvalueBCheck_ok)) _)).congr ?_
  intro x rs
  obtain ⟨l, vs⟩ := x
  have key : ∀ vs : List LValueC, ∀ r, (Many (fun v r => Fmt.lvalue (fun l => 6 ≤ l.data.length ∧ jvalueBNE l ≠ 0) v r ∧ sameNE v) vs r ∧ (∀ v ∈ vs, toUInt32 l.npl = lvalueBNE v)) ↔
      Many (Fmt.lvalue fun j => 6 ≤ j.data.length ∧ ((j.data.length - 6 : Nat) : Int) % 4294967296 ≠ 0 ∧
      ((j.data.length - 6 : Nat) : Int) % 4294967296 = (l.data.length : Int) % 4294967296) vs r := by
    intro vs r
    rw [← Many.and]
    refine Many.congr ?_ vs r
    rintro ⟨a, u, js⟩ r
    have e1 : ∀ j : LIST, jvalueBNE j = ((j.data.length - 6 : Nat) : Int) % 4294967296 := fun _ => rfl
    have e2 : toUInt32 l.npl = (l.data.length : Int) % 4294967296 := rfl
    simp only [← e1, ← e2]
    constructor
    · rintro ⟨⟨⟨c, h1, h2, h3, h4, h5, h6⟩, h7⟩, h8⟩
      refine ⟨c, h1, h2, h3, h4, h5, fun j hj => ⟨(h6 j hj).1, (h6 j hj).2, ?_⟩⟩
      rw [h8]; exact h7 j hj
    · rintro ⟨c, h1, h2, h3, h4, h5, h6⟩
      have h8 : toUInt32 l.npl = lvalueBNE (a, u, js) := by
        cases js with
        | nil => exact absurd rfl h5
        | cons j js => exact ((h6 j (by simp)).2.2).symm
      exact ⟨⟨⟨c, h1, h2, h3, h4, h5, fun j hj => ⟨(h6 j hj).1, (h6 j hj).2.1⟩⟩, fun j hj => by rw [← h8]; exact (h6 j hj).2.2⟩, h8⟩
  constructor
  · rintro ⟨⟨r1, r2, rfl, rfl, h1, h2⟩, h3, h4⟩
    exact ⟨r2, rfl, h1, (count_pos (xs := vs) h1).mp (by simp only at h3; omega), (key _ _).mp ⟨h2, h4⟩⟩
  · rintro ⟨r, rfl, h1, h2, h3⟩
    obtain ⟨h4, h5⟩ := (key _ _).mpr h3
    have := (count_pos (xs := vs) h1).mpr h2
    exact ⟨⟨[_], r, rfl, rfl, h1, h4⟩, by simp only; omega, h5⟩

/-! ### LRF = 7 -/

theorem backgroundBody_is (lbk : Int) : Is ((backgroundBodyC lbk).read t) t (fun b r => match b with
    | .none => lbk = 0 ∧ r = []
    | .tabulated a b => lbk = 1 ∧ r = [.tab1 a, .tab1 b] ∧ a.x.length = b.x.length ∧ a.base.bounds.length = b.base.bounds.length
    | .sammy ed eu v => lbk = 2 ∧ ∃ l, r = [.list l] ∧ ed = l.c1 ∧ eu = l.c2 ∧ v = l.data ∧ v.length = 5
    | .frohner ed eu v => lbk = 3 ∧ ∃ l, r = [.list l] ∧ ed = l.c1 ∧ eu = l.c2 ∧ v = l.data ∧ v.length = 3) := by
  have hv : ∀ (n : Nat) (mk : Dbl → Dbl → List Dbl → Background), Is ((valuesC n mk).read t) t
      (fun b r => ∃ l, r = [.list l] ∧ b = mk l.c1 l.c2 l.data ∧ l.data.length = n) := by
    intro n mk
    refine (Is.listBind fun l => Is.ite (fun _ => Is.fail _) fun _ => Is.pure _).congr ?_
    intro b rs
    constructor
    · rintro ⟨l, r, rfl, (⟨_, h⟩ | ⟨h1, rfl, rfl⟩)⟩
      · exact h.elim
      · exact ⟨l, rfl, rfl, by simp only [LIST.npl, ne_eq, Decidable.not_not] at h1; omega⟩
    · rintro ⟨l, rfl, rfl, h⟩
      exact ⟨l, [], rfl, .inr ⟨by simp only [LIST.npl, ne_eq, Decidable.not_not]; omega, rfl, rfl⟩⟩
  refine (Is.iteC (Is.via Is.nilc) (Is.iteC (Is.via (Is.checked (P := tabulatedOk) (Is.andThen Is.tab1 fun _ => Is.tab1)))
    (Is.iteC (hv 5 _) (Is.iteC (hv 3 _) Is.none)))).congr ?_
  intro b rs
  cases b with
  | none => simp
  | tabulated a b =>
    simp only [reduceCtorEq, false_and, exists_false, and_false, false_or, or_false, Background.tabulated.injEq]
    constructor
    · rintro ⟨_, h1, ⟨a', b'⟩, ⟨rfl, rfl⟩, ⟨r1, r2, rfl, rfl, rfl⟩, h2⟩
      exact ⟨h1, rfl, by simpa [tabulatedOk, TAB1.np, TAB2.nr, Int.ofNat_inj] using h2⟩
    · rintro ⟨h1, rfl, h2⟩
      exact ⟨by omega, h1, (a, b), ⟨rfl, rfl⟩, ⟨[_], [_], rfl, rfl, rfl⟩, by simpa [tabulatedOk, TAB1.np, TAB2.nr, Int.ofNat_inj] using h2⟩
  | sammy ed eu v =>
    simp only [reduceCtorEq, false_and, exists_false, and_false, false_or, or_false, Background.sammy.injEq]
    constructor
    · rintro ⟨_, _, h1, l, rfl, ⟨rfl, rfl, rfl⟩, h2⟩; exact ⟨h1, l, rfl, rfl, rfl, rfl, h2⟩
    · rintro ⟨h1, l, rfl, rfl, rfl, rfl, h2⟩; exact ⟨by omega, by omega, h1, l, rfl, ⟨rfl, rfl, rfl⟩, h2⟩
  | frohner ed eu v =>
    simp only [reduceCtorEq, false_and, exists_false, and_false, false_or, or_false, Background.frohner.injEq]
    constructor
    · rintro ⟨_, _, _, h1, l, rfl, ⟨rfl, rfl, rfl⟩, h2⟩; exact ⟨h1, l, rfl, rfl, rfl, rfl, h2⟩
    · rintro ⟨h1, l, rfl, rfl, rfl, rfl, h2⟩; exact ⟨by omega, by omega, by omega, h1, l, rfl, ⟨rfl, rfl, rfl⟩, h2⟩

theorem background_is (nch : Int) : Is ((backgroundC nch).read t) t (fun x rs => Fmt.background x rs ∧ 1 ≤ x.1 ∧ x.1 ≤ nch) := by
  refine (Is.contBind fun c => Is.ite (fun _ => Is.fail _) fun _ => Is.map (backgroundBody_is _)).congr ?_
  intro x rs
  constructor
  · rintro ⟨c, r, rfl, (⟨_, h⟩ | ⟨h1, b, rfl, h2⟩)⟩
    · exact h.elim
    · exact ⟨⟨c, r, rfl, rfl, h2⟩, by simp only; omega, by simp only; omega⟩
  · rintro ⟨⟨c, r, rfl, h1, h2⟩, h3, h4⟩
    exact ⟨c, r, rfl, .inr ⟨by omega, x.2, by rw [← h1], h2⟩⟩

theorem presentFrom_mem (bs : List (Option Background)) (i : Nat) (k : Int) (b : Background) :
    (k, b) ∈ presentFrom i bs ↔ ∃ j : Nat, bs[j]? = some (some b) ∧ k = (i : Int) + j := by
  induction bs generalizing i with
  | nil => simp [presentFrom]
  | cons c cs ih =>
    have shift : (∃ j : Nat, cs[j]? = some (some b) ∧ k = ((i + 1 : Nat) : Int) + j) ↔ ∃ j : Nat, 0 < j ∧ (c :: cs)[j]? = some (some b) ∧ k = (i : Int) + j := by
      constructor
      · rintro ⟨j, h1, h2⟩; exact ⟨j + 1, by omega, by simpa using h1, by omega⟩
      · rintro ⟨j, h0, h1, h2⟩
        obtain ⟨j, rfl⟩ : ∃ j', j = j' + 1 := ⟨j - 1, by omega⟩
        exact ⟨j, by simpa using h1, by omega⟩
    cases c with
    | none =>
      rw [presentFrom, ih, shift]
      constructor
      · rintro ⟨j, _, h⟩; exact ⟨j, h⟩
      · rintro ⟨j, h1, h2⟩
        refine ⟨j, ?_, h1, h2⟩
        rcases Nat.eq_zero_or_pos j with rfl | h
        · simp at h1
        · exact h
    | some c =>
      rw [presentFrom, List.mem_cons, ih, shift]
      constructor
      · rintro (h | ⟨j, _, h⟩)
        · simp only [Prod.mk.injEq] at h
          exact ⟨0, by simp [h.2], by omega⟩
        · exact ⟨j, h⟩
      · rintro ⟨j, h1, h2⟩
        rcases Nat.eq_zero_or_pos j with rfl | h
        · left; simp at h1; simp [h1, h2]
        · exact .inr ⟨j, h, h1, h2⟩

theorem presentFrom_pairwise (bs : List (Option Background)) (i : Nat) : (presentFrom i bs).Pairwise (fun y y' => y.1 ≠ y'.1) := by
  induction bs generalizing i with
  | nil => simp [presentFrom]
  | cons c cs ih =>
    cases c with
    | none => exact ih _
    | some c =>
      rw [presentFrom, List.pairwise_cons]
      refine ⟨?_, ih _⟩
      rintro ⟨k, b⟩ h
      obtain ⟨j, _, h2⟩ := (presentFrom_mem _ _ _ _).mp h
      simp only; omega

theorem placeAll_count (items : List (Int × Background)) (bs : List (Option Background))
    (hi : ∀ x ∈ items, 1 ≤ x.1 ∧ bs[(x.1 - 1).toNat]? = some none) (hp : items.Pairwise (fun y y' => y.1 ≠ y'.1)) :
    countPresent (placeAll bs items) = countPresent bs + items.length := by
  induction items generalizing bs with
  | nil => simp [placeAll]
  | cons x xs ih =>
    obtain ⟨h1, h2⟩ := hi x (by simp)
    obtain ⟨p1, p2⟩ := List.pairwise_cons.mp hp
    have hq : placeAll bs (x :: xs) = placeAll (bs.set (x.1 - 1).toNat (some x.2)) xs := rfl
    have hs := (present_set_none x.2 bs (x.1 - 1).toNat 1 h2).length_eq
    simp only [presentFrom_length, List.length_cons] at hs
    rw [hq, ih _ ?_ p2, hs, List.length_cons]
    · omega
    · intro y hy
      obtain ⟨a, b⟩ := hi y (by simp [hy])
      refine ⟨a, ?_⟩
      rw [List.getElem?_set_ne]
      · exact b
      · have := p1 y hy; omega

theorem ext_some {α : Type} {xs ys : List (Option α)} (hl : xs.length = ys.length) (h : ∀ (i : Nat) b, xs[i]? = some (some b) ↔ ys[i]? = some (some b)) : xs = ys := by
  apply List.ext_getElem?
  intro i
  by_cases hi : i < xs.length
  · have h1 : xs[i]? = some xs[i] := List.getElem?_eq_getElem hi
    have h2 : ys[i]? = some (ys[i]'(by omega)) := List.getElem?_eq_getElem (by omega)
    cases h3 : xs[i] with
    | some b => rw [h1, h3, ((h i b).mp (by rw [h1, h3]))]
    | none =>
      cases h4 : ys[i]'(by omega) with
      | none => rw [h1, h2, h3, h4]
      | some b => have := (h i b).mpr (by rw [h2, h4]); rw [h1, h3] at this; cases this
  · rw [List.getElem?_eq_none (by omega), List.getElem?_eq_none (by omega)]

theorem asInt_small {n : Nat} (h : (n : Int) < 2147483648) : asInt n = n := toInt32_id (by omega) h

theorem backgrounds_is (nch kbk : Int) (hn : nch < 2147483648) : Is ((backgroundsC nch kbk).read t) t (fun bs rs => ∃ items : List (Int × Background),
    Many Fmt.background items rs ∧ kbk = items.length ∧ (bs.length : Int) = nch ∧ (∀ y ∈ items, 1 ≤ y.1 ∧ y.1 ≤ bs.length) ∧
    items.Pairwise (fun y y' => y.1 ≠ y'.1) ∧ ∀ (i : Nat) b, bs[i]? = some (some b) ↔ ((i : Int) + 1, b) ∈ items) := by
  refine (Is.ite (fun _ => Is.fail _) fun _ => Is.bind (Is.manyC (background_is nch) kbk) fun items => Is.ite (fun _ => Is.fail _) fun _ => Is.pure _).congr ?_
  intro bs rs
  simp only [Many.and]
  have hrep := countPresent_replicate nch.toNat
  have memOf : ∀ items : List (Int × Background), (∀ y ∈ items, 1 ≤ y.1 ∧ y.1 ≤ ((List.replicate nch.toNat (none : Option Background)).length : Int)) →
      countPresent (placeAll (List.replicate nch.toNat none) items) = items.length →
      items.Pairwise (fun y y' => y.1 ≠ y'.1) ∧ ∀ (i : Nat) b, (placeAll (List.replicate nch.toNat none) items)[i]? = some (some b) ↔ ((i : Int) + 1, b) ∈ items := by
    intro items h1 h2
    have hperm := (placeAll_perm items _ h1).2 (by rw [h2, hrep.1]; omega)
    rw [hrep.2, List.append_nil] at hperm
    refine ⟨?_, ?_⟩
    · exact (hperm.pairwise_iff (fun {a b} h => fun e => h e.symm)).mp (presentFrom_pairwise _ 1)
    · intro i b
      rw [← hperm.mem_iff, presentFrom_mem]
      constructor
      · intro h; exact ⟨i, h, by omega⟩
      · rintro ⟨j, h, e⟩
        have : i = j := by omega
        rw [this]; exact h
  constructor
  · rintro (⟨_, h⟩ | ⟨h0, items, r1, r2, rfl, ⟨h1, h2, h3⟩, (⟨_, h⟩ | ⟨h4, rfl, rfl⟩)⟩)
    · exact h.elim
    · exact h.elim
    · have hl := placeAll_length items (List.replicate nch.toNat none)
      rw [List.length_replicate] at hl
      have hc := countPresent_le (placeAll (List.replicate nch.toNat none) items)
      rw [asInt_small (by omega)] at h4
      obtain ⟨a, b⟩ := memOf items (by intro y hy; have := h3 y hy; simp; omega) (by omega)
      exact ⟨items, by simpa using h2, by omega, by omega, by intro y hy; have := h3 y hy; omega, a, b⟩
  · rintro ⟨items, h1, h2, h3, h4, h5, h6⟩
    have hcount := placeAll_count items (List.replicate nch.toNat none) (by
      intro x hx
      have := h4 x hx
      refine ⟨this.1, ?_⟩
      rw [List.getElem?_replicate, if_pos (by omega)]) h5
    rw [hrep.1, Nat.zero_add] at hcount
    have hl := placeAll_length items (List.replicate nch.toNat none)
    rw [List.length_replicate] at hl
    have hc := countPresent_le (placeAll (List.replicate nch.toNat none) items)
    obtain ⟨a, b⟩ := memOf items (by intro y hy; have := h4 y hy; simp; omega) (by omega)
    refine .inr ⟨by omega, items, rs, [], by simp, ⟨by omega, h1, fun y hy => by have := h4 y hy; omega⟩, .inr ⟨?_, rfl, ?_⟩⟩
    · rw [asInt_small (by omega)]; omega
    · exact ext_some (by omega) (fun i c => by rw [h6, b])

theorem spinGroup_is : Is (spinGroupC.read t) t Fmt.spinGroup := by
  refine (Is.andThen (c := channelsC.andThen (fun _ => rmlParametersC)) (d := fun x => backgroundsC (channelsNCH x.1) (toInt32 x.1.l1))
    (Is.andThen (c := channelsC) (d := fun _ => rmlParametersC) (is_list (P := channelsOk)) fun _ => is_list (P := rmlParametersOk)) fun x => backgrounds_is _ _ (toInt32_range _).2).congr ?_
  intro x rs
  have k1 : ∀ l : LIST, channelsOk l ↔ 1 ≤ toInt32 l.n2 ∧ toInt32 l.data.length = 6 * toInt32 l.n2 := by
    intro l; simp only [channelsOk, LIST.npl]; omega
  have k2 : ∀ l : LIST, rmlParametersOk l ↔ 1 ≤ toInt32 l.data.length ∧ 6 ∣ toInt32 l.data.length := by
    intro l; simp only [rmlParametersOk, LIST.npl]; rw [Int.dvd_iff_tmod_eq_zero]
  have k3 : ∀ l : LIST, channelsNCH l = toInt32 (l.data.length / 6 : Nat) := by
    intro l; simp only [channelsNCH, LIST.npl, Int.natCast_ediv, Int.cast_ofNat_Int]
  simp only [k1, k2, k3]
  constructor
  · rintro ⟨r1, r2, rfl, ⟨r3, r4, rfl, ⟨rfl, h1, h2⟩, rfl, h3, h4⟩, items, h5, h6, h7, h8, h9, h10⟩
    exact ⟨r2, items, rfl, h1, h2, h3, h4, h5, h6, h7, h8, h9, h10⟩
  · rintro ⟨r, items, rfl, h1, h2, h3, h4, h5, h6, h7, h8, h9, h10⟩
    exact ⟨[_, _], r, rfl, ⟨[_], [_], rfl, ⟨rfl, h1, h2⟩, rfl, h3, h4⟩, items, h5, h6, h7, h8, h9, h10⟩

theorem rml_is : Is (rmlC.read t) t Fmt.rml := by
  refine (Is.checked (Is.contSeqC (is_list (P := particlePairsOk)) spinGroup_is)).congr ?_
  intro x rs
  have key : ∀ l : LIST, particlePairsOk l ↔ 1 ≤ toInt32 l.l1 ∧ toInt32 l.data.length = 12 * toInt32 l.l1 := by
    intro l; simp only [particlePairsOk, LIST.npl]; omega
  simp only [rml_of, key]
  constructor
  · rintro ⟨⟨a, r1, r2, rfl, ⟨b1, b2, b3⟩, ⟨rfl, b4, b5⟩, h2, h3⟩, h4⟩
    exact ⟨a, r2, rfl, b1, b2, b3, b4, b5, h2, (atLeastOne_iff h2).mp h4, h3⟩
  · rintro ⟨a, r, rfl, b1, b2, b3, b4, b5, h2, h4, h3⟩
    exact ⟨⟨a, [_], r, rfl, ⟨b1, b2, b3⟩, ⟨rfl, b4, b5⟩, h2, h3⟩, (atLeastOne_iff h2).mpr h4⟩

/-! ### ranges and isotopes -/

theorem special_is : Is (specialC.read t) t (fun x rs => ∃ c, rs = [.cont c] ∧ x = .special c.c1 c.c2) := by
  refine (Is.map Is.cont).congr ?_
  intro x rs
  constructor
  · rintro ⟨c, rfl, rfl⟩; exact ⟨c, rfl, rfl⟩
  · rintro ⟨c, rfl, rfl⟩; exact ⟨c, rfl, rfl⟩

theorem resParams_is (lru lrf lfw : Int) : Is ((resParamsC lru lrf lfw).read t) t (Fmt.resParams lru lrf lfw) := by
  refine (Is.iteC special_is (Is.iteC (Is.iteC (Is.via breitWigner_is) (Is.iteC (Is.via breitWigner_is) (Is.iteC (Is.via reichMoore_is)
    (Is.iteC (Is.via rml_is) Is.none)))) (Is.iteC (Is.iteC (Is.iteC (Is.via caseA_is) (Is.iteC (Is.via caseB_is) Is.none))
    (Is.iteC (Is.via caseC_is) Is.none)) Is.none))).congr ?_
  intro x rs
  cases x <;> simp only [Fmt.resParams, ResParams.special.injEq, ResParams.slbw.injEq, ResParams.mlbw.injEq, ResParams.reichMoore.injEq, ResParams.rml.injEq,
    ResParams.caseA.injEq, ResParams.caseB.injEq, ResParams.caseC.injEq, reduceCtorEq, false_and, and_false, exists_eq_left', exists_false, or_false, false_or]
  case reichMoore b =>
    constructor
    · rintro ⟨_, h1, _, _, h2, h3⟩; exact ⟨h1, h2, h3⟩
    · rintro ⟨h1, h2, h3⟩; exact ⟨by omega, h1, by omega, by omega, h2, h3⟩
  all_goals
    constructor
    · grind
    · grind

theorem resParams_lru {lru lrf lfw : Int} {x : ResParams} {rs : List Rec} (h : Fmt.resParams lru lrf lfw x rs) : lru = x.lru ∧ (lru ≠ 0 → lrf = x.lrf) := by
  cases x with
  | special => exact ⟨h.1, fun h0 => absurd h.1 h0⟩
  | slbw b => exact ⟨h.1, fun _ => h.2.1⟩
  | mlbw b => exact ⟨h.1, fun _ => h.2.1⟩
  | reichMoore b => exact ⟨h.1, fun _ => h.2.1⟩
  | rml b => exact ⟨h.1, fun _ => h.2.1⟩
  | caseA b => exact ⟨h.1, fun _ => h.2.1⟩
  | caseB b => exact ⟨h.1, fun _ => h.2.1⟩
  | caseC b => exact ⟨h.1, fun _ => h.2.1⟩

theorem resRange_is (lfw : Int) : Is ((resRangeC lfw).read t) t (Fmt.resRange lfw) := by
  refine (Is.contBind fun c => Is.bind (Is.checked (Is.opt Is.tab1)) fun o => Is.bind (resParams_is _ _ _) fun p => Is.ite (fun _ => Is.pure _) fun _ => Is.fail _).congr ?_
  intro x rs
  constructor
  · rintro ⟨c, r, rfl, o, r1, r2, rfl, ⟨h1, h2⟩, p, r3, r4, rfl, h3, (⟨h4, rfl, rfl⟩ | ⟨_, h⟩)⟩
    · obtain ⟨e1, e2⟩ := resParams_lru h3
      obtain ⟨o1, o2⟩ := h4
      rcases h1 with ⟨a, rfl, h1, rfl⟩ | ⟨rfl, h1, rfl⟩
      · obtain ⟨p1, p2, p3, p4⟩ := o2 (by simp)
        simp only [← e1] at p3 p4
        refine ⟨c, r3, by simp, rfl, rfl, rfl, h3, p1, .inr ⟨h1, by simp, p2, p3, ?_⟩⟩
        rw [e2 p3]; exact p4
      · obtain ⟨p1, p2⟩ := o1 rfl
        exact ⟨c, r3, by simp, rfl, rfl, rfl, h3, p1, .inl ⟨by omega, rfl, p2⟩⟩
    · exact h.elim
  · rintro ⟨c, r, rfl, h1, h2, h3, h4, h5, h6⟩
    obtain ⟨e1, e2⟩ := resParams_lru h4
    refine ⟨c, x.radius.toList.map .tab1 ++ r, by simp, x.radius, _, r, rfl, ⟨?_, ?_⟩, x.parameters, r, [], by simp, h4, .inl ⟨?_, rfl, ?_⟩⟩
    · rcases h6 with ⟨a, b, d⟩ | ⟨a, b, d⟩
      · exact .inr ⟨b, by omega, by simp [b]⟩
      · cases ho : x.radius with
        | none => exact absurd ho b
        | some q => exact .inl ⟨q, rfl, a, rfl⟩
    · omega
    · refine ⟨fun h => ?_, fun h => ?_⟩
      · simp only at h
        rcases h6 with ⟨a, b, d⟩ | ⟨a, b, d⟩
        · simp only [← h3]; omega
        · exact absurd h b
      · simp only at h
        rcases h6 with ⟨a, b, d⟩ | ⟨a, b, d, f, g⟩
        · exact absurd b h
        · simp only [← h3, ← e1]
          refine ⟨h5, d, f, ?_⟩
          rw [← e2 f]; exact g
    · rw [← h1, ← h2, ← h3]

theorem isotope_is : Is (Isotope.read t) t Fmt.isotope := by
  refine (Is.mapErr (Is.contBind fun c => Is.map (Is.seqC (resRange_is _) _))).congr ?_
  intro x rs
  constructor
  · rintro ⟨c, r, rfl, e, rfl, h3, h4⟩; exact ⟨c, r, rfl, rfl, rfl, by simp [toBool], h3, h4⟩
  · rintro ⟨c, r, rfl, h1, h2, h3, h4, h5⟩
    rw [← toBool_iff] at h3
    exact ⟨c, r, rfl, x.ranges, by rw [← h1, ← h2, ← h3], h4, h5⟩

theorem mf2mt151_is (head : Division) : Is (mf2mt151.read head t) t (Fmt.mf2mt151 head.base) := by
  refine (Is.bind (Is.sequence isotope_is _) fun b => Is.ite (fun _ => Is.fail _) fun _ => Is.pure _).congr ?_
  intro x rs
  constructor
  · rintro ⟨b, r1, r2, rfl, ⟨h1, h2⟩, (⟨_, h⟩ | ⟨h3, rfl, rfl⟩)⟩
    · exact h.elim
    · exact ⟨h1, (count_pos h1).mp (by omega), by simpa using h2⟩
  · rintro ⟨h1, h2, h3⟩
    have := (count_pos h1).mpr h2
    exact ⟨x, rs, [], by simp, ⟨h1, h3⟩, .inr ⟨by omega, rfl, rfl⟩⟩

end ENDFtk

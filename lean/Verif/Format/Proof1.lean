import Verif.Format.Spec
/-
  The readers of files 1, 3, 4, 5, 6, 23 and 27 accept exactly the formats of Verif/Format/Spec.lean.
-/
set_option linter.unusedVariables false
set_option linter.unusedSectionVars false
set_option linter.unusedSimpArgs false
namespace ENDFtk
variable [Disco]

variable {t : Nums}

/-- Components that store a record as it is and check it. -/
theorem is_list {P : LIST → Prop} [DecidablePred P] {ov : LIST → Prop} [DecidablePred ov] : Is ((listC.checked P ov).read t) t (fun a rs => rs = [.list a] ∧ P a) := Is.checked Is.list
theorem is_tab1 {P : TAB1 → Prop} [DecidablePred P] : Is ((tab1C.checked P).read t) t (fun a rs => rs = [.tab1 a] ∧ P a) := Is.checked Is.tab1
theorem is_listE {f : LIST → Except Err Unit} : Is ((listC.checkedE f).read t) t (fun a rs => rs = [.list a] ∧ f a = .ok ()) := Is.checkedE Is.list

theorem ne_nil_of_count {α : Type} {n : Int} {xs : List α} (h : toInt32 n = xs.length) : xs ≠ [] ↔ asInt xs.length ≠ 0 := by
  have := toInt32_range n
  unfold asInt
  rw [toInt32_id (by omega) (by omega)]
  cases xs with
  | nil => simp
  | cons x xs => simp; omega

theorem count_pos {α : Type} {n : Int} {xs : List α} (h : toInt32 n = xs.length) : 0 < asInt xs.length ↔ xs ≠ [] := by
  have := toInt32_range n
  unfold asInt
  rw [toInt32_id (by omega) (by omega)]
  cases xs with
  | nil => simp
  | cons x xs => simp

/-! ### file 1 -/

theorem mf1mt451_is (head : Division) : Is (mf1mt451.read head t) t (Fmt.mf1mt451 head.base) := by
  have hp : Is (Info451.readParameters t) t (fun p rs => rs = [.cont p.1, .cont p.2.1, .cont p.2.2] ∧ 0 ≤ p.2.2.n1 ∧ 1 ≤ p.2.2.n2) := by
    refine (Is.contBind fun a => Is.contBind fun b => Is.contBind fun c => Is.ite (fun _ => Is.fail _) fun _ => Is.ite (fun _ => Is.fail _) fun _ => Is.pure _).congr ?_
    intro p rs
    constructor
    · rintro ⟨a, r, rfl, b, r, rfl, c, r, rfl, (⟨_, h⟩ | ⟨h1, (⟨_, h⟩ | ⟨h2, rfl, rfl⟩)⟩)⟩
      · exact h.elim
      · exact h.elim
      · exact ⟨rfl, by simp only; omega, by simp only; omega⟩
    · rintro ⟨rfl, h1, h2⟩
      exact ⟨_, _, rfl, _, _, rfl, _, _, rfl, .inr ⟨by omega, .inr ⟨by omega, rfl, rfl⟩⟩⟩
  refine (Is.bind hp fun p => Is.bind (Is.sequence Is.text p.2.2.n1) fun d => Is.map (Is.sequence Is.dir p.2.2.n2)).congr ?_
  intro x rs
  simp only [many_map']
  constructor
  · rintro ⟨⟨a, b, c⟩, r1, r2, rfl, ⟨rfl, h1, h2⟩, d, r3, r4, rfl, ⟨h3, rfl⟩, i, rfl, h4, rfl⟩
    exact ⟨rfl, rfl, rfl, rfl, by simp, h1, h3, h2, h4⟩
  · rintro ⟨h1, h2, h3, h4, rfl, h5, h6, h7, h8⟩
    refine ⟨(x.p0, x.p1, x.p2), _, _, List.append_assoc _ _ _, ⟨rfl, h5, h7⟩, x.desc, _, _, rfl, ⟨h6, rfl⟩, x.index, ?_, h8, rfl⟩
    rw [← h1, ← h2, ← h3, ← h4]

theorem nubar_is (lnu : Int) : Is (Nubar.read lnu t) t (Fmt.nubar lnu) := by
  refine (Is.ite (fun _ => Is.map Is.list) fun _ => Is.ite (fun _ => Is.map Is.tab1) fun _ => Is.fail _).congr ?_
  intro x rs
  cases x with
  | poly r => simp [Fmt.nubar]
  | tab r => simp [Fmt.nubar]; omega

theorem mf1nubar_is (mt : Int) (head : Division) : Is ((mf1nubar mt).read head t) t (Fmt.nubar head.base.l2) := nubar_is _

theorem decayC_is : Is (decayC.read t) t (fun a rs => rs = [.list a] ∧ (toInt32 a.data.length ≠ 0 ∧ toInt32 a.data.length % 2 = 0)) :=
  is_list.congr (by intro a rs; simp only [asInt]; constructor <;> (rintro ⟨rfl, h⟩; exact ⟨rfl, by omega⟩))

theorem decay_is (ldg : Int) : Is (Decay.read ldg t) t (Fmt.decay ldg) := by
  refine (Is.ite (fun _ => Is.map Is.list) fun _ => Is.ite (fun _ => Is.map (Is.checked (Is.iseq decayC_is))) fun _ => Is.fail _).congr ?_
  intro x rs
  simp only [many_map]
  cases x with
  | indep r => simp [Fmt.decay]
  | dep b =>
    have key : ∀ l : List LIST, (∀ r ∈ l, toInt32 r.data.length ≠ 0 ∧ toInt32 r.data.length % 2 = 0) →
        ((∀ x ∈ l, some (nnf x) = (l.head?).map nnf) ↔ ∀ r ∈ l, ∀ r' ∈ l, toInt32 r.data.length = toInt32 r'.data.length) := by
      intro l h
      cases l with
      | nil => simp
      | cons a l =>
        simp only [List.head?_cons, Option.map_some, Option.some.injEq]
        have e : ∀ r ∈ a :: l, ∀ r' ∈ a :: l, nnf r = nnf r' ↔ toInt32 r.data.length = toInt32 r'.data.length := by
          intro r hr r' hr'
          have h1 := (h r hr).2
          have h2 := (h r' hr').2
          simp only [nnf, asInt]
          obtain ⟨k, hk⟩ : ∃ k, toInt32 r.data.length = k * 2 := ⟨toInt32 r.data.length / 2, by omega⟩
          obtain ⟨k', hk'⟩ : ∃ k, toInt32 r'.data.length = k * 2 := ⟨toInt32 r'.data.length / 2, by omega⟩
          rw [hk, hk', Int.mul_tdiv_cancel _ (by decide), Int.mul_tdiv_cancel _ (by decide)]
          omega
        constructor
        · intro h1 r hr r' hr'
          exact (e r hr r' hr').mp ((h1 r hr).trans (h1 r' hr').symm)
        · intro h1 r hr
          exact (e r hr a (by simp)).mpr (h1 r hr a (by simp))
    simp only [Fmt.decay]
    constructor
    · rintro (⟨_, a, h, _⟩ | ⟨h0, (⟨h1, a, h2, ⟨r, rfl, h3, h4, rfl, h5⟩, h6⟩ | ⟨_, h⟩)⟩)
      · cases h
      · cases h2; exact ⟨h1, rfl, h3, h4, h5, (key _ h5).mp h6⟩
      · exact h.elim
    · rintro ⟨h1, rfl, h3, h4, h5, h6⟩
      exact .inr ⟨by omega, .inl ⟨h1, b, rfl, ⟨_, rfl, h3, h4, rfl, h5⟩, (key _ h5).mpr h6⟩⟩

theorem mf1mt455_is (head : Division) : Is (mf1mt455.read head t) t (Fmt.mf1mt455 head.base) := by
  refine (Is.bind (decay_is _) fun l => Is.map (nubar_is _)).congr ?_
  intro x rs
  constructor
  · rintro ⟨l, r1, r2, rfl, h1, n, rfl, h2⟩; exact ⟨r1, r2, rfl, h1, h2⟩
  · rintro ⟨r1, r2, rfl, h1, h2⟩; exact ⟨x.lambda, r1, r2, rfl, h1, x.nubar, rfl, h2⟩

theorem mf1mt460_is (head : Division) : Is (mf1mt460.read head t) t (Fmt.mf1mt460 head.base) := by
  refine (Is.ite (fun _ => Is.bind (Is.sequence Is.tab1 _) fun l => Is.ite (fun _ => Is.fail _) fun _ => Is.pure _) fun _ =>
    Is.ite (fun _ => Is.listBind fun r => Is.ite (fun _ => Is.fail _) fun _ => Is.pure _) fun _ => Is.fail _).congr ?_
  intro x rs
  simp only [many_map', toInt32_toInt32]
  cases x with
  | discrete l =>
    constructor
    · rintro (⟨h0, a, r1, r2, rfl, ⟨h1, rfl⟩, (⟨_, h⟩ | ⟨h2, rfl, h3⟩)⟩ | ⟨_, (⟨_, r, _, _, (⟨_, h⟩ | ⟨_, _, h⟩)⟩ | ⟨_, h⟩)⟩)
      · exact h.elim
      · cases h3; exact ⟨h0, by simp, h1, (count_pos h1).mp (by omega)⟩
      · exact h.elim
      · cases h
      · exact h.elim
    · rintro ⟨h0, rfl, h1, h2⟩
      have := (count_pos h1).mpr h2
      exact .inl ⟨h0, l, _, [], by simp, ⟨h1, rfl⟩, .inr ⟨by omega, rfl, rfl⟩⟩
  | continuous r =>
    constructor
    · rintro (⟨h0, a, r1, r2, rfl, ⟨h1, rfl⟩, (⟨_, h⟩ | ⟨h2, rfl, h3⟩)⟩ | ⟨_, (⟨h0, r, _, rfl, (⟨_, h⟩ | ⟨h1, rfl, h⟩)⟩ | ⟨_, h⟩)⟩)
      · exact h.elim
      · cases h3
      · exact h.elim
      · cases h; exact ⟨h0, rfl, by simp only [asInt] at h1; omega⟩
      · exact h.elim
    · rintro ⟨h0, rfl, h1⟩
      exact .inr ⟨by omega, .inl ⟨h0, r, [], rfl, .inr ⟨by simp only [asInt]; omega, rfl, rfl⟩⟩⟩

theorem releaseC_is : Is (releaseC.read t) t (fun a rs => rs = [.tab1 a] ∧ ((toInt32 a.base.l1 = 1 ∨ toInt32 a.base.l1 = 2) ∧
    1 ≤ toInt32 a.base.l2 ∧ toInt32 a.base.l2 ≤ 9)) :=
  is_tab1.congr (by intro a rs; constructor <;> (rintro ⟨rfl, h1, h2⟩; exact ⟨rfl, h1, by omega⟩))

/-- The loop over the components: they have different IFC, and those for which the place is taken already are refused. -/
theorem readLoop_is (n : Nat) (recs : List (Option TAB1)) (hl : recs.length = 9) : Is (TabComp.readLoop t n recs) t (fun out rs =>
    ∃ cs : List TAB1, rs = cs.map .tab1 ∧ cs.length = n ∧
      (∀ c ∈ cs, (toInt32 c.base.l1 = 1 ∨ toInt32 c.base.l1 = 2) ∧ 1 ≤ toInt32 c.base.l2 ∧ toInt32 c.base.l2 ≤ 9) ∧
      cs.Pairwise (fun c c' => toInt32 c.base.l2 ≠ toInt32 c'.base.l2) ∧ out.length = 9 ∧
      (∀ c ∈ cs, ∀ i : Nat, toInt32 c.base.l2 = i + 1 → recs[i]? = some none) ∧
      ∀ (i : Nat) c, out[i]? = some (some c) ↔ recs[i]? = some (some c) ∨ (c ∈ cs ∧ toInt32 c.base.l2 = i + 1)) := by
  induction n generalizing recs with
  | zero =>
    refine (Is.pure recs).congr ?_
    intro out rs
    constructor
    · rintro ⟨rfl, rfl⟩; exact ⟨[], rfl, rfl, by simp, by simp, hl, by simp, by simp⟩
    · rintro ⟨cs, rfl, h1, -, -, h2, -, h3⟩
      have : cs = [] := List.length_eq_zero_iff.mp h1
      subst this
      refine ⟨rfl, ?_⟩
      apply List.ext_getElem?
      intro i
      have := h3 i
      simp only [List.not_mem_nil, false_and, or_false] at this
      by_cases hi : i < 9
      · cases h4 : out[i]? with
        | none => simp at h4; omega
        | some o =>
          cases o with
          | some c => rw [(this c).mp h4]
          | none =>
            cases h5 : recs[i]? with
            | none => simp at h5; omega
            | some o' =>
              cases o' with
              | none => rfl
              | some c => rw [(this c).mpr h5] at h4; cases h4
      · rw [List.getElem?_eq_none (by omega), List.getElem?_eq_none (by omega)]
  | succ n ih =>
    have hfail : ∀ (c : TAB1) (k : Nat), (toInt32 c.base.l2 = k + 1) → k < 9 →
        Is (match recs[k]?.join with
            | none => TabComp.readLoop t n (recs.set k (some c))
            | some _ => Parser.fail .exc) t (fun out rs => recs[k]? = some none ∧
      ∃ cs : List TAB1, rs = cs.map .tab1 ∧ cs.length = n ∧
      (∀ c ∈ cs, (toInt32 c.base.l1 = 1 ∨ toInt32 c.base.l1 = 2) ∧ 1 ≤ toInt32 c.base.l2 ∧ toInt32 c.base.l2 ≤ 9) ∧
      cs.Pairwise (fun c c' => toInt32 c.base.l2 ≠ toInt32 c'.base.l2) ∧ out.length = 9 ∧
      (∀ c' ∈ cs, ∀ i : Nat, toInt32 c'.base.l2 = i + 1 → (recs.set k (some c))[i]? = some none) ∧
      ∀ (i : Nat) c', out[i]? = some (some c') ↔ (recs.set k (some c))[i]? = some (some c') ∨ (c' ∈ cs ∧ toInt32 c'.base.l2 = i + 1)) := by
      intro c k hk h9
      cases h : recs[k]? with
      | none => simp at h; omega
      | some o =>
        cases o with
        | none => simp only [Option.join, true_and]; exact ih _ (by simpa using hl)
        | some c' => simp only [Option.join, Option.some.injEq, reduceCtorEq, false_and]; exact Is.fail _
    have hstep : ∀ c : TAB1, Is (if 0 < ifc c ∧ ifc c < 10 then
        match recs[(ifc c - 1).toNat]?.join with
        | none => TabComp.readLoop t n (recs.set (ifc c - 1).toNat (some c))
        | some _ => Parser.fail .exc
      else Parser.fail .exc) t (fun out rs => (1 ≤ toInt32 c.base.l2 ∧ toInt32 c.base.l2 ≤ 9) ∧ recs[(ifc c - 1).toNat]? = some none ∧
      ∃ cs : List TAB1, rs = cs.map .tab1 ∧ cs.length = n ∧
      (∀ c ∈ cs, (toInt32 c.base.l1 = 1 ∨ toInt32 c.base.l1 = 2) ∧ 1 ≤ toInt32 c.base.l2 ∧ toInt32 c.base.l2 ≤ 9) ∧
      cs.Pairwise (fun c c' => toInt32 c.base.l2 ≠ toInt32 c'.base.l2) ∧ out.length = 9 ∧
      (∀ c' ∈ cs, ∀ i : Nat, toInt32 c'.base.l2 = i + 1 → (recs.set (ifc c - 1).toNat (some c))[i]? = some none) ∧
      ∀ (i : Nat) c', out[i]? = some (some c') ↔ (recs.set (ifc c - 1).toNat (some c))[i]? = some (some c') ∨ (c' ∈ cs ∧ toInt32 c'.base.l2 = i + 1)) := by
      intro c
      by_cases hc : 0 < ifc c ∧ ifc c < 10
      · rw [if_pos hc]
        refine (hfail c (ifc c - 1).toNat ?_ (by omega)).congr ?_
        · simp only [ifc] at hc ⊢; omega
        · intro out rs; simp only [ifc] at hc ⊢; simp only [show (1 ≤ toInt32 c.base.l2 ∧ toInt32 c.base.l2 ≤ 9) from by omega, true_and, and_self]
      · rw [if_neg hc]
        refine (Is.fail _).congr ?_
        intro out rs
        constructor
        · intro h; exact h.elim
        · rintro ⟨h, _⟩; simp only [ifc] at hc; omega
    refine (Is.bind releaseC_is hstep).congr ?_
    intro out rs
    constructor
    · rintro ⟨c, r1, r2, rfl, ⟨rfl, h1⟩, h2, h3, cs, rfl, h4, h5, h6, h7, h8, h9⟩
      have hk : toInt32 c.base.l2 = ((ifc c - 1).toNat : Nat) + 1 := by simp only [ifc]; omega
      generalize (ifc c - 1).toNat = k at *
      have hk9 : k < recs.length := by omega
      have hne : ∀ c' ∈ cs, toInt32 c.base.l2 ≠ toInt32 c'.base.l2 := by
        intro c' hc' he
        have := h8 c' hc' k (by omega)
        rw [List.getElem?_set_self hk9] at this
        cases this
      refine ⟨c :: cs, rfl, by simp [h4], by simpa using ⟨h1, h5⟩, List.pairwise_cons.mpr ⟨hne, h6⟩, h7, ?_, ?_⟩
      · intro c' hc' i hi
        rcases List.mem_cons.mp hc' with rfl | hc'
        · have : i = k := by omega
          rw [this]; exact h3
        · have := h8 c' hc' i hi
          rwa [List.getElem?_set_ne] at this
          have := hne c' hc'; omega
      · intro i c'
        rw [h9]
        by_cases hi : i = k
        · subst hi
          rw [List.getElem?_set_self hk9, h3]
          simp only [Option.some.injEq, List.mem_cons, reduceCtorEq, false_or]
          constructor
          · rintro (rfl | ⟨a, b⟩)
            · exact ⟨.inl rfl, hk⟩
            · exact ⟨.inr a, b⟩
          · rintro ⟨(rfl | a), b⟩
            · exact .inl rfl
            · exact .inr ⟨a, b⟩
        · rw [List.getElem?_set_ne (by omega)]
          simp only [List.mem_cons]
          constructor
          · rintro (a | ⟨a, b⟩)
            · exact .inl a
            · exact .inr ⟨.inr a, b⟩
          · rintro (a | ⟨(rfl | a), b⟩)
            · exact .inl a
            · omega
            · exact .inr ⟨a, b⟩
    · rintro ⟨cs, rfl, h4, h5, h6, h7, h8, h9⟩
      cases cs with
      | nil => simp at h4
      | cons c cs =>
        simp only [List.mem_cons, forall_eq_or_imp, List.length_cons, Nat.add_right_cancel_iff] at h4 h5 h8 h9
        obtain ⟨hne, h6⟩ := List.pairwise_cons.mp h6
        have hk : toInt32 c.base.l2 = ((ifc c - 1).toNat : Nat) + 1 := by have := h5.1.2; simp only [ifc]; omega
        refine ⟨c, _, _, List.map_cons .., ⟨rfl, h5.1⟩, h5.1.2, h8.1 _ hk, cs, rfl, h4, h5.2, h6, h7, ?_, ?_⟩
        · intro c' hc' i hi
          rw [List.getElem?_set_ne]
          · exact h8.2 c' hc' i hi
          · have := hne c' hc'; omega
        · intro i c'
          rw [h9]
          generalize (ifc c - 1).toNat = k at *
          have hk9 : k < recs.length := by have := h5.1.2; omega
          by_cases hi : i = k
          · subst hi
            rw [List.getElem?_set_self hk9, h8.1 _ hk]
            simp only [Option.some.injEq, reduceCtorEq, false_or]
            constructor
            · rintro ⟨(rfl | a), b⟩
              · exact .inl rfl
              · exact .inr ⟨a, b⟩
            · rintro (rfl | ⟨a, b⟩)
              · exact ⟨.inl rfl, hk⟩
              · exact ⟨.inr a, b⟩
          · rw [List.getElem?_set_ne (by omega)]
            constructor
            · rintro (a | ⟨(rfl | a), b⟩)
              · exact .inl a
              · omega
              · exact .inr ⟨a, b⟩
            · rintro (a | ⟨a, b⟩)
              · exact .inl a
              · exact .inr ⟨.inr a, b⟩

theorem readTables_is (nfc : Int) : Is (TabComp.readTables nfc t) t (fun out rs =>
    ∃ cs : List TAB1, rs = cs.map .tab1 ∧ nfc = cs.length ∧
      (∀ c ∈ cs, (toInt32 c.base.l1 = 1 ∨ toInt32 c.base.l1 = 2) ∧ 1 ≤ toInt32 c.base.l2 ∧ toInt32 c.base.l2 ≤ 9) ∧
      cs.Pairwise (fun c c' => toInt32 c.base.l2 ≠ toInt32 c'.base.l2) ∧ out.length = 9 ∧
      ∀ (i : Nat) c, out[i]? = some (some c) ↔ c ∈ cs ∧ toInt32 c.base.l2 = i + 1) := by
  refine (Is.ite (fun _ => Is.fail _) fun _ => readLoop_is nfc.toNat (List.replicate 9 none) (by simp)).congr ?_
  intro out rs
  have hr : ∀ (i : Nat) (c : TAB1), (List.replicate 9 (none : Option TAB1))[i]? ≠ some (some c) := by
    intro i c; rw [List.getElem?_replicate]; split <;> simp
  constructor
  · rintro (⟨_, h⟩ | ⟨h0, cs, rfl, h1, h2, h3, h4, h5, h6⟩)
    · exact h.elim
    · exact ⟨cs, rfl, by omega, h2, h3, h4, fun i c => by rw [h6]; simp only [hr, false_or]⟩
  · rintro ⟨cs, rfl, h1, h2, h3, h4, h6⟩
    refine .inr ⟨by omega, cs, rfl, by omega, h2, h3, h4, ?_, fun i c => by rw [h6]; simp only [hr, false_or]⟩
    intro c hc i hi
    have := (h2 c hc).2
    rw [List.getElem?_replicate, if_pos (by omega)]

theorem mf1mt458_is (head : Division) : Is (mf1mt458.read head t) t (Fmt.mf1mt458 head.base) := by
  refine (Is.ite (fun _ => Is.listBind fun r => Is.ite (fun _ => Is.fail _) fun _ => Is.ite
      (fun _ => Is.ite (fun _ => Is.fail _) fun _ => Is.pure _) (fun _ => Is.ite (fun _ => Is.fail _) fun _ => Is.pure _)) fun _ =>
    Is.ite (fun _ => Is.map (Is.bind is_list fun v => Is.map (readTables_is _))) fun _ => Is.fail _).congr ?_
  intro x rs
  have e18 : ∀ r : LIST, (r.npl : Int) = 18 → toInt32 r.npl = 18 := by intro r h; rw [h]; simp [toInt32]
  cases x with
  | thermal r =>
    constructor
    · rintro (⟨h0, a, _, rfl, (⟨_, h⟩ | ⟨h1, (⟨h2, (⟨_, h⟩ | ⟨h3, rfl, h⟩)⟩ | ⟨h2, (⟨_, h⟩ | ⟨h3, rfl, h⟩)⟩)⟩)⟩ | ⟨_, (⟨_, _, h, _⟩ | ⟨_, h⟩)⟩)
      · exact h.elim
      · exact h.elim
      · cases h
        refine ⟨h0, rfl, h2, ?_⟩
        simp only [LIST.npl, ne_eq, Decidable.not_not] at h1 h2
        rw [h2] at h1; omega
      · exact h.elim
      · cases h
      · cases h
      · exact h.elim
    · rintro ⟨h0, rfl, h1, h2⟩
      have hn : (r.npl : Int) = 18 := by simp only [LIST.npl]; omega
      exact .inl ⟨h0, r, [], rfl, .inr ⟨by rw [hn, h1]; simp, .inl ⟨h1, .inr ⟨by simp [e18 r hn], rfl, rfl⟩⟩⟩⟩
  | poly r =>
    constructor
    · rintro (⟨h0, a, _, rfl, (⟨_, h⟩ | ⟨h1, (⟨h2, (⟨_, h⟩ | ⟨h3, rfl, h⟩)⟩ | ⟨h2, (⟨_, h⟩ | ⟨h3, rfl, h⟩)⟩)⟩)⟩ | ⟨_, (⟨_, _, h, _⟩ | ⟨_, h⟩)⟩)
      · exact h.elim
      · exact h.elim
      · cases h
      · exact h.elim
      · cases h
        simp only [LIST.npl, ne_eq, Decidable.not_not] at h1 h3
        exact ⟨h0, rfl, h2, by omega, by omega⟩
      · cases h
      · exact h.elim
    · rintro ⟨h0, rfl, h1, h2, h3⟩
      exact .inl ⟨h0, r, [], rfl, .inr ⟨by simp only [LIST.npl]; omega, .inr ⟨h1, .inr ⟨by simp only [LIST.npl]; omega, rfl, rfl⟩⟩⟩⟩
  | tab b =>
    constructor
    · rintro (⟨h0, a, _, rfl, (⟨_, h⟩ | ⟨h1, (⟨h2, (⟨_, h⟩ | ⟨h3, rfl, h⟩)⟩ | ⟨h2, (⟨_, h⟩ | ⟨h3, rfl, h⟩)⟩)⟩)⟩ |
        ⟨_, (⟨h0, a, h, v, r1, r2, rfl, ⟨rfl, h1⟩, out, rfl, cs, rfl, h2⟩ | ⟨_, h⟩)⟩)
      · exact h.elim
      · exact h.elim
      · cases h
      · exact h.elim
      · cases h
      · cases h
        exact ⟨h0, rfl, cs, rfl, h1, h2⟩
      · exact h.elim
    · rintro ⟨h0, hn, cs, rfl, h1, h2⟩
      refine .inr ⟨by omega, .inl ⟨h0, b, rfl, b.values, [_], _, rfl, ⟨rfl, h1⟩, b.comps, ?_, cs, rfl, hn ▸ h2⟩⟩
      rw [← hn]

/-! ### files 3, 23, 27 -/

theorem mf3_is (head : Division) : Is (mf3.read head t) t Fmt.table := Is.tab1
theorem mfTable_is (mf : Int) (head : Division) : Is ((mfTable mf).read head t) t Fmt.table := Is.tab1

/-! ### file 4 -/

theorem tab2Of_list : Is ((iseqC listC).read t) t (Fmt.tab2Of .list) :=
  (Is.iseq Is.list).congr (by
    intro x rs
    simp only [many_map', Fmt.tab2Of]
    constructor
    · rintro ⟨r, rfl, h1, h2, rfl⟩; exact ⟨rfl, h1, h2⟩
    · rintro ⟨rfl, h1, h2⟩; exact ⟨_, rfl, h1, h2, rfl⟩)

theorem tab2Of_tab1 : Is ((iseqC tab1C).read t) t (Fmt.tab2Of .tab1) :=
  (Is.iseq Is.tab1).congr (by
    intro x rs
    simp only [many_map', Fmt.tab2Of]
    constructor
    · rintro ⟨r, rfl, h1, h2, rfl⟩; exact ⟨rfl, h1, h2⟩
    · rintro ⟨rfl, h1, h2⟩; exact ⟨_, rfl, h1, h2, rfl⟩)

theorem mixed_lined (b : Mixed) : b.lined ↔ ∀ l r, b.legendre.seq.getLast? = some l → b.tabulated.seq.head? = some r → Disco.eqD l.c2 r.base.c2 = true := by
  unfold Mixed.lined
  cases b.legendre.seq.getLast? with
  | none => simp
  | some l => cases b.tabulated.seq.head? <;> simp

theorem mixedC_is : Is (mixedC.read t) t (fun b rs => (∃ r1 r2, rs = r1 ++ r2 ∧ Fmt.tab2Of .list b.legendre r1 ∧ Fmt.tab2Of .tab1 b.tabulated r2) ∧
    ∀ l r, b.legendre.seq.getLast? = some l → b.tabulated.seq.head? = some r → Disco.eqD l.c2 r.base.c2 = true) := by
  refine (Is.bind tab2Of_list fun l => Is.bind tab2Of_tab1 fun r => Is.ite (fun _ => Is.pure _) fun _ => Is.fail _).congr ?_
  intro b rs
  constructor
  · rintro ⟨l, r1, r2, rfl, h1, r, r3, r4, rfl, h2, (⟨h3, rfl, rfl⟩ | ⟨_, h⟩)⟩
    · exact ⟨⟨r1, r3, by simp, h1, h2⟩, (mixed_lined _).mp h3⟩
    · exact h.elim
  · rintro ⟨⟨r1, r2, rfl, h1, h2⟩, h3⟩
    exact ⟨b.legendre, r1, r2, rfl, h1, b.tabulated, r2, [], by simp, h2, .inl ⟨(mixed_lined b).mpr h3, rfl, rfl⟩⟩

theorem angular_is (ltt : Int) : Is (Angular.read ltt t) t (Fmt.angular ltt) := by
  refine (Is.ite (fun _ => Is.pure _) fun _ => Is.ite (fun _ => Is.map tab2Of_list) fun _ => Is.ite (fun _ => Is.map tab2Of_tab1) fun _ =>
    Is.ite (fun _ => Is.map mixedC_is) fun _ => Is.fail _).congr ?_
  intro x rs
  cases x <;> simp only [Fmt.angular, Angular.legendre.injEq, Angular.tabulated.injEq, Angular.mixed.injEq, reduceCtorEq, false_and, and_false, exists_eq_left',
    exists_false, or_false, false_or, and_true]
  all_goals
    constructor
    · rintro ⟨_, h⟩; grind
    · rintro ⟨h1, h2⟩; grind

theorem mf4_is (head : Division) : Is (mf4.read head t) t (Fmt.mf4 head.base) := by
  refine (Is.contBind fun c => Is.map (angular_is _)).congr ?_
  intro x rs
  constructor
  · rintro ⟨c, r, rfl, a, rfl, h⟩; exact ⟨c, r, rfl, rfl, h⟩
  · rintro ⟨c, r, rfl, h1, h⟩; exact ⟨c, r, rfl, x.dist, by rw [← h1], h⟩

end ENDFtk

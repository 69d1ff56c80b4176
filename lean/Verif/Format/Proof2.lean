import Verif.Format.Proof1
import Verif.Section.GetterLemmas
/-
  The readers of files 5, 6, 7 and 8 accept exactly the formats of Verif/Format/Spec.lean.
-/
set_option linter.unusedVariables false
set_option linter.unusedSectionVars false
set_option linter.unusedSimpArgs false
namespace ENDFtk
variable [Disco]

variable {t : Nums}

/-! ### file 5 -/

theorem spectrum_is (lf : Int) : Is (Spectrum.read lf t) t (Fmt.spectrum lf) := by
  refine (Is.ite (fun _ => Is.map tab2Of_tab1) fun _ => Is.ite (fun _ => Is.tab1Bind fun a => Is.map Is.tab1) fun _ =>
    Is.ite (fun _ => Is.map Is.tab1) fun _ => Is.ite (fun _ => Is.map Is.tab1) fun _ => Is.ite (fun _ => Is.tab1Bind fun a => Is.map Is.tab1) fun _ =>
    Is.ite (fun _ => Is.map Is.tab1) fun _ => Is.fail _).congr ?_
  intro x rs
  cases x <;> simp only [Fmt.spectrum, Spectrum.tabulated.injEq, Spectrum.general.injEq, Spectrum.maxwell.injEq, Spectrum.evaporation.injEq, Spectrum.watt.injEq,
    Spectrum.madland.injEq, reduceCtorEq, false_and, and_false, exists_eq_left', exists_false, or_false, false_or, and_true]
  all_goals
    constructor
    · grind
    · grind

theorem spectrum_lf {lf : Int} {x : Spectrum} {rs : List Rec} (h : Fmt.spectrum lf x rs) : lf = x.lf := by
  cases x <;> exact h.1

theorem partial5_is : Is (partial5C.read t) t Fmt.partial5 := by
  refine (Is.tab1Bind fun p => Is.bind (spectrum_is _) fun d => Is.ite (fun _ => Is.fail _) fun _ => Is.pure _).congr ?_
  intro x rs
  constructor
  · rintro ⟨p, r, rfl, d, r1, r2, rfl, h1, (⟨_, h⟩ | ⟨h2, rfl, rfl⟩)⟩
    · exact h.elim
    · exact ⟨r1, by simp, h1⟩
  · rintro ⟨r, rfl, h⟩
    have := spectrum_lf h
    exact ⟨_, r, rfl, x.dist, r, [], by simp, h, .inr ⟨by simpa using this, rfl, rfl⟩⟩

theorem mf5_is (head : Division) : Is (mf5.read head t) t (Fmt.mf5 head.base) := by
  refine (Is.bind (Is.sequence partial5_is _) fun b => Is.ite (fun _ => Is.fail _) fun _ => Is.pure _).congr ?_
  intro x rs
  constructor
  · rintro ⟨b, r1, r2, rfl, ⟨h1, h2⟩, (⟨_, h⟩ | ⟨h3, rfl, rfl⟩)⟩
    · exact h.elim
    · exact ⟨h1, (ne_nil_of_count h1).mpr h3, by simpa using h2⟩
  · rintro ⟨h1, h2, h3⟩
    exact ⟨x, rs, [], by simp, ⟨h1, h3⟩, .inr ⟨(ne_nil_of_count h1).mp h2, rfl, rfl⟩⟩

/-! ### file 6 -/

theorem continuumCheck_ok (lang : Int) (l : LIST) : continuumCheck lang l = .ok () ↔ Fmt.continuumOk lang l := by
  unfold continuumCheck Fmt.continuumOk
  by_cases h3 : lang = 3
  · simp [h3]
  rw [if_neg h3]
  simp only [h3, false_or]
  rcases Decidable.em (¬ 0 < l.l2 + 2) with hp | hp
  · rw [if_pos (.inl (by omega))]; simp [hp]
  rw [Decidable.not_not] at hp
  have hk : 0 < (l.l2 + 2).toNat := by omega
  rw [show (2 + l.l2) = l.l2 + 2 by omega]
  by_cases hu : l.l1 < 0 ∨ ((strideL (l.l2 + 2).toNat l.data).length : Int) < l.l1
  · rw [if_pos (.inr hu)]
    rw [strideL_length hk] at hu
    simp only [reduceCtorEq, false_iff]
    rintro ⟨_, h1, h2, _⟩
    omega
  rw [if_neg (by omega)]
  have hu' := hu
  rw [strideL_length hk] at hu'
  have hsort : isSorted Disco.ltD ((strideL (l.l2 + 2).toNat l.data).drop l.l1.toNat) = true ↔
      ∀ (i : Nat) e e', l.l1 ≤ i → l.data[i * (l.l2 + 2).toNat]? = some e → l.data[(i + 1) * (l.l2 + 2).toNat]? = some e' → Disco.ltD e' e = false := by
    rw [isSorted_iff_chain]
    constructor
    · intro h i e e' hi h1 h2
      rw [← strideL_getElem? hk] at h1 h2
      obtain ⟨b1, c1⟩ := List.getElem?_eq_some_iff.mp h1
      obtain ⟨b2, c2⟩ := List.getElem?_eq_some_iff.mp h2
      have := h (i - l.l1.toNat) (by simp; omega)
      simp only [List.getElem_drop] at this
      rw [← c1, ← c2, ← this]
      congr 2 <;> omega
    · intro h i hi
      simp only [List.length_drop] at hi
      refine h (l.l1.toNat + i) _ _ (by omega) ?_ ?_
      · rw [← strideL_getElem? hk, List.getElem_drop, List.getElem?_eq_getElem]
      · rw [← strideL_getElem? hk, List.getElem_drop, show l.l1.toNat + i + 1 = l.l1.toNat + (i + 1) by omega, List.getElem?_eq_getElem]
  rcases Decidable.em (¬ isSorted Disco.ltD ((strideL (l.l2 + 2).toNat l.data).drop l.l1.toNat) = true) with hs | hs
  · rw [if_pos (by simpa using hs)]
    simp only [reduceCtorEq, false_iff]
    rintro ⟨_, _, _, h, _⟩
    exact hs (hsort.mpr h)
  rw [Decidable.not_not] at hs
  rw [if_neg (by simp [hs])]
  rw [← hsort]
  simp only [hs, hp, true_and]
  have en : toInt32 (l.npl : Int) = toInt32 (l.data.length : Int) := rfl
  constructor
  · intro h
    refine ⟨by omega, by omega, ?_⟩
    split at h
    · cases h
    rename_i h0
    simp only [Over] at h0
    split at h
    · cases h
    · split at h
      · cases h
      · rename_i h1 h2
        rw [← en]
        exact ⟨by omega, by omega, by omega⟩
  · rintro ⟨_, _, h0, h1, h2⟩
    rw [← en] at h1
    have i1 := isInt32_toInt32 l.l2
    have i2 := isInt32_toInt32 (l.npl : Int)
    simp only [IsInt32] at i1 i2
    rw [if_neg (by rw [← h1]; simp only [Over]; omega), if_neg (by omega), if_neg (by omega)]

theorem continuum_is : Is (continuumC.read t) t Fmt.continuum := by
  have h : ∀ r, Is ((continuumElemC r).read t) t (fun l rs => rs = [.list l] ∧ (r.l1 ∈ [1, 2, 3, 11, 12, 13, 14, 15] ∧ Fmt.continuumOk r.l1 l)) := by
    intro r
    refine (Is.checkedE (Is.iteC Is.list is_list)).congr ?_
    intro l rs
    rw [continuumCheck_ok]
    simp only [and_false, or_false, List.mem_cons, List.not_mem_nil]
    constructor
    · rintro ⟨⟨h1, rfl⟩, h2⟩; exact ⟨rfl, h1, h2⟩
    · rintro ⟨rfl, h1, h2⟩; exact ⟨⟨h1, rfl⟩, h2⟩
  refine (Is.iseqL h).congr ?_
  intro b rs
  simp only [many_map, Fmt.continuum, Fmt.tab2Lists]
  constructor
  · rintro ⟨r, rfl, h1, h2, rfl, h3⟩; exact ⟨rfl, h1, h2, h3⟩
  · rintro ⟨rfl, h1, h2, h3⟩; exact ⟨_, rfl, h1, h2, rfl, h3⟩

theorem tab2Lists_is {P Q : LIST → Prop} [DecidablePred P] {ov : LIST → Prop} [DecidablePred ov] (h : ∀ l, P l ↔ Q l) :
    Is ((iseqD (fun _ => listC.checked P ov)).read t) t (Fmt.tab2Lists fun _ l => Q l) := by
  refine (Is.iseqL fun _ => is_list).congr ?_
  intro b rs
  simp only [many_map, Fmt.tab2Lists, h]
  constructor
  · rintro ⟨r, rfl, h1, h2, rfl, h3⟩; exact ⟨rfl, h1, h2, h3⟩
  · rintro ⟨rfl, h1, h2, h3⟩; exact ⟨_, rfl, h1, h2, rfl, h3⟩

theorem twoBody_is : Is (twoBodyC.read t) t Fmt.twoBody := by
  refine tab2Lists_is ?_
  intro l
  simp [twoBodyOk, LIST.npl]

theorem charged_is : Is (chargedC.read t) t Fmt.charged := by
  refine tab2Lists_is ?_
  intro l
  simp [chargedOk, LIST.npl]

theorem laboratory_is : Is (laboratoryC.read t) t Fmt.laboratory := by
  refine (Is.iseq tab2Of_tab1).congr ?_
  intro b rs
  constructor
  · rintro ⟨r, rfl, h1, h2, h3⟩; exact ⟨⟨r, rfl, h3⟩, h1, h2⟩
  · rintro ⟨⟨r, rfl, h3⟩, h1, h2⟩; exact ⟨r, rfl, h1, h2, h3⟩

theorem law6_is (law : Int) : Is (Law6.read law t) t (Fmt.law6 t.mt law) := by
  refine (Is.ite (fun _ => Is.ite (fun _ => Is.fail _) fun _ => Is.pure _) fun _ => Is.ite (fun _ => Is.pure _) fun _ =>
    Is.ite (fun _ => Is.map continuum_is) fun _ => Is.ite (fun _ => Is.map twoBody_is) fun _ => Is.ite (fun _ => Is.pure _) fun _ =>
    Is.ite (fun _ => Is.pure _) fun _ => Is.ite (fun _ => Is.map charged_is) fun _ => Is.ite (fun _ => Is.map Is.cont) fun _ =>
    Is.ite (fun _ => Is.map laboratory_is) fun _ => Is.fail _).congr ?_
  intro x rs
  cases x <;> simp only [Fmt.law6, Law6.continuum.injEq, Law6.twoBody.injEq, Law6.charged.injEq, Law6.nBody.injEq, Law6.laboratory.injEq, Law6.elsewhere.injEq,
    reduceCtorEq, false_and, and_false, exists_eq_left', exists_false, or_false, false_or, and_true, List.mem_cons, List.not_mem_nil, ne_eq, Decidable.not_not]
  case laboratory b =>
    constructor
    · grind
    · rintro ⟨rfl, h⟩; simp [h]
  all_goals
    constructor
    · grind
    · grind

theorem law6_law {mt law : Int} {x : Law6} {rs : List Rec} (h : Fmt.law6 mt law x rs) : law = x.law := by
  cases x <;> exact h.1

theorem product6_is : Is (Product6.read t) t (Fmt.product6 t.mt) := by
  refine (Is.tab1Bind fun p => Is.bind (law6_is _) fun d => Is.ite (fun _ => Is.fail _) fun _ => Is.pure _).congr ?_
  intro x rs
  constructor
  · rintro ⟨p, r, rfl, d, r1, r2, rfl, h1, (⟨_, h⟩ | ⟨h2, rfl, rfl⟩)⟩
    · exact h.elim
    · exact ⟨r1, by simp, h1⟩
  · rintro ⟨r, rfl, h⟩
    have := law6_law h
    exact ⟨_, r, rfl, x.dist, r, [], by simp, h, .inr ⟨by simpa using this, rfl, rfl⟩⟩

theorem mf6_is (head : Division) : Is (mf6.read head t) t (Fmt.mf6 head.base t.mt) := by
  refine (Is.map (Is.sequence product6_is _)).congr ?_
  intro x rs
  constructor
  · rintro ⟨b, rfl, h1, h2⟩; exact ⟨rfl, rfl, h1, h2⟩
  · rintro ⟨h1, h2, h3, h4⟩; exact ⟨x.products, by rw [← h1, ← h2], h3, h4⟩

/-! ### file 7 -/

theorem Is.seqC {α : Type} {c : Comp α} {G : α → List Rec → Prop} (h : Is (c.read t) t G) (n : Int) :
    Is ((ENDFtk.seqC c n).read t) t (fun xs rs => toInt32 n = xs.length ∧ Many G xs rs) := Is.sequence h n

theorem tabLists_is : Is (tabListsC.read t) t (fun x rs => rs = .tab1 x.1 :: x.2.map .list ∧ toInt32 x.1.base.l1 = x.2.length) := by
  refine (Is.andThen Is.tab1 fun p => Is.seqC Is.list _).congr ?_
  intro x rs
  simp only [many_map']
  constructor
  · rintro ⟨r1, r2, rfl, rfl, h1, rfl⟩; exact ⟨rfl, h1⟩
  · rintro ⟨rfl, h1⟩; exact ⟨[_], _, rfl, rfl, h1, rfl⟩

theorem coherent_is : Is (coherentC.read t) t Fmt.coherent :=
  (Is.checked tabLists_is).congr (by
    intro x rs
    simp only [Fmt.coherent, coherentOk, LIST.npl, asInt, TAB1.np]
    constructor
    · rintro ⟨⟨a, b⟩, c⟩; exact ⟨a, b, c⟩
    · rintro ⟨a, b, c⟩; exact ⟨⟨a, b⟩, c⟩)

theorem mf7mt2_is (head : Division) : Is (mf7mt2.read head t) t (Fmt.mf7mt2 head.base) := by
  refine (Is.iteC (Is.via coherent_is) (Is.iteC (Is.via Is.tab1) (Is.iteC (Is.via (Is.andThen coherent_is fun _ => Is.tab1)) Is.none))).congr ?_
  intro x rs
  cases x <;> simp only [Fmt.mf7mt2, Elastic.coherent.injEq, Elastic.incoherent.injEq, Elastic.mixed.injEq, reduceCtorEq, false_and, and_false, exists_eq_left',
    exists_false, or_false, false_or, and_true]
  case mixed c i =>
    constructor
    · rintro ⟨_, _, h1, ⟨a, b⟩, ⟨rfl, rfl⟩, r1, r2, rfl, h2, rfl⟩; exact ⟨h1, r1, rfl, h2⟩
    · rintro ⟨h1, r1, rfl, h2⟩; exact ⟨by omega, by omega, h1, (c, i), ⟨rfl, rfl⟩, r1, _, rfl, h2, rfl⟩
  all_goals
    constructor
    · grind
    · grind

theorem scatteringFunction_is : Is (scatteringFunctionC.read t) t Fmt.scatteringFunction :=
  (Is.checked tabLists_is).congr (by
    intro x rs
    simp only [Fmt.scatteringFunction, betasOk]
    constructor
    · rintro ⟨⟨a, b⟩, c⟩; exact ⟨a, b, c⟩
    · rintro ⟨a, b, c⟩; exact ⟨⟨a, b⟩, c⟩)

theorem constantsCheck_ok (l : LIST) : constantsCheck l = .ok () ↔ 0 ≤ l.n2 ∧ l.n2 ≤ 3 ∧ toInt32 l.data.length = 6 * (l.n2 + 1) ∧
    (toInt32 l.l1 = 0 ∨ toInt32 l.l1 = 1) := by
  unfold constantsCheck
  have en : toInt32 (l.npl : Int) = toInt32 (l.data.length : Int) := rfl
  constructor
  · intro h
    split at h
    · cases h
    split at h
    · cases h
    split at h
    · cases h
    split at h
    · cases h
    split at h
    · cases h
    rename_i h1 h0 h2 h3 h4
    have := toInt32_lt1000 (n := l.n2) (by omega) (by omega)
    exact ⟨by omega, by omega, by omega, by omega⟩
  · rintro ⟨h1, h2, h3, h4⟩
    have := toInt32_lt1000 (n := l.n2) (by omega) (by omega)
    rw [if_neg (by omega), if_neg (by simp only [Over]; omega), if_neg (by omega), if_neg (by omega), if_neg (by omega)]

theorem temperatures_is (types : List Dbl) : Is ((temperaturesC types).read t) t (fun os rs => rs = os.filterMap (·.map .tab1) ∧
    os.map Option.isSome = types.map (fun type => Disco.eqD type Disco.zero)) := by
  induction types with
  | nil =>
    refine (Is.via Is.nilc).congr ?_
    intro os rs
    constructor
    · rintro ⟨_, rfl, rfl⟩; exact ⟨rfl, rfl⟩
    · rintro ⟨rfl, h⟩
      have : os = [] := by simpa using h
      subst this; exact ⟨(), rfl, rfl⟩
  | cons type types ih =>
    refine (Is.bind (Is.ite (fun _ => Is.map Is.tab1) fun _ => Is.pure _) fun o => Is.map ih).congr ?_
    intro os rs
    constructor
    · rintro ⟨o, r1, r2, rfl, (⟨h1, a, rfl, rfl⟩ | ⟨h1, rfl, rfl⟩), os, rfl, rfl, h2⟩
      · exact ⟨rfl, by simp [h1, h2]⟩
      · exact ⟨rfl, by simp [h1, h2]⟩
    · rintro ⟨rfl, h⟩
      cases os with
      | nil => simp at h
      | cons o os =>
        simp only [List.map_cons, List.cons.injEq] at h
        cases o with
        | none => exact ⟨none, [], _, rfl, .inr ⟨by simp [← h.1], rfl, rfl⟩, os, rfl, rfl, h.2⟩
        | some r => exact ⟨some r, [.tab1 r], _, rfl, .inl ⟨by simp [← h.1], r, rfl, rfl⟩, os, rfl, rfl, h.2⟩

theorem scatteringLaw_is (l : LIST) : Is ((scatteringLawC l).read t) t (fun o r =>
    match o with
    | none => Disco.eqD (l.data.headD Disco.zero) Disco.zero = true ∧ r = []
    | some b => Disco.eqD (l.data.headD Disco.zero) Disco.zero = false ∧ (∃ r1, r = .tab2 b.tab2 :: r1 ∧ Many Fmt.scatteringFunction b.seq r1) ∧
        toInt32 b.tab2.n2 = b.seq.length ∧ b.seq ≠ []) := by
  refine (Is.ite (fun _ => Is.pure _) fun _ => Is.map (Is.iseq scatteringFunction_is)).congr ?_
  intro o rs
  simp only [sigma0]
  cases o with
  | none => simp
  | some b =>
    simp only [reduceCtorEq, and_false, false_or, Option.some.injEq, exists_eq_left', Bool.not_eq_true]
    constructor
    · rintro ⟨h0, r, rfl, h1, h2, h3⟩; exact ⟨h0, ⟨r, rfl, h3⟩, h1, h2⟩
    · rintro ⟨h0, ⟨r, rfl, h3⟩, h1, h2⟩; exact ⟨h0, r, rfl, h1, h2, h3⟩

theorem functionTypes_eq (l : LIST) (os : List (Option TAB1)) :
    os.map Option.isSome = (functionTypes l).map (fun type => Disco.eqD type Disco.zero) ↔
    ∀ i, (os[i]?).map Option.isSome = (l.data[6 + 6 * i]?).map (fun type => Disco.eqD type Disco.zero) := by
  have e : ∀ i, (functionTypes l)[i]? = l.data[6 + 6 * i]? := by
    intro i
    rw [functionTypes, strideL_getElem? (by decide), List.getElem?_drop, Nat.mul_comm]
  constructor
  · intro h i
    have := congrArg (fun x => x[i]?) h
    simpa [e] using this
  · intro h
    apply List.ext_getElem?
    intro i
    simpa [e] using h i

theorem mf7mt4_is (head : Division) : Is (mf7mt4.read head t) t (Fmt.mf7mt4 head.base) := by
  refine (Is.bind is_listE fun c => Is.bind (scatteringLaw_is c) fun l => Is.tab1Bind fun p => Is.bind (temperatures_is _) fun s =>
    Is.ite (fun _ => Is.fail _) fun _ => Is.pure _).congr ?_
  intro x rs
  constructor
  · rintro ⟨c, r1, r2, rfl, ⟨rfl, h1⟩, l, r3, r4, rfl, h2, p, r5, rfl, s, r6, r7, rfl, ⟨rfl, h3⟩, (⟨_, h⟩ | ⟨h4, rfl, rfl⟩)⟩
    · exact h.elim
    · obtain ⟨a1, a2, a3, a4⟩ := (constantsCheck_ok c).mp h1
      exact ⟨rfl, rfl, by simp only; omega, ⟨r3, by simp, h2⟩, a1, a2, a3, a4, (functionTypes_eq _ _).mp h3⟩
  · rintro ⟨h1, h2, h3, ⟨r, rfl, h4⟩, a1, a2, a3, a4, h5⟩
    refine ⟨x.constants, [_], _, rfl, ⟨rfl, (constantsCheck_ok _).mpr ⟨a1, a2, a3, a4⟩⟩, x.law, r, .tab1 x.principal :: x.secondary.filterMap (·.map .tab1), by simp, h4, x.principal, _,
      rfl, x.secondary, _, [], by simp, ⟨rfl, (functionTypes_eq _ _).mpr h5⟩, .inr ⟨by omega, rfl, ?_⟩⟩
    rw [← h1, ← h2]

theorem lists_is {P Q : LIST → Prop} [DecidablePred P] {ov : LIST → Prop} [DecidablePred ov] (h : ∀ l, P l ↔ Q l) (n : Int) : Is ((seqC (listC.checked P ov) n).read t) t (Fmt.lists n Q) := by
  refine (Is.seqC is_list n).congr ?_
  intro x rs
  simp only [many_map, Fmt.lists, h]

theorem mf7mt451_is (head : Division) : Is (mf7mt451.read head t) t (Fmt.mf7mt451 head.base) := by
  refine (Is.bind (lists_is (Q := fun l => toInt32 l.data.length = 6 * toInt32 l.n2) (by intro l; simp only [elementOk, LIST.npl]; omega) _) fun b =>
    Is.ite (fun _ => Is.fail _) fun _ => Is.pure _).congr ?_
  intro x rs
  have key : ∀ b : List LIST, toInt32 head.base.l1 = b.length → (¬(b.length : Int) % 4294967296 = 0 ↔ b ≠ []) := by
    intro b h
    have := toInt32_range head.base.l1
    cases b with
    | nil => simp
    | cons a b => simp only [ne_eq, reduceCtorEq, not_false_eq_true, iff_true]; simp only [List.length_cons] at h ⊢; omega
  constructor
  · rintro ⟨b, r1, r2, rfl, h1, (⟨_, h⟩ | ⟨h3, rfl, rfl⟩)⟩
    · exact h.elim
    · exact ⟨by simpa using h1, (key _ h1.1).mp h3⟩
  · rintro ⟨h1, h2⟩
    exact ⟨x, rs, [], by simp, h1, .inr ⟨(key _ h1.1).mpr h2, rfl, rfl⟩⟩

/-! ### file 8 -/

theorem mf8yields_is (mt : Int) (head : Division) : Is ((mf8yields mt).read head t) t (Fmt.yields head.base) :=
  lists_is (by intro l; simp only [yieldsOk, LIST.npl]; omega) _

theorem decaySpectrum_is : Is (decaySpectrumC.read t) t Fmt.decaySpectrum := by
  refine (Is.checked (P := decaySpectrumOk) (Is.andThen (c := listC) (d := fun l => (seqC discreteC l.n2).andThen (fun _ => optC (toInt32 l.l1 ≠ 0) tab1C)) Is.list
    fun l => Is.andThen (c := seqC discreteC l.n2) (d := fun _ => optC (toInt32 l.l1 ≠ 0) tab1C) (Is.seqC (is_list (P := discreteOk)) l.n2)
    fun _ => Is.opt Is.tab1)).congr ?_
  intro x rs
  obtain ⟨l, d, o⟩ := x
  simp only [Fmt.decaySpectrum, many_map, decaySpectrumOk, discreteOk, LIST.npl, List.mem_cons, List.not_mem_nil, or_false]
  constructor
  · rintro ⟨⟨r1, r2, rfl, rfl, r3, r4, rfl, ⟨h1, rfl, h2⟩, h3⟩, h4, h5⟩
    refine ⟨?_, h1, h2, ?_, ?_, h5⟩
    · rcases h3 with ⟨a, rfl, _, rfl⟩ | ⟨rfl, _, rfl⟩ <;> simp
    · rcases h3 with ⟨a, rfl, h, rfl⟩ | ⟨rfl, h, rfl⟩
      · simp at h; simp [h]
      · simpa using h
    · intro h hd
      exact h4 ⟨h, by rw [hd]; simp [asInt, toInt32]⟩
  · rintro ⟨rfl, h1, h2, h3, h4, h5⟩
    refine ⟨⟨[.list l], d.map .list ++ o.toList.map .tab1, by simp, rfl, d.map .list, o.toList.map .tab1, rfl, ⟨h1, rfl, h2⟩, ?_⟩, ?_, h5⟩
    · cases o with
      | none => exact .inr ⟨rfl, by simpa using h3, rfl⟩
      | some a => exact .inl ⟨a, rfl, by simpa using h3, rfl⟩
    · rintro ⟨h, hd⟩
      exact (ne_nil_of_count h1).mp (h4 h) hd

theorem mf8mt457_is (head : Division) : Is (mf8mt457.read head t) t (Fmt.mf8mt457 head.base) := by
  have hu : ∀ n, toUInt32 (toInt32 n) = toUInt32 n := by intro n; unfold toUInt32 toInt32; omega
  refine (Is.bind (is_list (P := decayEnergiesOk)) fun e => Is.bind (is_list (P := decayModesOk)) fun m => Is.map (Is.seqC decaySpectrum_is _)).congr ?_
  intro x rs
  have hm : ∀ m : LIST, decayModesOk m ↔ toInt32 m.data.length = 6 * (if toInt32 m.n2 = 0 then 1 else toInt32 m.n2) := by
    intro m; simp only [decayModesOk, LIST.npl]; split <;> rfl
  have he : ∀ m : LIST, decayEnergiesOk m ↔ (toInt32 (m.data.length / 2 : Nat) = 3 ∨ toInt32 (m.data.length / 2 : Nat) = 17) := by
    intro m; simp only [decayEnergiesOk, LIST.npl, Int.natCast_ediv, Int.cast_ofNat_Int]
  simp only [hm, hu, he]
  constructor
  · rintro ⟨e, r1, r2, rfl, ⟨rfl, h1⟩, m, r3, r4, rfl, ⟨rfl, h2⟩, s, rfl, h3, h4⟩
    exact ⟨rfl, rfl, h1, h2, h3, r4, rfl, h4⟩
  · rintro ⟨h1, h2, h3, h4, h5, r, rfl, h6⟩
    exact ⟨x.energies, [_], _, rfl, ⟨rfl, h3⟩, x.modes, [_], _, rfl, ⟨rfl, h4⟩, x.spectra, by rw [← h1, ← h2], h5, h6⟩

end ENDFtk

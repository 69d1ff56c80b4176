import Verif.Record.Equal
import Verif.Props.Records
/-
  C69: comparison of records.

  Specification: two arrays of reals are the same (`SameReals`) if they have the same size and their elements are equal as `double`s, place by place; the
  integers must be equal.  `Plain x`: `x` is equal to itself (not a NaN).  `Sharp x`: only `x` itself is equal to `x` (not a NaN, not a zero: 0.0 == -0.0).
-/
set_option linter.unusedVariables false
set_option linter.unusedSectionVars false
set_option linter.unusedSimpArgs false
namespace ENDFtk.Props
open ENDFtk

section
variable [Disco]

def SameReals (xs ys : List Dbl) : Prop :=
  xs.length = ys.length ∧ ∀ (i : Nat) (x y : Dbl), xs[i]? = some x → ys[i]? = some y → Disco.eqD x y = true

theorem vectorEq_iff {α : Type} {eq : α → α → Bool} : ∀ {a b : List α}, vectorEq eq a b = true ↔
    a.length = b.length ∧ ∀ (i : Nat) (x y : α), a[i]? = some x → b[i]? = some y → eq x y = true
  | [], [] => by simp [vectorEq]
  | [], _ :: _ => by simp [vectorEq]
  | _ :: _, [] => by simp [vectorEq]
  | x :: a, y :: b => by
    have ih := vectorEq_iff (eq := eq) (a := a) (b := b)
    unfold vectorEq at ih ⊢
    simp only [List.length_cons, Bool.and_eq_true, beq_iff_eq, List.zip_cons_cons, List.all_cons, Nat.succ_eq_add_one, Nat.add_right_cancel_iff] at ih ⊢
    constructor
    · rintro ⟨h1, h2, h3⟩
      refine ⟨h1, fun i u v hu hv => ?_⟩
      cases i with
      | zero => simp at hu hv; subst hu; subst hv; exact h2
      | succ i => exact (ih.mp ⟨h1, h3⟩).2 i u v (by simpa using hu) (by simpa using hv)
    · rintro ⟨h1, h2⟩
      exact ⟨h1, h2 0 x y rfl rfl, (ih.mpr ⟨h1, fun i u v hu hv => h2 (i + 1) u v (by simpa using hu) (by simpa using hv)⟩).2⟩

theorem ints_iff {a b : List Int} : vectorEq (· == ·) a b = true ↔ a = b := by
  rw [vectorEq_iff]
  constructor
  · rintro ⟨h1, h2⟩
    refine List.ext_getElem h1 fun i hi hj => ?_
    have := h2 i _ _ (List.getElem?_eq_getElem hi) (List.getElem?_eq_getElem hj)
    simpa using this
  · rintro rfl
    exact ⟨rfl, fun i x y hx hy => by rw [hx] at hy; cases hy; simp⟩

/-! ### What `==` compares -/

/-- Control records: all six fields. -/
theorem C69_cont (a b : Cont) : a.equal b = true ↔ Disco.eqD b.c1 a.c1 = true ∧ Disco.eqD b.c2 a.c2 = true ∧
    a.l1 = b.l1 ∧ a.l2 = b.l2 ∧ a.n1 = b.n1 ∧ a.n2 = b.n2 := by
  simp only [Cont.equal, Bool.and_eq_true, beq_iff_eq]
  constructor <;> rintro ⟨h1, h2, h3, h4, h5, h6⟩ <;> exact ⟨h1, h2, h3.symm, h4.symm, h5.symm, h6.symm⟩

/-- Entries of the directory: MF, MT, NC and MOD, in C++ and in Python. -/
theorem C69_dir (a b : Dir) : (a.equal b = true ↔ a = b) ∧ (a.equalPython b = true ↔ a = b) := by
  obtain ⟨a1, a2, a3, a4⟩ := a
  obtain ⟨b1, b2, b3, b4⟩ := b
  simp only [Dir.equal, Dir.equalPython, Bool.and_eq_true, beq_iff_eq, Dir.mk.injEq]
  omega

/-- Text records: the texts, as they are kept. -/
theorem C69_text (a b : Text) : textEqual a b = true ↔ a = b := by
  unfold textEqual
  rw [beq_iff_eq]; exact eq_comm

/-- LIST records: C1, C2, L1, L2, N2 and the values (and so NPL). -/
theorem C69_list (a b : LIST) : a.equal b = true ↔ Disco.eqD a.c1 b.c1 = true ∧ Disco.eqD a.c2 b.c2 = true ∧
    a.l1 = b.l1 ∧ a.l2 = b.l2 ∧ a.n2 = b.n2 ∧ SameReals a.data b.data := by
  simp only [LIST.equal, Bool.and_eq_true, beq_iff_eq, vectorEq_iff, and_assoc, SameReals]

/-- TAB2 records: C1, C2, L1, L2 and the interpolation regions. -/
theorem C69_tab2 (a b : TAB2) : a.equal b = true ↔ Disco.eqD a.c1 b.c1 = true ∧ Disco.eqD a.c2 b.c2 = true ∧
    a.l1 = b.l1 ∧ a.l2 = b.l2 ∧ a.bounds = b.bounds ∧ a.ints = b.ints := by
  simp only [TAB2.equal, Bool.and_eq_true, beq_iff_eq, ints_iff, and_assoc]

/-- TAB1 records: C1, C2, L1, L2, the interpolation regions and the table. -/
theorem C69_tab1 (a b : TAB1) : a.equal b = true ↔ Disco.eqD a.base.c1 b.base.c1 = true ∧ Disco.eqD a.base.c2 b.base.c2 = true ∧
    a.base.l1 = b.base.l1 ∧ a.base.l2 = b.base.l2 ∧ a.base.bounds = b.base.bounds ∧ a.base.ints = b.base.ints ∧ SameReals a.x b.x ∧ SameReals a.y b.y := by
  simp only [TAB1.equal, Bool.and_eq_true, C69_tab2, vectorEq_iff, and_assoc, SameReals]

/-- `!=` is the opposite of `==`. -/
theorem C69_not_equal {α : Type} (eq : α → α → Bool) (a b : α) : notEqual eq a b = true ↔ ¬eq a b = true := by
  simp [notEqual]

/-! ### An equivalence -/

/-- `==` of `double`s is symmetric and transitive (also for NaN, which is equal to nothing). -/
structure DoubleEquality : Prop where
  symm : ∀ x y : Dbl, Disco.eqD x y = true → Disco.eqD y x = true
  trans : ∀ x y z : Dbl, Disco.eqD x y = true → Disco.eqD y z = true → Disco.eqD x z = true

/-- equal to itself: not a NaN -/
def Plain (x : Dbl) : Prop := Disco.eqD x x = true

theorem SameReals.symm (h : DoubleEquality) {xs ys : List Dbl} (hs : SameReals xs ys) : SameReals ys xs :=
  ⟨hs.1.symm, fun i y x hy hx => h.symm _ _ (hs.2 i x y hx hy)⟩

theorem SameReals.trans (h : DoubleEquality) {xs ys zs : List Dbl} (h1 : SameReals xs ys) (h2 : SameReals ys zs) : SameReals xs zs := by
  refine ⟨h1.1.trans h2.1, fun i x z hx hz => ?_⟩
  have hi := (List.getElem?_eq_some_iff.mp hx).1
  have : i < ys.length := by have := h1.1; omega
  exact h.trans _ _ _ (h1.2 i x _ hx (List.getElem?_eq_getElem this)) (h2.2 i _ z (List.getElem?_eq_getElem this) hz)

theorem sameReals_self {xs : List Dbl} : SameReals xs xs ↔ ∀ x ∈ xs, Plain x := by
  constructor
  · rintro ⟨_, h⟩ x hx
    obtain ⟨i, hi⟩ := List.mem_iff_getElem?.mp hx
    exact h i x x hi hi
  · intro h
    refine ⟨rfl, fun i x y hx hy => ?_⟩
    rw [hx] at hy; cases hy
    exact h x (List.mem_iff_getElem?.mpr ⟨i, hx⟩)

theorem C69_symmetric (h : DoubleEquality) :
    (∀ a b : Cont, a.equal b = true → b.equal a = true) ∧ (∀ a b : LIST, a.equal b = true → b.equal a = true) ∧
    (∀ a b : TAB2, a.equal b = true → b.equal a = true) ∧ (∀ a b : TAB1, a.equal b = true → b.equal a = true) := by
  refine ⟨fun a b => ?_, fun a b => ?_, fun a b => ?_, fun a b => ?_⟩
  · rw [C69_cont, C69_cont]
    rintro ⟨h1, h2, h3, h4, h5, h6⟩
    exact ⟨h.symm _ _ h1, h.symm _ _ h2, h3.symm, h4.symm, h5.symm, h6.symm⟩
  · rw [C69_list, C69_list]
    rintro ⟨h1, h2, h3, h4, h5, h6⟩
    exact ⟨h.symm _ _ h1, h.symm _ _ h2, h3.symm, h4.symm, h5.symm, h6.symm h⟩
  · rw [C69_tab2, C69_tab2]
    rintro ⟨h1, h2, h3, h4, h5, h6⟩
    exact ⟨h.symm _ _ h1, h.symm _ _ h2, h3.symm, h4.symm, h5.symm, h6.symm⟩
  · rw [C69_tab1, C69_tab1]
    rintro ⟨h1, h2, h3, h4, h5, h6, h7, h8⟩
    exact ⟨h.symm _ _ h1, h.symm _ _ h2, h3.symm, h4.symm, h5.symm, h6.symm, h7.symm h, h8.symm h⟩

theorem C69_transitive (h : DoubleEquality) :
    (∀ a b c : Cont, a.equal b = true → b.equal c = true → a.equal c = true) ∧
    (∀ a b c : LIST, a.equal b = true → b.equal c = true → a.equal c = true) ∧
    (∀ a b c : TAB2, a.equal b = true → b.equal c = true → a.equal c = true) ∧
    (∀ a b c : TAB1, a.equal b = true → b.equal c = true → a.equal c = true) := by
  refine ⟨fun a b c => ?_, fun a b c => ?_, fun a b c => ?_, fun a b c => ?_⟩
  · rw [C69_cont, C69_cont, C69_cont]
    rintro ⟨h1, h2, h3, h4, h5, h6⟩ ⟨g1, g2, g3, g4, g5, g6⟩
    exact ⟨h.trans _ _ _ g1 h1, h.trans _ _ _ g2 h2, h3.trans g3, h4.trans g4, h5.trans g5, h6.trans g6⟩
  · rw [C69_list, C69_list, C69_list]
    rintro ⟨h1, h2, h3, h4, h5, h6⟩ ⟨g1, g2, g3, g4, g5, g6⟩
    exact ⟨h.trans _ _ _ h1 g1, h.trans _ _ _ h2 g2, h3.trans g3, h4.trans g4, h5.trans g5, h6.trans h g6⟩
  · rw [C69_tab2, C69_tab2, C69_tab2]
    rintro ⟨h1, h2, h3, h4, h5, h6⟩ ⟨g1, g2, g3, g4, g5, g6⟩
    exact ⟨h.trans _ _ _ h1 g1, h.trans _ _ _ h2 g2, h3.trans g3, h4.trans g4, h5.trans g5, h6.trans g6⟩
  · rw [C69_tab1, C69_tab1, C69_tab1]
    rintro ⟨h1, h2, h3, h4, h5, h6, h7, h8⟩ ⟨g1, g2, g3, g4, g5, g6, g7, g8⟩
    exact ⟨h.trans _ _ _ h1 g1, h.trans _ _ _ h2 g2, h3.trans g3, h4.trans g4, h5.trans g5, h6.trans g6, h7.trans h g7, h8.trans h g8⟩

/-- A record is equal to itself exactly if none of its reals is a NaN. -/
theorem C69_reflexive :
    (∀ a : Cont, a.equal a = true ↔ ∀ x ∈ [a.c1, a.c2], Plain x) ∧
    (∀ a : LIST, a.equal a = true ↔ ∀ x ∈ a.c1 :: a.c2 :: a.data, Plain x) ∧
    (∀ a : TAB2, a.equal a = true ↔ ∀ x ∈ [a.c1, a.c2], Plain x) ∧
    (∀ a : TAB1, a.equal a = true ↔ ∀ x ∈ a.base.c1 :: a.base.c2 :: (a.x ++ a.y), Plain x) := by
  refine ⟨fun a => ?_, fun a => ?_, fun a => ?_, fun a => ?_⟩
  · simp [C69_cont, Plain]
  · simp [C69_list, sameReals_self, Plain]
  · simp [C69_tab2, Plain]
  · simp only [C69_tab1, sameReals_self, true_and, List.mem_cons, List.mem_append]
    constructor
    · rintro ⟨h1, h2, h3, h4⟩ x (rfl | rfl | h | h)
      · exact h1
      · exact h2
      · exact h3 x h
      · exact h4 x h
    · intro h
      exact ⟨h _ (.inl rfl), h _ (.inr (.inl rfl)), fun x hx => h x (.inr (.inr (.inl hx))), fun x hx => h x (.inr (.inr (.inr hx)))⟩

/-! ### Equal records are written alike -/

/-- equal to itself only: neither a NaN nor a zero (0.0 == -0.0) -/
def Sharp (x : Dbl) : Prop := Plain x ∧ ∀ y, Disco.eqD x y = true → y = x

theorem sameReals_sharp {xs ys : List Dbl} (h : ∀ x ∈ xs, Sharp x) : SameReals xs ys ↔ ys = xs := by
  constructor
  · rintro ⟨h1, h2⟩
    refine List.ext_getElem h1.symm fun i hi hj => ?_
    exact (h _ (List.getElem_mem hj)).2 _ (h2 i _ _ (List.getElem?_eq_getElem hj) (List.getElem?_eq_getElem hi))
  · rintro rfl
    exact sameReals_self.mpr fun x hx => (h x hx).1

/-- For records without zeros (and NaN) `==` is equality, so that equal records print the same text. -/
theorem C69_identical :
    (∀ a b : LIST, (∀ x ∈ a.c1 :: a.c2 :: a.data, Sharp x) → (a.equal b = true ↔ b = a)) ∧
    (∀ a b : TAB2, (∀ x ∈ [a.c1, a.c2], Sharp x) → (a.equal b = true ↔ b = a)) ∧
    (∀ a b : TAB1, (∀ x ∈ a.base.c1 :: a.base.c2 :: (a.x ++ a.y), Sharp x) → (a.equal b = true ↔ b = a)) := by
  have t2 : ∀ a b : TAB2, Sharp a.c1 → Sharp a.c2 → (a.equal b = true ↔ b = a) := fun a b s1 s2 => by
    constructor
    · rw [C69_tab2]
      rintro ⟨h1, h2, h3, h4, h5, h6⟩
      obtain ⟨b1, b2, b3, b4, b5, b6⟩ := b
      obtain rfl := s1.2 _ h1
      obtain rfl := s2.2 _ h2
      obtain ⟨a1, a2, a3, a4, a5, a6⟩ := a
      simp only at h3 h4 h5 h6
      subst h3; subst h4; subst h5; subst h6; rfl
    · rintro rfl
      exact (C69_reflexive.2.2.1 _).mpr fun x hx => by
        simp only [List.mem_cons, List.not_mem_nil, or_false] at hx
        rcases hx with rfl | rfl
        · exact s1.1
        · exact s2.1
  refine ⟨fun a b h => ?_, fun a b h => t2 a b (h _ (by simp)) (h _ (by simp)), fun a b h => ?_⟩
  · constructor
    · rw [C69_list]
      rintro ⟨h1, h2, h3, h4, h5, h6⟩
      have e1 := (h a.c1 (by simp)).2 _ h1
      have e2 := (h a.c2 (by simp)).2 _ h2
      have e6 := (sameReals_sharp fun x hx => h x (by simp [hx])).mp h6
      obtain ⟨b1, b2, b3, b4, b5, b6⟩ := b
      obtain ⟨a1, a2, a3, a4, a5, a6⟩ := a
      simp only at h3 h4 h5 e1 e2 e6
      subst h3; subst h4; subst h5; subst e1; subst e2; subst e6; rfl
    · rintro rfl
      exact (C69_reflexive.2.1 _).mpr fun x hx => (h x hx).1
  · have hb := t2 a.base b.base (h _ (by simp)) (h _ (by simp))
    unfold TAB1.equal
    rw [Bool.and_eq_true, Bool.and_eq_true, hb, vectorEq_iff, vectorEq_iff]
    have ex := sameReals_sharp (xs := a.x) (ys := b.x) (fun x hx => h x (by simp [hx]))
    have ey := sameReals_sharp (xs := a.y) (ys := b.y) (fun x hx => h x (by simp [hx]))
    unfold SameReals at ex ey
    rw [ex, ey]
    obtain ⟨b1, b2, b3⟩ := b
    obtain ⟨a1, a2, a3⟩ := a
    simp only [TAB1.mk.injEq, and_assoc]

/-- Equal records have the same number of lines. -/
theorem C69_same_lines :
    (∀ a b : LIST, a.equal b = true → a.nc = b.nc) ∧ (∀ a b : TAB2, a.equal b = true → a.nc = b.nc) ∧ (∀ a b : TAB1, a.equal b = true → a.nc = b.nc) := by
  refine ⟨fun a b h => ?_, fun a b h => ?_, fun a b h => ?_⟩
  · obtain ⟨_, _, _, _, _, h6⟩ := (C69_list a b).mp h
    have := h6.1
    simp only [LIST.nc, LIST.npl, this]
  · obtain ⟨_, _, _, _, h5, _⟩ := (C69_tab2 a b).mp h
    simp only [TAB2.nc, h5]
  · obtain ⟨_, _, _, _, h5, _, h7, _⟩ := (C69_tab1 a b).mp h
    have := h7.1
    simp only [TAB1.nc, TAB2.nc, h5, this]

/-- A record that is printed and read again is equal to the original (if its numbers fit the columns and none is a NaN). -/
theorem C69_read_again {t : Nums} (ht : t.Fit) (s : Text) (n : Int) :
    (∀ r : Cont, r.Ok → r.equal r = true → ∃ r' s', readCont t ⟨printCont r t ++ s, n⟩ = .ok (r', s') ∧ r'.equal r = true) ∧
    (∀ r : LIST, r.Ok → r.equal r = true → ∃ r' s', readLIST t ⟨r.print t ++ s, n⟩ = .ok (r', s') ∧ r'.equal r = true) ∧
    (∀ r : TAB2, r.Ok → r.equal r = true → ∃ r' s', readTAB2 t ⟨r.print t ++ s, n⟩ = .ok (r', s') ∧ r'.equal r = true) ∧
    (∀ r : TAB1, r.Ok → r.equal r = true → ∃ r' s', readTAB1 t ⟨r.print t ++ s, n⟩ = .ok (r', s') ∧ r'.equal r = true) :=
  ⟨fun r h e => ⟨_, _, C26_cont_round_trip h ht s n, e⟩, fun r h e => ⟨_, _, C28_list_round_trip h ht s n, e⟩,
   fun r h e => ⟨_, _, C29_tab2_round_trip h ht s n, e⟩, fun r h e => ⟨_, _, C29_tab1_round_trip h ht s n, e⟩⟩

/-- Not so for a text record made from a text of fewer than 66 characters: what is read from the line it prints has the blanks of the line and is not equal to it. -/
theorem C69_short_text {x : Text} {t : Nums} (hx : x.length < 66) (hn : '\n' ∉ x) (ht : t.Fit) (s : Text) (n : Int) :
    ∃ y s', readText t ⟨printText x t ++ s, n⟩ = .ok (y, s') ∧ y = x ++ blanks (66 - x.length) ∧ textEqual y x = false := by
  have e : printText x t = printText (x ++ blanks (66 - x.length)) t := by
    unfold printText
    congr 1
    simp [writeChars, blanks, List.take_of_length_le]
    omega
  have hl : (x ++ blanks (66 - x.length)).length = 66 := by simp [blanks]; omega
  have hm : '\n' ∉ x ++ blanks (66 - x.length) := by simp [hn, blanks]
  rw [e]
  refine ⟨_, _, C27_text_round_trip hl hm ht s n, rfl, ?_⟩
  cases hc : textEqual (x ++ blanks (66 - x.length)) x
  · rfl
  · have := (C69_text _ _).mp hc
    have := congrArg List.length this
    rw [hl] at this; omega

end
end ENDFtk.Props

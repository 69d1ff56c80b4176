import Verif.Section.All
/-
  Sequences of ENDF records, and what it means that a reader accepts exactly some of them.
-/
set_option linter.unusedVariables false
set_option linter.unusedSectionVars false
set_option linter.unusedSimpArgs false
namespace ENDFtk
variable [Disco]

/-- An ENDF record of one of the kinds that occur between HEAD and SEND. -/
inductive Rec where
  | cont (c : Cont)
  | list (r : LIST)
  | tab1 (r : TAB1)
  | tab2 (r : TAB2)
  | text (s : Text)
  | dir (d : Dir)

/-- From this position the record `r` with the numbers `t` can be read, and the position after it is `s'`.
    (What the record readers accept is the subject of C13-C22.) -/
def Rec.At (t : Nums) : Rec → St → St → Prop
  | .cont c, s, s' => readCont t s = .ok (c, s')
  | .list r, s, s' => readLIST t s = .ok (r, s')
  | .tab1 r, s, s' => readTAB1 t s = .ok (r, s')
  | .tab2 r, s, s' => readTAB2 t s = .ok (r, s')
  | .text x, s, s' => readText t s = .ok (x, s')
  | .dir d, s, s' => readDir t s = .ok (d, s')

/-- The records `rs`, one after the other. -/
inductive Recs (t : Nums) : List Rec → St → St → Prop
  | nil {s : St} : Recs t [] s s
  | cons {r : Rec} {rs : List Rec} {s s1 s2 : St} : r.At t s s1 → Recs t rs s1 s2 → Recs t (r :: rs) s s2

/-- The record as it is printed. -/
def Rec.print : Rec → Nums → Text
  | .cont c, t => printCont c t
  | .list r, t => r.print t
  | .tab1 r, t => r.print t
  | .tab2 r, t => r.print t
  | .text x, t => printText x t
  | .dir d, t => printDir d t

/-- One record after the other. -/
def printRecs (rs : List Rec) (t : Nums) : Text := rs.flatMap (fun r => r.print t)

/-- A sequence of things, each one with its own records. -/
inductive Many {α ρ : Type} (G : α → List ρ → Prop) : List α → List ρ → Prop
  | nil : Many G [] []
  | cons {x : α} {xs : List α} {r rs : List ρ} : G x r → Many G xs rs → Many G (x :: xs) (r ++ rs)

/-- The reader succeeds exactly if records come next that, together, have the format `G`, the result being related to them by `G`. -/
def Is {α : Type} (p : Parser α) (t : Nums) (G : α → List Rec → Prop) : Prop :=
  ∀ s a s', p s = .ok (a, s') ↔ ∃ rs, Recs t rs s s' ∧ G a rs

/-! ### lemmas -/

theorem recs_nil {t : Nums} {s s' : St} : Recs t [] s s' ↔ s' = s := by
  constructor
  · intro h; cases h; rfl
  · rintro rfl; exact .nil

theorem recs_cons {t : Nums} {r : Rec} {rs : List Rec} {s s' : St} : Recs t (r :: rs) s s' ↔ ∃ s1, r.At t s s1 ∧ Recs t rs s1 s' := by
  constructor
  · intro h; cases h with
    | cons h1 h2 => exact ⟨_, h1, h2⟩
  · rintro ⟨s1, h1, h2⟩; exact .cons h1 h2

theorem recs_append {t : Nums} {r1 r2 : List Rec} {s s' : St} : Recs t (r1 ++ r2) s s' ↔ ∃ s1, Recs t r1 s s1 ∧ Recs t r2 s1 s' := by
  induction r1 generalizing s with
  | nil => simp [recs_nil]
  | cons r rs ih =>
    simp only [List.cons_append, recs_cons, ih]
    constructor
    · rintro ⟨a, h1, b, h2, h3⟩; exact ⟨b, ⟨a, h1, h2⟩, h3⟩
    · rintro ⟨b, ⟨a, h1, h2⟩, h3⟩; exact ⟨a, h1, b, h2, h3⟩

theorem recs_singleton {t : Nums} {r : Rec} {s s' : St} : Recs t [r] s s' ↔ r.At t s s' := by
  rw [recs_cons]
  constructor
  · rintro ⟨s1, h1, h2⟩; rw [recs_nil] at h2; subst h2; exact h1
  · intro h; exact ⟨s', h, .nil⟩

theorem many_nil {α ρ : Type} {G : α → List ρ → Prop} {rs : List ρ} : Many G [] rs ↔ rs = [] := by
  constructor
  · intro h; cases h; rfl
  · rintro rfl; exact .nil

theorem many_cons {α ρ : Type} {G : α → List ρ → Prop} {x : α} {xs : List α} {rs : List ρ} :
    Many G (x :: xs) rs ↔ ∃ r1 r2, rs = r1 ++ r2 ∧ G x r1 ∧ Many G xs r2 := by
  constructor
  · intro h; cases h with
    | cons h1 h2 => exact ⟨_, _, rfl, h1, h2⟩
  · rintro ⟨r1, r2, rfl, h1, h2⟩; exact .cons h1 h2

theorem Many.congr {α ρ : Type} {G H : α → List ρ → Prop} (h : ∀ a rs, G a rs ↔ H a rs) (xs : List α) (rs : List ρ) : Many G xs rs ↔ Many H xs rs := by
  induction xs generalizing rs with
  | nil => rw [many_nil, many_nil]
  | cons x xs ih => simp only [many_cons, h, ih]

/-- Things that are stored as they are. -/
theorem many_exact {α ρ : Type} {f : α → List ρ} {P : α → Prop} (xs : List α) (rs : List ρ) :
    Many (fun a r => r = f a ∧ P a) xs rs ↔ rs = xs.flatMap f ∧ ∀ x ∈ xs, P x := by
  induction xs generalizing rs with
  | nil => simp [many_nil]
  | cons x xs ih =>
    simp only [many_cons, ih, List.flatMap_cons, List.mem_cons, forall_eq_or_imp]
    constructor
    · rintro ⟨r1, r2, rfl, ⟨rfl, h1⟩, rfl, h2⟩; exact ⟨rfl, h1, h2⟩
    · rintro ⟨rfl, h1, h2⟩; exact ⟨_, _, rfl, ⟨rfl, h1⟩, rfl, h2⟩

theorem many_map {α ρ : Type} {f : α → ρ} {P : α → Prop} (xs : List α) (rs : List ρ) :
    Many (fun a r => r = [f a] ∧ P a) xs rs ↔ rs = xs.map f ∧ ∀ x ∈ xs, P x := by
  rw [many_exact]
  have : xs.flatMap (fun a => [f a]) = xs.map f := by induction xs with
    | nil => rfl
    | cons x xs ih => simp [ih]
  rw [this]

theorem many_map' {α : Type} {f : α → Rec} (xs : List α) (rs : List Rec) :
    Many (fun a r => r = [f a]) xs rs ↔ rs = xs.map f := by
  rw [Many.congr (H := fun a r => r = [f a] ∧ True) (by simp), many_map]; simp

namespace Is
variable {α β : Type} {t : Nums}

theorem congr {p : Parser α} {G H : α → List Rec → Prop} (h : Is p t G) (e : ∀ a rs, G a rs ↔ H a rs) : Is p t H := by
  intro s a s'
  rw [h s a s']
  constructor
  · rintro ⟨rs, h1, h2⟩; exact ⟨rs, h1, (e _ _).mp h2⟩
  · rintro ⟨rs, h1, h2⟩; exact ⟨rs, h1, (e _ _).mpr h2⟩

theorem cont : Is (readCont t) t (fun a rs => rs = [.cont a]) := by
  intro s a s'
  constructor
  · intro h; exact ⟨[.cont a], recs_singleton.mpr h, rfl⟩
  · rintro ⟨_, h, rfl⟩; exact recs_singleton.mp h
theorem list : Is (readLIST t) t (fun a rs => rs = [.list a]) := by
  intro s a s'
  constructor
  · intro h; exact ⟨[.list a], recs_singleton.mpr h, rfl⟩
  · rintro ⟨_, h, rfl⟩; exact recs_singleton.mp h
theorem tab1 : Is (readTAB1 t) t (fun a rs => rs = [.tab1 a]) := by
  intro s a s'
  constructor
  · intro h; exact ⟨[.tab1 a], recs_singleton.mpr h, rfl⟩
  · rintro ⟨_, h, rfl⟩; exact recs_singleton.mp h
theorem tab2 : Is (readTAB2 t) t (fun a rs => rs = [.tab2 a]) := by
  intro s a s'
  constructor
  · intro h; exact ⟨[.tab2 a], recs_singleton.mpr h, rfl⟩
  · rintro ⟨_, h, rfl⟩; exact recs_singleton.mp h
theorem text : Is (readText t) t (fun a rs => rs = [.text a]) := by
  intro s a s'
  constructor
  · intro h; exact ⟨[.text a], recs_singleton.mpr h, rfl⟩
  · rintro ⟨_, h, rfl⟩; exact recs_singleton.mp h
theorem dir : Is (readDir t) t (fun a rs => rs = [.dir a]) := by
  intro s a s'
  constructor
  · intro h; exact ⟨[.dir a], recs_singleton.mpr h, rfl⟩
  · rintro ⟨_, h, rfl⟩; exact recs_singleton.mp h

theorem bind {p : Parser α} {f : α → Parser β} {G : α → List Rec → Prop} {H : α → β → List Rec → Prop} (h1 : Is p t G) (h2 : ∀ a, Is (f a) t (H a)) :
    Is (p >>= f) t (fun b rs => ∃ a r1 r2, rs = r1 ++ r2 ∧ G a r1 ∧ H a b r2) := by
  intro s b s'
  rw [Parser.bind_eq_ok]
  constructor
  · rintro ⟨a, s1, e1, e2⟩
    obtain ⟨r1, a1, a2⟩ := (h1 _ _ _).mp e1
    obtain ⟨r2, b1, b2⟩ := (h2 a _ _ _).mp e2
    exact ⟨r1 ++ r2, recs_append.mpr ⟨s1, a1, b1⟩, a, r1, r2, rfl, a2, b2⟩
  · rintro ⟨_, h, a, r1, r2, rfl, a2, b2⟩
    obtain ⟨s1, a1, b1⟩ := recs_append.mp h
    exact ⟨a, s1, (h1 _ _ _).mpr ⟨r1, a1, a2⟩, (h2 a _ _ _).mpr ⟨r2, b1, b2⟩⟩

theorem pure (x : α) : Is (Pure.pure x) t (fun a rs => rs = [] ∧ a = x) := by
  intro s a s'
  rw [Parser.pure_run]
  constructor
  · intro h; cases h; exact ⟨[], .nil, rfl, rfl⟩
  · rintro ⟨_, h, rfl, rfl⟩; cases h; rfl

theorem fail (e : Err) : Is (Parser.fail e : Parser α) t (fun _ _ => False) := by
  intro s a s'; simp

theorem ite {c : Prop} {inst : Decidable c} {p q : Parser α} {G H : α → List Rec → Prop} (h1 : c → Is p t G) (h2 : ¬c → Is q t H) :
    Is (if c then p else q) t (fun a rs => (c ∧ G a rs) ∨ (¬c ∧ H a rs)) := by
  intro s a s'
  by_cases hc : c
  · simp only [if_pos hc, hc, true_and, not_true_eq_false, false_and, or_false]; exact h1 hc s a s'
  · simp only [if_neg hc, hc, false_and, not_false_eq_true, true_and, false_or]; exact h2 hc s a s'

theorem mapErr {p : Parser α} {g : Err → Err} {G : α → List Rec → Prop} (h : Is p t G) : Is (Parser.mapErr g p) t G := by
  intro s a s'; rw [Parser.mapErr_ok]; exact h s a s'

theorem liftE (x : Except Err α) : Is (liftE x) t (fun a rs => rs = [] ∧ x = .ok a) := by
  intro s a s'
  unfold ENDFtk.liftE
  cases x with
  | ok y => simp only [Except.ok.injEq, Prod.mk.injEq]; constructor
            · rintro ⟨rfl, rfl⟩; exact ⟨[], .nil, rfl, rfl⟩
            · rintro ⟨_, h, rfl, rfl⟩; cases h; exact ⟨rfl, rfl⟩
  | error e => simp

/-- Reading a value and wrapping it. -/
theorem map {p : Parser α} {f : α → β} {G : α → List Rec → Prop} (h : Is p t G) :
    Is (p >>= fun a => Pure.pure (f a)) t (fun b rs => ∃ a, b = f a ∧ G a rs) :=
  (bind h (fun a => pure (f a))).congr (by
    intro b rs
    constructor
    · rintro ⟨a, r1, r2, rfl, h1, rfl, rfl⟩; exact ⟨a, rfl, by simpa using h1⟩
    · rintro ⟨a, rfl, h1⟩; exact ⟨a, rs, [], by simp, h1, rfl, rfl⟩)

theorem contBind {f : Cont → Parser β} {H : Cont → β → List Rec → Prop} (h : ∀ a, Is (f a) t (H a)) :
    Is (readCont t >>= f) t (fun b rs => ∃ a r, rs = .cont a :: r ∧ H a b r) :=
  (bind cont h).congr (by
    intro b rs
    constructor
    · rintro ⟨a, r1, r2, rfl, rfl, h2⟩; exact ⟨a, r2, rfl, h2⟩
    · rintro ⟨a, r, rfl, h2⟩; exact ⟨a, [_], r, rfl, rfl, h2⟩)
theorem listBind {f : LIST → Parser β} {H : LIST → β → List Rec → Prop} (h : ∀ a, Is (f a) t (H a)) :
    Is (readLIST t >>= f) t (fun b rs => ∃ a r, rs = .list a :: r ∧ H a b r) :=
  (bind list h).congr (by
    intro b rs
    constructor
    · rintro ⟨a, r1, r2, rfl, rfl, h2⟩; exact ⟨a, r2, rfl, h2⟩
    · rintro ⟨a, r, rfl, h2⟩; exact ⟨a, [_], r, rfl, rfl, h2⟩)
theorem tab1Bind {f : TAB1 → Parser β} {H : TAB1 → β → List Rec → Prop} (h : ∀ a, Is (f a) t (H a)) :
    Is (readTAB1 t >>= f) t (fun b rs => ∃ a r, rs = .tab1 a :: r ∧ H a b r) :=
  (bind tab1 h).congr (by
    intro b rs
    constructor
    · rintro ⟨a, r1, r2, rfl, rfl, h2⟩; exact ⟨a, r2, rfl, h2⟩
    · rintro ⟨a, r, rfl, h2⟩; exact ⟨a, [_], r, rfl, rfl, h2⟩)
theorem tab2Bind {f : TAB2 → Parser β} {H : TAB2 → β → List Rec → Prop} (h : ∀ a, Is (f a) t (H a)) :
    Is (readTAB2 t >>= f) t (fun b rs => ∃ a r, rs = .tab2 a :: r ∧ H a b r) :=
  (bind tab2 h).congr (by
    intro b rs
    constructor
    · rintro ⟨a, r1, r2, rfl, rfl, h2⟩; exact ⟨a, r2, rfl, h2⟩
    · rintro ⟨a, r, rfl, h2⟩; exact ⟨a, [_], r, rfl, rfl, h2⟩)

theorem many {p : Parser α} {G : α → List Rec → Prop} (h : Is p t G) (n : Nat) :
    Is (readMany p n) t (fun xs rs => xs.length = n ∧ Many G xs rs) := by
  induction n with
  | zero => exact (pure ([] : List α)).congr (by
      intro xs rs
      constructor
      · rintro ⟨rfl, rfl⟩; exact ⟨rfl, .nil⟩
      · rintro ⟨h1, h2⟩
        have : xs = [] := List.length_eq_zero_iff.mp h1
        subst this
        exact ⟨many_nil.mp h2, rfl⟩)
  | succ n ih =>
    refine (bind h fun x => map ih).congr ?_
    intro xs rs
    constructor
    · rintro ⟨x, r1, r2, rfl, h1, ys, rfl, h2, h3⟩
      exact ⟨by simp [h2], .cons h1 h3⟩
    · rintro ⟨h1, h2⟩
      cases xs with
      | nil => simp at h1
      | cons x xs =>
        obtain ⟨r1, r2, rfl, h3, h4⟩ := many_cons.mp h2
        exact ⟨x, r1, r2, rfl, h3, xs, rfl, by simpa using h1, h4⟩

theorem sequence {p : Parser α} {G : α → List Rec → Prop} (h : Is p t G) (n : Int) :
    Is (readSequence p n) t (fun xs rs => toInt32 n = xs.length ∧ Many G xs rs) := by
  refine (ite (fun _ => fail _) (fun _ => many h _)).congr ?_
  intro xs rs
  constructor
  · rintro (⟨_, h⟩ | ⟨h1, h2, h3⟩)
    · exact h.elim
    · exact ⟨by omega, h3⟩
  · rintro ⟨h1, h2⟩; exact .inr ⟨by omega, by omega, h2⟩

theorem sequenceL {p : Parser α} {G : α → List Rec → Prop} (h : Is p t G) (n : Int) :
    Is (readSequenceL p n) t (fun xs rs => n = xs.length ∧ Many G xs rs) := by
  refine (ite (fun _ => fail _) (fun _ => many h _)).congr ?_
  intro xs rs
  constructor
  · rintro (⟨_, h⟩ | ⟨h1, h2, h3⟩)
    · exact h.elim
    · exact ⟨by omega, h3⟩
  · rintro ⟨h1, h2⟩; exact .inr ⟨by omega, by omega, h2⟩

/-! components -/

theorem checked {c : Comp α} {P : α → Prop} [DecidablePred P] {ov : α → Prop} [DecidablePred ov] {G : α → List Rec → Prop} (h : Is (c.read t) t G) :
    Is ((c.checked P ov).read t) t (fun a rs => G a rs ∧ P a) :=
  (bind h fun a => ite (fun _ => pure a) (fun _ => fail _)).congr (by
    intro b rs
    constructor
    · rintro ⟨a, r1, r2, rfl, h1, (⟨h2, rfl, rfl⟩ | ⟨_, h⟩)⟩
      · exact ⟨by simpa using h1, h2⟩
      · exact h.elim
    · rintro ⟨h1, h2⟩; exact ⟨b, rs, [], by simp, h1, .inl ⟨h2, rfl, rfl⟩⟩)

theorem checkedE {c : Comp α} {f : α → Except Err Unit} {G : α → List Rec → Prop} (h : Is (c.read t) t G) :
    Is ((c.checkedE f).read t) t (fun a rs => G a rs ∧ f a = .ok ()) :=
  (bind h fun a => bind (liftE (f a)) fun _ => pure a).congr (by
    intro b rs
    constructor
    · rintro ⟨a, r1, r2, rfl, h1, u, r3, r4, rfl, ⟨rfl, h2⟩, rfl, rfl⟩
      exact ⟨by simpa using h1, h2⟩
    · rintro ⟨h1, h2⟩; exact ⟨b, rs, [], by simp, h1, (), [], [], rfl, ⟨rfl, h2⟩, rfl, rfl⟩)

theorem make_ok {r : TAB2} {xs : List α} {a : ISeq α} : ISeq.make r xs = .ok a ↔
    a = ⟨r, xs⟩ ∧ (xs.length : Int) % 4294967296 ≠ 0 ∧ ¬ TAB1.npDiffer r.n2 xs.length = true := by
  unfold ISeq.make
  by_cases h1 : (xs.length : Int) % 4294967296 = 0
  · simp [h1]
  by_cases h2 : TAB1.npDiffer r.n2 xs.length = true
  · simp [h1, h2]
  · rw [if_neg h1, if_neg h2]
    constructor
    · intro h; cases h; exact ⟨rfl, h1, h2⟩
    · rintro ⟨rfl, _⟩; rfl

/-- An interpolation sequence: a TAB2 record and as many elements as its N2 (an `int`) says, at least one. -/
theorem iseq {c : Comp α} {G : α → List Rec → Prop} (h : Is (c.read t) t G) :
    Is ((iseqC c).read t) t (fun x rs => ∃ r, rs = .tab2 x.tab2 :: r ∧ toInt32 x.tab2.n2 = x.seq.length ∧ x.seq ≠ [] ∧ Many G x.seq r) :=
  (tab2Bind fun r => bind (sequence h r.n2) fun xs => liftE (ISeq.make r xs)).congr (by
    intro b rs
    constructor
    · rintro ⟨a, r, rfl, xs, r1, r2, rfl, ⟨h1, h2⟩, rfl, h3⟩
      obtain ⟨rfl, h4, h5⟩ := make_ok.mp h3
      refine ⟨_, rfl, h1, ?_, by simpa using h2⟩
      rintro rfl; simp at h4
    · rintro ⟨r, rfl, h1, h2, h3⟩
      refine ⟨b.tab2, r, rfl, b.seq, r, [], by simp, ⟨h1, h3⟩, rfl, make_ok.mpr ⟨rfl, ?_, ?_⟩⟩
      · have hpos : 0 < b.seq.length := List.length_pos_iff.mpr h2
        have hlt := toInt32_range b.tab2.n2
        omega
      · simp only [TAB1.npDiffer, bne_iff_ne, ne_eq, Decidable.not_not]
        simp only [toInt32] at h1
        omega)

/-- The same with a `long` count. -/
theorem iseqL {c : TAB2 → Comp α} {G : TAB2 → α → List Rec → Prop} (h : ∀ r, Is ((c r).read t) t (G r)) :
    Is ((iseqD c).read t) t (fun x rs => ∃ r, rs = .tab2 x.tab2 :: r ∧ x.tab2.n2 = x.seq.length ∧ (x.seq.length : Int) % 4294967296 ≠ 0 ∧
      Many (G x.tab2) x.seq r) :=
  (tab2Bind fun r => bind (sequenceL (h r) r.n2) fun xs => liftE (ISeq.make r xs)).congr (by
    intro b rs
    constructor
    · rintro ⟨a, r, rfl, xs, r1, r2, rfl, ⟨h1, h2⟩, rfl, h3⟩
      obtain ⟨rfl, h4, h5⟩ := make_ok.mp h3
      exact ⟨_, rfl, h1, h4, by simpa using h2⟩
    · rintro ⟨r, rfl, h1, h2, h3⟩
      refine ⟨b.tab2, r, rfl, b.seq, r, [], by simp, ⟨h1, h3⟩, rfl, make_ok.mpr ⟨rfl, h2, ?_⟩⟩
      simp only [TAB1.npDiffer, bne_iff_ne, ne_eq, Decidable.not_not]
      omega)

theorem andThen {c : Comp α} {d : α → Comp β} {G : α → List Rec → Prop} {H : α → β → List Rec → Prop} (h1 : Is (c.read t) t G)
    (h2 : ∀ a, Is ((d a).read t) t (H a)) : Is ((c.andThen d).read t) t (fun x rs => ∃ r1 r2, rs = r1 ++ r2 ∧ G x.1 r1 ∧ H x.1 x.2 r2) :=
  (bind h1 fun a => map (h2 a)).congr (by
    intro b rs
    constructor
    · rintro ⟨a, r1, r2, rfl, h1, y, rfl, h3⟩; exact ⟨r1, r2, rfl, h1, h3⟩
    · rintro ⟨r1, r2, rfl, h1, h3⟩; exact ⟨b.1, r1, r2, rfl, h1, b.2, rfl, h3⟩)

theorem via {V : Type} {c : Comp α} {P : Printer V} {f : α → V} {G : α → List Rec → Prop} (h : Is (c.read t) t G) :
    Is ((c.via P f).read t) t (fun b rs => ∃ a, b = f a ∧ G a rs) := map h

theorem none {V : Type} {P : Printer V} : Is (P.none.read t) t (fun _ _ => False) := fail _

theorem nilc : Is (nilC.read t) t (fun _ rs => rs = []) :=
  (pure ()).congr (by intro a rs; simp)

theorem iteC {c : Prop} {inst : Decidable c} {p q : Comp α} {G H : α → List Rec → Prop} (h1 : Is (p.read t) t G) (h2 : Is (q.read t) t H) :
    Is ((if c then p else q).read t) t (fun a rs => (c ∧ G a rs) ∨ (¬c ∧ H a rs)) := by
  by_cases hc : c
  · simp only [if_pos hc, hc, true_and, not_true_eq_false, false_and, or_false]; exact h1
  · simp only [if_neg hc, hc, false_and, not_false_eq_true, true_and, false_or]; exact h2

theorem opt {c : Prop} {inst : Decidable c} {p : Comp α} {G : α → List Rec → Prop} (h : Is (p.read t) t G) :
    Is ((optC c p).read t) t (fun o rs => (∃ x, o = some x ∧ c ∧ G x rs) ∨ (o = Option.none ∧ ¬c ∧ rs = [])) :=
  (ite (fun _ => map h) (fun _ => pure Option.none)).congr (by
    intro o rs
    constructor
    · rintro (⟨h1, a, rfl, h2⟩ | ⟨h1, rfl, rfl⟩)
      · exact .inl ⟨a, rfl, h1, h2⟩
      · exact .inr ⟨rfl, h1, rfl⟩
    · rintro (⟨a, rfl, h1, h2⟩ | ⟨rfl, h1, rfl⟩)
      · exact .inl ⟨h1, a, rfl, h2⟩
      · exact .inr ⟨h1, rfl, rfl⟩)

end Is

end ENDFtk

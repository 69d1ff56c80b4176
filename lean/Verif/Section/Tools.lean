import Verif.Section.Lemmas
/-
  Lemmas used to show the requirements `Comp.Law` and `SecDef.Law` for components and section types.
-/
set_option linter.unusedVariables false
set_option linter.unusedSectionVars false
set_option linter.unusedSimpArgs false
namespace ENDFtk
variable [Disco]

/-- The loop `sequence.reserve( n ); while ( n-- ) { ... }` with a `long` count, as in section/6/ContinuumEnergyAngle/src/readSequence.hpp 12-44,
    DiscreteTwoBodyScattering/src/readSequence.hpp 11-37, ChargedParticleElasticScattering/src/readSequence.hpp 11-41: `reserve` throws
    `std::length_error` for a negative count. -/
def readSequenceL {α : Type} (p : Parser α) (n : Int) : Parser (List α) :=
  if n < 0 then Parser.fail .exc else readMany p n.toNat

/-! ### reading back what was printed -/

/-- The parser reads `a` from this text, which has `k` lines. -/
def Rd {α : Type} (p : Parser α) (txt : Text) (a : α) (k : Nat) : Prop := ∀ s n, p ⟨txt ++ s, n⟩ = .ok (a, ⟨s, n + (k : Int)⟩)

namespace Rd
variable {α β : Type}

theorem pure (a : α) : Rd (Pure.pure a) [] a 0 := by intro s n; simp [Parser.pure_run]

theorem bind {p : Parser α} {f : α → Parser β} {t1 t2 : Text} {a : α} {b : β} {k1 k2 : Nat}
    (h1 : Rd p t1 a k1) (h2 : Rd (f a) t2 b k2) : Rd (p >>= f) (t1 ++ t2) b (k1 + k2) := by
  intro s n
  rw [List.append_assoc, Parser.bind_ok (h1 _ n), h2]
  simp; omega

theorem bind' {p : Parser α} {f : α → Parser β} {t1 t2 t : Text} {a : α} {b : β} {k1 k2 k : Nat}
    (h1 : Rd p t1 a k1) (h2 : Rd (f a) t2 b k2) (ht : t = t1 ++ t2) (hk : k = k1 + k2) : Rd (p >>= f) t b k := by
  subst ht hk; exact h1.bind h2

/-- The last step returns the value that was read, possibly wrapped. -/
theorem bindPure {p : Parser α} {f : α → Parser β} {t : Text} {a : α} {b : β} {k : Nat}
    (h1 : Rd p t a k) (h2 : f a = Pure.pure b) : Rd (p >>= f) t b k := by
  have := h1.bind (f := f) (t2 := []) (b := b) (k2 := 0) (by rw [h2]; exact .pure b)
  simpa using this

theorem mapErr {p : Parser α} {g : Err → Err} {t : Text} {a : α} {k : Nat} (h : Rd p t a k) : Rd (Parser.mapErr g p) t a k := by
  intro s n; rw [Parser.mapErr_ok]; exact h s n

theorem ite_neg {p q : Parser α} {c : Prop} {inst : Decidable c} {t : Text} {a : α} {k : Nat} (hc : ¬c) (h : Rd q t a k) :
    Rd (if c then p else q) t a k := by rw [if_neg hc]; exact h

theorem ite_pos {p q : Parser α} {c : Prop} {inst : Decidable c} {t : Text} {a : α} {k : Nat} (hc : c) (h : Rd p t a k) :
    Rd (if c then p else q) t a k := by rw [if_pos hc]; exact h

theorem cast {p : Parser α} {t t' : Text} {a : α} {k k' : Nat} (h : Rd p t a k) (ht : t' = t) (hk : k' = k) : Rd p t' a k' := by
  subst ht hk; exact h

theorem liftE {x : Except Err α} {a : α} (h : x = .ok a) : Rd (liftE x) [] a 0 := by
  intro s n; subst h; simp [ENDFtk.liftE]

theorem seq {p : Parser α} {pr : α → Text} {nc : α → Nat} {xs : List α} {n : Int} (hn : toInt32 n = xs.length)
    (h : ∀ x ∈ xs, Rd p (pr x) x (nc x)) : Rd (readSequence p n) (xs.flatMap pr) xs (xs.map nc).sum := by
  intro s m
  rw [readSequence, hn, if_neg (by omega), Int.toNat_natCast]
  exact readMany_print h s m

theorem seqL {p : Parser α} {pr : α → Text} {nc : α → Nat} {xs : List α} {n : Int} (hn : n = xs.length)
    (h : ∀ x ∈ xs, Rd p (pr x) x (nc x)) : Rd (readSequenceL p n) (xs.flatMap pr) xs (xs.map nc).sum := by
  intro s m
  rw [readSequenceL, hn, if_neg (by omega), Int.toNat_natCast]
  exact readMany_print h s m

end Rd

theorem Comp.Law.rd {α : Type} {c : Comp α} {E : Err → Prop} (h : c.Law E) {a : α} {t : Nums} (hv : c.Valid a) (hr : Reps (c.reals a)) (ht : t.Fit) :
    Rd (c.read t) (c.print a t) a (c.nc a) := h.round hv hr ht

/-! ### what can be read -/

/-- As in `Comp.Law.reads`, `k` lines having been read before. -/
def RvK {β : Type} (t : Nums) (V : β → Prop) (nc : β → Nat) (k : Nat) (p : Parser β) (E : Err → Prop := StdErr) : Prop :=
  Reads E (fun b ls => V b ∧ AllTail t ls ∧ k + ls.length = nc b) p

namespace RvK
variable {α β : Type} {t : Nums} {V : β → Prop} {nc : β → Nat} {k : Nat} {E E1 : Err → Prop}

theorem toReads {p : Parser β} (h : RvK t V nc 0 p E) : Reads E (fun b ls => V b ∧ AllTail t ls ∧ ls.length = nc b) p :=
  h.post (by rintro b ls ⟨h1, h2, h3⟩; exact ⟨h1, h2, by omega⟩)

theorem ofReads {p : Parser β} (h : Reads E (fun b ls => V b ∧ AllTail t ls ∧ ls.length = nc b) p) : RvK t V nc 0 p E :=
  h.post (by rintro b ls ⟨h1, h2, h3⟩; exact ⟨h1, h2, by omega⟩)

theorem bind [ErrSub E1 E] {V1 : α → Prop} {nc1 : α → Nat} {p : Parser α} {f : α → Parser β}
    (h1 : Reads E1 (fun a ls => V1 a ∧ AllTail t ls ∧ ls.length = nc1 a) p)
    (h2 : ∀ a, V1 a → RvK t V nc (k + nc1 a) (f a) E) : RvK t V nc k (p >>= f) E := by
  refine Reads.bind (h1.conseq (E' := E) ErrSub.sub (fun _ _ h => h)) ?_
  rintro a ls ⟨a1, a2, a3⟩
  refine (h2 a a1).post ?_
  rintro b ms ⟨b1, b2, b3⟩
  exact ⟨b1, allTail_append.mpr ⟨a2, b2⟩, by simp; omega⟩

theorem bindE {x : Except Err α} {f : α → Parser β} (he : ∀ e, x = .error e → E e)
    (h2 : ∀ a, x = .ok a → RvK t V nc k (f a) E) : RvK t V nc k (liftE x >>= f) E := by
  refine Reads.bind (Q := fun a ls => x = .ok a ∧ ls = []) (Reads.liftE (fun a h => ⟨h, rfl⟩) he) ?_
  rintro a ls ⟨a1, rfl⟩
  exact (h2 a a1).post (by simp)

theorem liftE {x : Except Err β} (he : ∀ e, x = .error e → E e)
    (h2 : ∀ a, x = .ok a → V a ∧ k = nc a) : RvK t V nc k (liftE x) E :=
  Reads.liftE (fun a h => ⟨(h2 a h).1, .nil t, by simp [(h2 a h).2]⟩) he

theorem all2 {c : Comp α} {xs : List α} {bs : List (List Text)} (h3 : All2 (fun a ls => c.Valid a ∧ AllTail t ls ∧ ls.length = c.nc a) xs bs) :
    (∀ x ∈ xs, c.Valid x) ∧ AllTail t bs.flatten ∧ bs.flatten.length = (xs.map c.nc).sum := by
  induction h3 with
  | nil => simp [AllTail]
  | cons h _ ih =>
    obtain ⟨i1, i2, i3⟩ := ih
    obtain ⟨j1, j2, j3⟩ := h
    refine ⟨by simpa using ⟨j1, i1⟩, by simpa using allTail_append.mpr ⟨j2, i2⟩, ?_⟩
    simp only [List.flatten_cons, List.length_append, List.map_cons, List.sum_cons] at i3 ⊢
    omega

theorem seq [ErrSub StdErr E1] [ErrSub E1 E] {c : Comp α} (hc : c.Law E1) {n : Int} {f : List α → Parser β}
    (h2 : ∀ xs, (xs.length : Int) = toInt32 n → (∀ x ∈ xs, c.Valid x) → RvK t V nc (k + (xs.map c.nc).sum) (f xs) E) :
    RvK t V nc k (readSequence (c.read t) n >>= f) E := by
  refine bind (E1 := E1) (V1 := fun xs : List α => (xs.length : Int) = toInt32 n ∧ ∀ x ∈ xs, c.Valid x) (nc1 := fun xs => (xs.map c.nc).sum) ?_
    (fun xs h => h2 xs h.1 h.2)
  refine (readSequence_reads (E := E1) (ErrSub.sub (E := StdErr) _ rfl) (hc.reads t) n).post ?_
  rintro xs ls ⟨h1, bs, rfl, h3⟩
  exact ⟨⟨h1, (all2 h3).1⟩, (all2 h3).2⟩

theorem seqR [ErrSub StdErr E1] [ErrSub E1 E] {V1 : α → Prop} {nc1 : α → Nat} {p : Parser α}
    (hp : Reads E1 (fun a ls => V1 a ∧ AllTail t ls ∧ ls.length = nc1 a) p) {n : Int} {f : List α → Parser β}
    (h2 : ∀ xs, (xs.length : Int) = toInt32 n → (∀ x ∈ xs, V1 x) → RvK t V nc (k + (xs.map nc1).sum) (f xs) E) :
    RvK t V nc k (readSequence p n >>= f) E := by
  refine bind (E1 := E1) (V1 := fun xs : List α => (xs.length : Int) = toInt32 n ∧ ∀ x ∈ xs, V1 x) (nc1 := fun xs => (xs.map nc1).sum) ?_
    (fun xs h => h2 xs h.1 h.2)
  refine (readSequence_reads (E := E1) (ErrSub.sub (E := StdErr) _ rfl) hp n).post ?_
  rintro xs ls ⟨h1, bs, rfl, h3⟩
  have := all2 (t := t) (c := ⟨fun _ => p, fun _ _ => [], nc1, V1, fun _ => []⟩) h3
  exact ⟨⟨h1, this.1⟩, this.2⟩

theorem seqL [ErrSub StdErr E1] [ErrSub E1 E] {c : Comp α} (hc : c.Law E1) {n : Int} {f : List α → Parser β}
    (h2 : ∀ xs, (xs.length : Int) = n → (∀ x ∈ xs, c.Valid x) → RvK t V nc (k + (xs.map c.nc).sum) (f xs) E) :
    RvK t V nc k (readSequenceL (c.read t) n >>= f) E := by
  refine bind (E1 := E1) (V1 := fun xs : List α => (xs.length : Int) = n ∧ ∀ x ∈ xs, c.Valid x) (nc1 := fun xs => (xs.map c.nc).sum) ?_
    (fun xs h => h2 xs h.1 h.2)
  refine Reads.ite (fun _ => Reads.fail (ErrSub.sub (E := StdErr) (F := E1) _ rfl)) (fun h => (readMany_reads (hc.reads t) n.toNat).post ?_)
  rintro xs ls ⟨h1, bs, rfl, h3⟩
  exact ⟨⟨by omega, (all2 h3).1⟩, (all2 h3).2⟩

theorem pure {b : β} (hv : V b) (hk : k = nc b) : RvK t V nc k (Pure.pure b) E := Reads.pure ⟨hv, .nil t, by simp [hk]⟩

theorem fail {e : Err} (h : E e) : RvK t V nc k (Parser.fail e) E := Reads.fail h

theorem ite {p q : Parser β} {c : Prop} {inst : Decidable c} (h1 : c → RvK t V nc k p E) (h2 : ¬c → RvK t V nc k q E) :
    RvK t V nc k (if c then p else q) E := Reads.ite h1 h2

theorem mapErr {p : Parser β} {g : Err → Err} (hg : ∀ e, E e → E (g e)) (h : RvK t V nc k p E) :
    RvK t V nc k (Parser.mapErr g p) E := Reads.mapErr h hg

end RvK

theorem Comp.Law.flatMap {α : Type} {c : Comp α} {E : Err → Prop} (h : c.Law E) {xs : List α} {t : Nums} (hv : ∀ x ∈ xs, c.Valid x) (ht : t.Fit) :
    CanonicalText t (xs.map c.nc).sum (xs.flatMap (fun x => c.print x t)) :=
  CanonicalText.flatMap (nc := c.nc) (fun x hx => h.canon (hv x hx) ht)

theorem CanonicalText.cast {t : Nums} {k k' : Nat} {s s' : Text} (h : CanonicalText t k s) (hs : s' = s) (hk : k' = k) : CanonicalText t k' s' := by
  subst hs hk; exact h

/-! ### InterpolationSequenceRecord as component -/

/-- InterpolationSequenceRecord of the given component. -/
def iseqC {α : Type} (c : Comp α) : Comp (ISeq α) where
  read := readISeq c.read
  print := fun r t => r.print c.print t
  nc := ISeq.nc c.nc
  Valid := fun r => r.tab2.Fits ∧ r.seq ≠ [] ∧ toInt32 r.tab2.n2 = r.seq.length ∧ ∀ x ∈ r.seq, c.Valid x
  reals := fun r => [r.tab2.c1, r.tab2.c2] ++ r.seq.flatMap c.reals

theorem iseqC_law {α : Type} {c : Comp α} {E : Err → Prop} [ErrSub StdErr E] (hc : c.Law E) : (iseqC c).Law E where
  round := by
    rintro r t ⟨v1, v2, v3, v4⟩ hr ht
    have hr : Reps ([r.tab2.c1, r.tab2.c2] ++ r.seq.flatMap c.reals) := hr
    rw [reps_append, reps_flatMap] at hr
    refine Rd.bind' (p := readTAB2 t) (tab2C_law.rd v1 hr.1 ht) (Rd.bindPure (Rd.seq v3 (fun x hx => hc.rd (v4 x hx) (hr.2 x hx) ht)) ?_)
      rfl rfl
    have hpos : 0 < r.seq.length := List.length_pos_iff.mpr v2
    have hlt := toInt32_range r.tab2.n2
    have : ISeq.make r.tab2 r.seq = .ok r := by
      rw [ISeq.make, if_neg (by omega), if_neg]
      simp only [TAB1.npDiffer, bne_iff_ne, ne_eq, Decidable.not_not]
      simp only [toInt32] at v3
      omega
    rw [this]; rfl
  canon := fun hv ht => ISeq.print_canonical hv.1 ht (fun x hx => hc.canon (hv.2.2.2 x hx) ht)
  reads := fun t => by
    refine RvK.toReads (RvK.bind (tab2C_law.reads t) fun r hr => RvK.seq hc fun xs h1 h2 => RvK.liftE ?_ ?_)
    · intro e h
      have he : e = .exc := by unfold ISeq.make at h; grind
      rw [he]; exact ErrSub.sub (E := StdErr) _ rfl
    · intro a h
      unfold ISeq.make at h
      split at h
      · cases h
      rename_i hne
      split at h
      · cases h
      cases h
      refine ⟨⟨hr, ?_, h1.symm, h2⟩, ?_⟩
      · rintro rfl; simp at hne
      · simp [iseqC, ISeq.nc, tab2C]

end ENDFtk

namespace ENDFtk
variable [Disco]

/-! ### checks after reading -/

/-- `n` is outside of the range of `int`: an operation on `int`s with this result is undefined (signed overflow). -/
def Over (n : Int) : Prop := ¬(-2147483648 ≤ n ∧ n < 2147483648)

instance (n : Int) : Decidable (Over n) := by unfold Over; exact inferInstance

theorem mulSucc_nonneg (n : Int) : 0 ≤ n * (n + 1) := by
  by_cases h : 0 ≤ n
  · exact Int.mul_nonneg h (by omega)
  · rw [← Int.neg_mul_neg]; exact Int.mul_nonneg (by omega) (by omega)

theorem mulSucc_bound {n : Int} (h : n * (n + 1) < 2147483648) : -46341 ≤ n ∧ n ≤ 46340 := by
  constructor
  · apply Decidable.byContradiction
    intro hn
    have := Int.mul_le_mul (a := 46342) (b := 46341) (c := -n) (d := -(n + 1)) (by omega) (by omega) (by omega) (by omega)
    rw [Int.neg_mul_neg] at this; omega
  · apply Decidable.byContradiction
    intro hn
    have := Int.mul_le_mul (a := 46341) (b := 46342) (c := n) (d := n + 1) (by omega) (by omega) (by omega) (by omega)
    omega

theorem self_nonneg (n : Int) : 0 ≤ n * n := by
  by_cases h : 0 ≤ n
  · exact Int.mul_nonneg h h
  · rw [← Int.neg_mul_neg]; exact Int.mul_nonneg (by omega) (by omega)

theorem self_bound {n : Int} (h : n * n < 2147483648) : -46340 ≤ n ∧ n ≤ 46340 := by
  constructor
  · apply Decidable.byContradiction
    intro hn
    have := Int.mul_le_mul (a := 46341) (b := 46341) (c := -n) (d := -n) (by omega) (by omega) (by omega) (by omega)
    rw [Int.neg_mul_neg] at this; omega
  · apply Decidable.byContradiction
    intro hn
    have := Int.mul_le_mul (a := 46341) (b := 46341) (c := n) (d := n) (by omega) (by omega) (by omega) (by omega)
    omega

theorem ubErr_ite {p : Prop} [Decidable p] : UbErr (if p then .ub else .exc) := by
  by_cases h : p
  · rw [if_pos h]; exact .inr rfl
  · rw [if_neg h]; exact .inl rfl

/-- A component whose constructor, after having read the record, verifies something (`verify...` functions).  `ov`: an arithmetic operation of the
    function leaves the range of `int` before it can throw; signed overflow is undefined behaviour.  (`P` never holds then.) -/
def Comp.checked {α : Type} (c : Comp α) (P : α → Prop) [DecidablePred P] (ov : α → Prop := fun _ => False) [DecidablePred ov] : Comp α where
  read := fun t => do
    let a ← c.read t
    if P a then pure a else Parser.fail (if ov a then .ub else .exc)
  print := c.print
  nc := c.nc
  Valid := fun a => c.Valid a ∧ P a
  reals := c.reals

theorem Comp.checked_law {α : Type} {c : Comp α} {E : Err → Prop} [ErrSub StdErr E] (h : c.Law E) (P : α → Prop) [DecidablePred P] : (c.checked P).Law E where
  round := fun {a t} hv hr ht => Rd.bindPure (h.rd hv.1 hr ht) (by rw [if_pos hv.2])
  canon := fun hv ht => h.canon hv.1 ht
  reads := fun t => RvK.toReads (RvK.bind (h.reads t) fun a ha => RvK.ite (fun hp => RvK.pure ⟨ha, hp⟩ (by simp [Comp.checked])) (fun _ => RvK.fail (ErrSub.sub (E := StdErr) _ (by rw [if_neg id]; rfl))))

theorem Comp.checked_lawU {α : Type} {c : Comp α} {E1 : Err → Prop} [ErrSub E1 UbErr] (h : c.Law E1) (P : α → Prop) [DecidablePred P] {ov : α → Prop} [DecidablePred ov] :
    (c.checked P ov).Law UbErr where
  round := fun {a t} hv hr ht => Rd.bindPure (h.rd hv.1 hr ht) (by rw [if_pos hv.2])
  canon := fun hv ht => h.canon hv.1 ht
  reads := fun t => RvK.toReads (RvK.bind (h.reads t) fun a ha => RvK.ite (fun hp => RvK.pure ⟨ha, hp⟩ (by simp [Comp.checked]))
    (fun _ => RvK.fail ubErr_ite))

/-- A component whose constructor, after having read the record, verifies something that can fail in more than one way. -/
def Comp.checkedE {α : Type} (c : Comp α) (f : α → Except Err Unit) : Comp α where
  read := fun t => do
    let a ← c.read t
    liftE (f a)
    pure a
  print := c.print
  nc := c.nc
  Valid := fun a => c.Valid a ∧ f a = .ok ()
  reals := c.reals

theorem Comp.checkedE_law {α : Type} {c : Comp α} {E E1 : Err → Prop} [ErrSub E1 E] (h : c.Law E1) (f : α → Except Err Unit)
    (he : ∀ a e, f a = .error e → E e) : (c.checkedE f).Law E where
  round := fun {a t} hv hr ht => Rd.bindPure (h.rd hv.1 hr ht) (by rw [hv.2]; rfl)
  canon := fun hv ht => h.canon hv.1 ht
  reads := fun t => RvK.toReads (RvK.bind (h.reads t) fun a ha => RvK.bindE (he a) fun _ hf => RvK.pure ⟨ha, hf⟩ (by simp [Comp.checkedE]))

/-- A TAB2 record and as many components as it says, `c` being the kind of component for this TAB2 record; the count is a `long`
    (the constructors of section/6/ContinuumEnergyAngle, DiscreteTwoBodyScattering, ChargedParticleElasticScattering). -/
def iseqD {α : Type} (c : TAB2 → Comp α) : Comp (ISeq α) where
  read := fun t => do
    let r ← readTAB2 t
    let xs ← readSequenceL ((c r).read t) r.n2
    liftE (ISeq.make r xs)
  print := fun r t => r.print (c r.tab2).print t
  nc := fun r => ISeq.nc (c r.tab2).nc r
  Valid := fun r => r.tab2.Fits ∧ (r.seq.length : Int) % 4294967296 ≠ 0 ∧ r.tab2.n2 = r.seq.length ∧ ∀ x ∈ r.seq, (c r.tab2).Valid x
  reals := fun r => [r.tab2.c1, r.tab2.c2] ++ r.seq.flatMap (c r.tab2).reals

theorem iseqD_law {α : Type} {c : TAB2 → Comp α} {E : Err → Prop} [ErrSub StdErr E] (hc : ∀ r, (c r).Law E) : (iseqD c).Law E where
  round := by
    rintro r t ⟨v1, v2, v3, v4⟩ hr ht
    have hr : Reps ([r.tab2.c1, r.tab2.c2] ++ r.seq.flatMap (c r.tab2).reals) := hr
    rw [reps_append, reps_flatMap] at hr
    refine Rd.bind' (p := readTAB2 t) (tab2C_law.rd v1 hr.1 ht) (Rd.bindPure (Rd.seqL v3 (fun x hx => (hc _).rd (v4 x hx) (hr.2 x hx) ht)) ?_)
      rfl rfl
    have : ISeq.make r.tab2 r.seq = .ok r := by
      rw [ISeq.make, if_neg v2, if_neg]
      simp only [TAB1.npDiffer, bne_iff_ne, ne_eq, Decidable.not_not]
      omega
    rw [this]; rfl
  canon := fun hv ht => ISeq.print_canonical hv.1 ht (fun x hx => (hc _).canon (hv.2.2.2 x hx) ht)
  reads := fun t => by
    refine RvK.toReads (RvK.bind (tab2C_law.reads t) fun r hr => RvK.seqL (hc r) fun xs h1 h2 => RvK.liftE ?_ ?_)
    · intro e h
      have he : e = .exc := by unfold ISeq.make at h; grind
      rw [he]; exact ErrSub.sub (E := StdErr) _ rfl
    · intro a h
      unfold ISeq.make at h
      split at h
      · cases h
      rename_i hne
      split at h
      · cases h
      cases h
      exact ⟨⟨hr, hne, h1.symm, h2⟩, by simp [iseqD, ISeq.nc, tab2C]⟩

/-- `n` as an `int` (`static_cast< int >`, or passing a `std::size_t` or `long` as `int`). -/
def asInt (n : Nat) : Int := toInt32 n

theorem fits_of_int32 {n : Int} (h : IsInt32 n) : fits 11 n := by
  have h1 := h.1
  have h2 := h.2
  constructor
  · have : (10 : Int) ^ 11 = 100000000000 := by decide
    omega
  · have : (10 : Int) ^ (11 - 1) = 10000000000 := by decide
    omega

theorem isInt32_toInt32 (n : Int) : IsInt32 (toInt32 n) := toInt32_range n
theorem fits_toInt32 (n : Int) : fits 11 (toInt32 n) := fits_of_int32 (toInt32_range n)
theorem toInt32_of {n : Int} (h : IsInt32 n) : toInt32 n = n := toInt32_id h.1 h.2
theorem toInt32_toInt32 (n : Int) : toInt32 (toInt32 n) = toInt32 n := toInt32_of (isInt32_toInt32 n)

end ENDFtk

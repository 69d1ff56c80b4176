import Verif.Section.MF6
/-
  Combinations of components that occur in many section types.
-/
set_option linter.unusedVariables false
set_option linter.unusedSectionVars false
set_option linter.unusedSimpArgs false
namespace ENDFtk
variable [Disco]

/-- A component followed by one whose kind depends on the first one (delegating constructors: the first component is read, then the rest). -/
def Comp.andThen {α β : Type} (c : Comp α) (d : α → Comp β) : Comp (α × β) where
  read := fun t => do
    let a ← c.read t
    let b ← (d a).read t
    pure (a, b)
  print := fun x t => c.print x.1 t ++ (d x.1).print x.2 t
  nc := fun x => c.nc x.1 + (d x.1).nc x.2
  Valid := fun x => c.Valid x.1 ∧ (d x.1).Valid x.2
  reals := fun x => c.reals x.1 ++ (d x.1).reals x.2

theorem Comp.andThen_law {α β : Type} {c : Comp α} {d : α → Comp β} {E E1 E2 : Err → Prop} [ErrSub E1 E] [ErrSub E2 E] (hc : c.Law E1) (hd : ∀ a, (d a).Law E2) :
    (c.andThen d).Law E where
  round := fun {a t} hv hr ht => Rd.bind (hc.rd hv.1 (reps_append.mp hr).1 ht) (Rd.bindPure ((hd _).rd hv.2 (reps_append.mp hr).2 ht) rfl)
  canon := fun hv ht => (hc.canon hv.1 ht).append ((hd _).canon hv.2 ht)
  reads := fun t => RvK.toReads (RvK.bind (hc.reads t) fun a ha => RvK.bind ((hd a).reads t) fun b hb => RvK.pure ⟨ha, hb⟩ (by simp [Comp.andThen]))

/-- `readSequence< C >( ..., n )`: `n` components (readSequence.hpp 1-30) -/
def seqC {α : Type} (c : Comp α) (n : Int) : Comp (List α) where
  read := fun t => readSequence (c.read t) n
  print := fun xs t => xs.flatMap (fun x => c.print x t)
  nc := fun xs => (xs.map c.nc).sum
  Valid := fun xs => toInt32 n = xs.length ∧ ∀ x ∈ xs, c.Valid x
  reals := fun xs => xs.flatMap c.reals

theorem seqC_law {α : Type} {c : Comp α} {E : Err → Prop} [ErrSub StdErr E] (hc : c.Law E) (n : Int) : (seqC c n).Law E where
  round := fun {a t} hv hr ht => Rd.seq hv.1 fun x hx => hc.rd (hv.2 x hx) (reps_flatMap.mp hr x hx) ht
  canon := fun hv ht => hc.flatMap hv.2 ht
  reads := fun t => (readSequence_reads (E := E) (ErrSub.sub (E := StdErr) _ rfl) (hc.reads t) n).post (by
    rintro xs ls ⟨h1, bs, rfl, h3⟩
    exact ⟨⟨h1.symm, (RvK.all2 h3).1⟩, (RvK.all2 h3).2⟩)

/-- No component at all. -/
def nilC : Comp Unit := ⟨fun _ => pure (), fun _ _ => [], fun _ => 0, fun _ => True, fun _ => []⟩

theorem nilC_law : nilC.Law where
  round := fun _ _ _ => Rd.pure _
  canon := fun _ _ => .nil _
  reads := fun t => RvK.toReads (RvK.pure trivial rfl)

/-- What a class is for printing. -/
structure Printer (V : Type) where
  print : V → Nums → Text
  nc : V → Nat
  reals : V → List Dbl

/-- Reads a component and converts it; what is printed is given by `P`. -/
def Comp.via {α V : Type} (c : Comp α) (P : Printer V) (f : α → V) : Comp V where
  read := fun t => do
    let a ← c.read t
    pure (f a)
  print := P.print
  nc := P.nc
  Valid := fun v => ∃ a, v = f a ∧ c.Valid a
  reals := P.reals

theorem Comp.via_law {α V : Type} {c : Comp α} {P : Printer V} {f : α → V} {E1 E : Err → Prop} [ErrSub E1 E] (hc : c.Law E1)
    (h1 : ∀ a t, P.print (f a) t = c.print a t) (h2 : ∀ a, P.nc (f a) = c.nc a) (h3 : ∀ a, P.reals (f a) = c.reals a) : (c.via P f).Law E where
  round := by
    rintro v t ⟨a, rfl, ha⟩ hr ht
    have hr : Reps (P.reals (f a)) := hr
    rw [h3] at hr
    exact Rd.cast (Rd.bindPure (hc.rd ha hr ht) rfl) (h1 a t) (h2 a)
  canon := by
    rintro v t ⟨a, rfl, ha⟩ ht
    exact CanonicalText.cast (hc.canon ha ht) (h1 a t) (h2 a)
  reads := fun t => RvK.toReads (RvK.bind (hc.reads t) fun a ha => RvK.pure ⟨a, rfl, ha⟩ (by simp [Comp.via, h2]))

/-- Always an exception. -/
def Printer.none {V : Type} (P : Printer V) : Comp V := ⟨fun _ => Parser.fail .exc, P.print, P.nc, fun _ => False, P.reals⟩

theorem Printer.none_law {V : Type} (P : Printer V) {E : Err → Prop} [ErrSub StdErr E] : P.none.Law E where
  round := fun h => h.elim
  canon := fun h => h.elim
  reads := fun t => Reads.fail (ErrSub.sub (E := StdErr) _ rfl)

theorem Comp.ite_law {V : Type} {c d : Comp V} {E : Err → Prop} {p : Prop} {inst : Decidable p} (hc : c.Law E) (hd : d.Law E) : (if p then c else d).Law E := by
  split
  · exact hc
  · exact hd

/-- The same component with a wider set of failures. -/
theorem Comp.Law.weaken {α : Type} {c : Comp α} {E F : Err → Prop} [ErrSub E F] (h : c.Law E) : c.Law F where
  round := h.round
  canon := h.canon
  reads := fun t => (h.reads t).conseq ErrSub.sub (fun _ _ h => h)

end ENDFtk

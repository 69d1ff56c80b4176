import Verif.Section.Weak
/-
  Components whose text cannot always be read back, and for which the line counter can be advanced by more than the lines.
-/
set_option linter.unusedVariables false
set_option linter.unusedSectionVars false
set_option linter.unusedSimpArgs false
namespace ENDFtk
variable [Disco]

/-! ### the compact correlation matrix -/

section
variable [CorrOps]

theorem elemsFrom_inv {nd : Nat} {i j : Int} (hi : 0 ≤ i ∧ i < 4294967296) {k : List Int} (hk : ∀ v ∈ k, fits (nd + 1) v) :
    ∀ n, ∀ e ∈ CorrMatrix.elemsFrom nd i j n k, (0 ≤ e.1 ∧ e.1 < 4294967296 ∧ 0 ≤ e.2.1 ∧ e.2.1 < 4294967296) ∧
      ∃ v, v ≠ 0 ∧ fits (nd + 1) v ∧ e.2.2 = corrOf nd v := by
  induction k with
  | nil => intro n e he; simp [CorrMatrix.elemsFrom] at he
  | cons v k ih =>
    intro n e he
    simp only [List.mem_cons, forall_eq_or_imp] at hk
    unfold CorrMatrix.elemsFrom at he
    split at he
    · rename_i hv
      rcases List.mem_cons.mp he with rfl | he
      · exact ⟨⟨hi.1, hi.2, by simp only [toUnsigned]; omega, by simp only [toUnsigned]; omega⟩, v, hv, hk.1, rfl⟩
      · exact ih hk.2 _ e he
    · exact ih hk.2 _ e he

theorem CorrMatrix.readsW (t : Nums) : ReadsW UbErr t (Std CorrMatrix.Inv (fun _ => False) (fun _ => 0) CorrMatrix.nc) (CorrMatrix.read t) := by
  refine ReadsW.bind (ReadsW.ofLaw contC_law) ?_
  rintro c R x N ⟨c1, c2, c3, c4⟩
  refine ReadsW.ite (fun _ => ReadsW.fail (.inl rfl)) fun hnd => ?_
  have hnd : 2 ≤ (CorrMatrix.asUnsigned c.l1).toNat ∧ (CorrMatrix.asUnsigned c.l1).toNat ≤ 6 := by omega
  refine ReadsW.bind (ReadsW.many (readINTG_readsW hnd t) ((CorrMatrix.asUnsigned c.n1).toNat + 0)) ?_
  rintro rs R' x' N' ⟨d1, d2, d3, d4⟩
  by_cases hr : rs = []
  · subst hr
    apply ReadsW.intro
    · intro s a s' h
      cases h
      refine ⟨False, 0, 0, ⟨⟨hnd.1, hnd.2, isInt32_toInt32 _, by simp, by intro e he; simp at he⟩, by simp, by simp [c3, d3], by simp⟩, fun _ => ⟨0, ⟨[], .nil _, by simp, .nil t, rfl⟩, fun _ => rfl⟩⟩
    · intro s e h; cases h
  · have hf : ¬R' := by
      intro h
      obtain ⟨a, ha⟩ := List.exists_mem_of_ne_nil _ hr
      exact d2.mp h a ha
    have hel : ∀ e ∈ rs.flatMap (CorrMatrix.elemsOf (CorrMatrix.asUnsigned c.l1).toNat),
        (0 ≤ e.1 ∧ e.1 < 4294967296 ∧ 0 ≤ e.2.1 ∧ e.2.1 < 4294967296) ∧
        ∃ v, v ≠ 0 ∧ fits ((CorrMatrix.asUnsigned c.l1).toNat + 1) v ∧ e.2.2 = corrOf (CorrMatrix.asUnsigned c.l1).toNat v := by
      intro e he
      obtain ⟨r, hr, he⟩ := List.mem_flatMap.mp he
      obtain ⟨i1, i2, i3, i4, i5⟩ := d1.2 r hr
      exact elemsFrom_inv ⟨i1, i2⟩ i5 0 e he
    refine ReadsW.pure ⟨⟨hnd.1, hnd.2, isInt32_toInt32 _, fun e he => (hel e he).1, fun e he => (hel e he).2⟩, ?_, ?_, ?_⟩
    · simp [hf]
    · have : ∀ l : List INTG, (l.map (fun _ => 0)).sum = 0 := by intro l; induction l <;> simp_all
      simp [c3, d3, this]
    · intro h; exact (hf h.2.1).elim

end

/-! ### laws -/

/-- `W`: what holds for a value that was read; `reg`: all of its parts have been read by whole lines; `x`: by how much more the counter is advanced. -/
structure Comp.WLaw {α : Type} (c : Comp α) (W reg : α → Prop) (x : α → Nat) : Prop where
  round : ∀ {a t}, c.Valid a → Reps (c.reals a) → t.Fit → Rd (c.read t) (c.print a t) a (c.nc a + x a)
  canon : ∀ {a t}, c.Valid a → t.Fit → CanonicalText t (c.nc a) (c.print a t)
  reads : ∀ t, ReadsW UbErr t (Std W reg x c.nc) (c.read t)
  valid : ∀ {a}, W a → reg a → c.Valid a
  weak : ∀ {a}, c.Valid a → W a

theorem Comp.Law.toW {α : Type} {c : Comp α} {E : Err → Prop} [ErrSub E UbErr] (h : c.Law E) : c.WLaw c.Valid (fun _ => True) (fun _ => 0) where
  round := fun hv hr ht => h.rd hv hr ht
  canon := fun hv ht => h.canon hv ht
  reads := fun t => ReadsW.ofLaw h
  valid := fun h _ => h
  weak := id

namespace Comp.WLaw
variable {α β : Type} {c : Comp α} {W reg : α → Prop} {x : α → Nat}

theorem checked (h : c.WLaw W reg x) (P : α → Prop) [DecidablePred P] {ov : α → Prop} [DecidablePred ov] : (c.checked P ov).WLaw (fun a => W a ∧ P a) reg x where
  round := fun {a t} hv hr ht => Rd.bindPure (h.round hv.1 hr ht) (by rw [if_pos hv.2])
  canon := fun hv ht => h.canon hv.1 ht
  reads := fun t => by
    refine ReadsW.bind (h.reads t) ?_
    rintro a R e N ⟨a1, a2, a3, a4⟩
    refine ReadsW.ite (fun hp => ReadsW.pure ⟨⟨a1, hp⟩, by simp [a2], by simp [a3], fun h => a4 h.1⟩) (fun _ => ReadsW.fail ubErr_ite)
  valid := fun hw hr => ⟨h.valid hw.1 hr, hw.2⟩
  weak := fun hv => ⟨h.weak hv.1, hv.2⟩

theorem andThen {d : α → Comp β} {W2 : α → β → Prop} {reg2 : β → Prop} {x2 : β → Nat} (h : c.WLaw W reg x) (hd : ∀ a, (d a).WLaw (W2 a) reg2 x2) :
    (c.andThen d).WLaw (fun y => W y.1 ∧ W2 y.1 y.2) (fun y => reg y.1 ∧ reg2 y.2) (fun y => x y.1 + x2 y.2) where
  round := fun {a t} hv hr ht => Rd.cast (Rd.bind (h.round hv.1 (reps_append.mp hr).1 ht)
    (Rd.bindPure ((hd _).round hv.2 (reps_append.mp hr).2 ht) rfl)) rfl (by simp only [Comp.andThen]; omega)
  canon := fun hv ht => (h.canon hv.1 ht).append ((hd _).canon hv.2 ht)
  reads := fun t => by
    refine ReadsW.bind (h.reads t) ?_
    rintro a R e N ⟨a1, a2, a3, a4⟩
    refine ReadsW.bind ((hd a).reads t) ?_
    rintro b R' e' N' ⟨b1, b2, b3, b4⟩
    exact ReadsW.pure ⟨⟨a1, b1⟩, by simp [a2, b2], by simp [a3, b3], fun h => by simp [a4 h.1, b4 h.2.1, Comp.andThen]⟩
  valid := fun hw hr => ⟨h.valid hw.1 hr.1, (hd _).valid hw.2 hr.2⟩
  weak := fun hv => ⟨h.weak hv.1, (hd _).weak hv.2⟩

theorem seqC (h : c.WLaw W reg x) (n : Int) :
    (ENDFtk.seqC c n).WLaw (fun xs => toInt32 n = xs.length ∧ ∀ a ∈ xs, W a) (fun xs => ∀ a ∈ xs, reg a) (fun xs => (xs.map x).sum) where
  round := fun {a t} hv hr ht => Rd.cast (Rd.seq (nc := fun a => c.nc a + x a) hv.1 fun y hy => h.round (hv.2 y hy) (reps_flatMap.mp hr y hy) ht) rfl (by
    simp only [ENDFtk.seqC]
    generalize a = l
    induction l with
    | nil => rfl
    | cons y l ih => simp only [List.map_cons, List.sum_cons]; omega)
  canon := fun {a t} hv ht => CanonicalText.flatMap (nc := c.nc) (pr := fun y => c.print y t) (fun y hy => h.canon (hv.2 y hy) ht)
  reads := fun t => (ReadsW.seq (.inl rfl) (h.reads t) n).post (by
    rintro xs R e N ⟨b1, b2, b3, b4⟩
    exact ⟨⟨b1.1.symm, b1.2⟩, b2, b3, b4⟩)
  valid := fun hw hr => ⟨hw.1, fun a ha => h.valid (hw.2 a ha) (hr a ha)⟩
  weak := fun hv => ⟨hv.1, fun a ha => h.weak (hv.2 a ha)⟩

end Comp.WLaw

/-- The compact correlation matrix as component: what can be printed and read back without loss is a matrix whose correlations stand for integers, in
    order, with coordinates of at most five digits and for which the number of digits is not 3. -/
def corrC [CorrOps] : Comp CorrMatrix where
  read := CorrMatrix.read
  print := CorrMatrix.print
  nc := CorrMatrix.nc
  Valid := fun m => m.Inv ∧ m.Printable ∧ CorrMatrix.Ordered m.elems
  reals := fun _ => [Disco.zero]

theorem corrC_law [CorrOps] : corrC.WLaw CorrMatrix.Inv (fun _ => False) (fun _ => 0) where
  round := by
    rintro m t ⟨v1, v2, v3⟩ hr ht
    refine Rd.cast ?_ rfl (Nat.add_zero _)
    have := CorrMatrix.rd v2 v3 (hr _ (by simp [corrC])) ht
    rw [CorrMatrix.remaining_exact v1.1 v1.2.1 v1.2.2.2.2] at this
    exact this
  canon := fun hv ht => CorrMatrix.canon hv.2.1 ht
  reads := fun t => CorrMatrix.readsW t
  valid := fun _ h => h.elim
  weak := fun hv => hv.1

/-! ### a CONT record followed by what it announces -/

/-- A class that reads a CONT record and then a component whose kind depends on it: `of`: what is kept of the CONT record, `cont`: the CONT record
    that is printed, `d`: the component for a CONT record. -/
def hdrC {σ β : Type} (of : Cont → σ) (cont : σ → β → Cont) (d : Cont → Comp β) : Comp (σ × β) where
  read := fun t => do
    let r ← readCont t
    let b ← (d r).read t
    pure (of r, b)
  print := fun y t => printCont (cont y.1 y.2) t ++ (d (cont y.1 y.2)).print y.2 t
  nc := fun y => 1 + (d (cont y.1 y.2)).nc y.2
  Valid := fun y => (cont y.1 y.2).Fits ∧ of (cont y.1 y.2) = y.1 ∧ (d (cont y.1 y.2)).Valid y.2
  reals := fun y => [(cont y.1 y.2).c1, (cont y.1 y.2).c2] ++ (d (cont y.1 y.2)).reals y.2

/-- The requirements on `hdrC`: the CONT record that is printed announces the same component as the one that was read. -/
structure HdrOk {σ β : Type} (of : Cont → σ) (cont : σ → β → Cont) (d : Cont → Comp β) (W : Cont → β → Prop) : Prop where
  fits : ∀ {r b}, r.Fits → W r b → (cont (of r) b).Fits
  of_cont : ∀ {r b}, r.Fits → W r b → of (cont (of r) b) = of r
  again : ∀ {r b}, r.Fits → W r b → W (cont (of r) b) b
  nc : ∀ {r r' b}, (d r).nc b = (d r').nc b

theorem hdrC_law {σ β : Type} {of : Cont → σ} {cont : σ → β → Cont} {d : Cont → Comp β} {E : Err → Prop}
    (hd : ∀ r, (d r).Law E) (hok : HdrOk of cont d (fun r => (d r).Valid)) [ErrSub StdErr E] : (hdrC of cont d).Law E where
  round := fun {y t} hv hr ht => Rd.bind (contC_law.rd (a := cont y.1 y.2) hv.1 (reps_append.mp hr).1 ht)
    (Rd.bindPure ((hd _).rd hv.2.2 (reps_append.mp hr).2 ht) (by rw [hv.2.1]))
  canon := fun hv ht => (contC_law.canon hv.1 ht).append ((hd _).canon hv.2.2 ht)
  reads := fun t => RvK.toReads (RvK.bind (contC_law.reads t) fun r hr => RvK.bind ((hd r).reads t) fun b hb =>
    RvK.pure ⟨hok.fits hr hb, hok.of_cont hr hb, hok.again hr hb⟩ (by simp only [hdrC, contC]; rw [hok.nc (r := r) (r' := cont (of r) b)]))

theorem hdrC_wlaw {σ β : Type} {of : Cont → σ} {cont : σ → β → Cont} {d : Cont → Comp β} {W : Cont → β → Prop} {reg : β → Prop} {x : β → Nat}
    (hd : ∀ r, (d r).WLaw (W r) reg x) (hok : HdrOk of cont d W) :
    (hdrC of cont d).WLaw (fun y => (cont y.1 y.2).Fits ∧ of (cont y.1 y.2) = y.1 ∧ W (cont y.1 y.2) y.2) (fun y => reg y.2) (fun y => x y.2) where
  round := fun {y t} hv hr ht => Rd.cast (Rd.bind (contC_law.rd (a := cont y.1 y.2) hv.1 (reps_append.mp hr).1 ht)
    (Rd.bindPure ((hd _).round hv.2.2 (reps_append.mp hr).2 ht) (by rw [hv.2.1]))) rfl (by simp only [hdrC, contC]; omega)
  canon := fun hv ht => (contC_law.canon hv.1 ht).append ((hd _).canon hv.2.2 ht)
  reads := fun t => by
    refine ReadsW.bind (ReadsW.ofLaw contC_law) ?_
    rintro r R e N ⟨a1, a2, a3, a4⟩
    refine ReadsW.bind ((hd r).reads t) ?_
    rintro b R' e' N' ⟨b1, b2, b3, b4⟩
    refine ReadsW.pure ⟨⟨hok.fits a1 b1, hok.of_cont a1 b1, hok.again a1 b1⟩, by simp [a2, b2], by simp [a3, b3], fun h => ?_⟩
    simp only [hdrC, a4 h.1, b4 h.2.1, contC]
    rw [hok.nc (r := r) (r' := cont (of r) b)]; omega
  valid := fun hw hr => ⟨hw.1, hw.2.1, (hd _).valid hw.2.2 hr⟩
  weak := fun hv => ⟨hv.1, hv.2.1, (hd _).weak hv.2.2⟩

end ENDFtk

import Verif.Section.All
/-
  What happens to the reals of an object when it is printed and read back: they are rounded to what 11 columns can hold.
  Here: the assumption on disco (`Rounding`), the rounded records, and the requirement `Comp.Rounds` for components of sections:
  the rounded object is valid as well, is printed in the same way, and all of its reals survive printing.
-/
set_option linter.unusedVariables false
set_option linter.unusedSectionVars false
set_option linter.unusedSimpArgs false
namespace ENDFtk

/-- What disco's `ENDF::write` followed by `ENDF::read` does to a real (D9 of DESIGN.md): any real that is written in 11 columns can be read,
    which gives the rounded real `g x`;  writing that one again gives the same 11 columns.
    Rounding is monotone, leaves 0 and the integers of up to seven digits alone, and only 0 becomes 0.
    (`ltD` and `eqD` are `operator<` and `operator==` of `double`.) -/
class Rounding [Disco] where
  g : Dbl → Dbl
  read : ∀ x, parseReal (writeReal x) = some (g x)
  write : ∀ x, writeReal (g x) = writeReal x
  lt : ∀ {a b}, Disco.ltD a b = false → Disco.ltD (g a) (g b) = false
  eq : ∀ {a b}, Disco.eqD a b = true → Disco.eqD (g a) (g b) = true
  eqZero : ∀ x, Disco.eqD (g x) Disco.zero = Disco.eqD x Disco.zero
  zero : g Disco.zero = Disco.zero
  whole : ∀ n : Int, -10000000 < n → n < 10000000 → g (Disco.ofInt n) = Disco.ofInt n

/-- The real, after having been written in 11 columns and read again. -/
abbrev rnd [Disco] [Rounding] (x : Dbl) : Dbl := Rounding.g x

/-- An integer of at most seven digits. -/
def SevenDigits (n : Int) : Prop := -10000000 < n ∧ n < 10000000

instance (n : Int) : Decidable (SevenDigits n) := by unfold SevenDigits; exact inferInstance

variable [Disco] [Rounding]

theorem rep_rnd (x : Dbl) : Rep (rnd x) := by
  unfold Rep rnd
  rw [Rounding.write, Rounding.read]

theorem rnd_rnd (x : Dbl) : rnd (rnd x) = rnd x := by
  have h := Rounding.read (rnd x)
  rw [show writeReal (rnd x) = writeReal x from Rounding.write x, Rounding.read x] at h
  exact (Option.some.inj h).symm

theorem reps_rnd (l : List Dbl) : Reps (l.map rnd) := by
  intro x hx
  obtain ⟨y, _, rfl⟩ := List.mem_map.mp hx
  exact rep_rnd y

theorem rnd_ofInt {n : Int} (h : SevenDigits n) : rnd (Disco.ofInt n) = Disco.ofInt n := Rounding.whole n h.1 h.2

/-! ### records -/

def Cont.rnd (c : Cont) : Cont := ⟨ENDFtk.rnd c.c1, ENDFtk.rnd c.c2, c.l1, c.l2, c.n1, c.n2⟩
def LIST.rnd (r : LIST) : LIST := ⟨ENDFtk.rnd r.c1, ENDFtk.rnd r.c2, r.l1, r.l2, r.n2, r.data.map ENDFtk.rnd⟩
def TAB2.rnd (r : TAB2) : TAB2 := ⟨ENDFtk.rnd r.c1, ENDFtk.rnd r.c2, r.l1, r.l2, r.bounds, r.ints⟩
def TAB1.rnd (r : TAB1) : TAB1 := ⟨r.base.rnd, r.x.map ENDFtk.rnd, r.y.map ENDFtk.rnd⟩
def ISeq.rnd {α : Type} (m : α → α) (r : ISeq α) : ISeq α := ⟨r.tab2.rnd, r.seq.map m⟩

theorem printCont_rnd (c : Cont) (t : Nums) : printCont c.rnd t = printCont c t := by
  simp [printCont, contText, Cont.rnd, ENDFtk.rnd, Rounding.write]

theorem Fmt.writeFullLines_map {α : Type} (f : Fmt α) (m : α → α) (hm : ∀ x, f.write (m x) = f.write x) (t : Nums) (k : Nat) (xs : List α) :
    f.writeFullLines t k (xs.map m) = f.writeFullLines t k xs := by
  induction k generalizing xs with
  | zero => rfl
  | succ k ih =>
    simp only [Fmt.writeFullLines, ← List.map_take, ← List.map_drop, ih, List.flatMap_map, hm]

theorem Fmt.writeBlock_map {α : Type} (f : Fmt α) (m : α → α) (hm : ∀ x, f.write (m x) = f.write x) (t : Nums) (xs : List α) :
    f.writeBlock t (xs.map m) = f.writeBlock t xs := by
  simp only [Fmt.writeBlock, List.length_map, Fmt.writeFullLines_map f m hm, ← List.map_drop, List.flatMap_map, hm]

theorem isSorted_rnd {l : List Dbl} (h : isSorted Disco.ltD l = true) : isSorted Disco.ltD (l.map ENDFtk.rnd) = true := by
  induction l with
  | nil => rfl
  | cons a l ih =>
    cases l with
    | nil => rfl
    | cons b l =>
      simp only [isSorted, Bool.and_eq_true, Bool.not_eq_true', List.map_cons] at h ih ⊢
      exact ⟨Rounding.lt h.1, ih h.2⟩

theorem LIST.print_rnd (r : LIST) (t : Nums) : r.rnd.print t = r.print t := by
  have h : printCont r.rnd.meta' t = printCont r.meta' t := by
    rw [← printCont_rnd r.meta' t]
    simp [LIST.rnd, LIST.meta', LIST.npl, Cont.rnd]
  simp only [LIST.print, h]
  rw [show r.rnd.data = r.data.map ENDFtk.rnd from rfl, Fmt.writeBlock_map realFmt _ (fun x => Rounding.write x)]

theorem TAB2.print_rnd (r : TAB2) (t : Nums) : r.rnd.print t = r.print t := by
  have h : printCont r.rnd.meta' t = printCont r.meta' t := by
    rw [← printCont_rnd r.meta' t]
    simp [TAB2.rnd, TAB2.meta', TAB2.nr, TAB2.n2, Cont.rnd]
  simp only [TAB2.print, h]
  rfl

theorem zip_map_rnd (x y : List Dbl) : (x.map ENDFtk.rnd).zip (y.map ENDFtk.rnd) = (x.zip y).map (fun p => (ENDFtk.rnd p.1, ENDFtk.rnd p.2)) := by
  induction x generalizing y with
  | nil => rfl
  | cons a x ih =>
    cases y with
    | nil => rfl
    | cons b y => simp [ih]

theorem TAB1.print_rnd (r : TAB1) (t : Nums) : r.rnd.print t = r.print t := by
  simp only [TAB1.print, TAB1.rnd, TAB2.print_rnd, zip_map_rnd]
  rw [Fmt.writeBlock_map realPairFmt _ (fun x => by simp [realPairFmt, ENDFtk.rnd, Rounding.write])]

theorem Cont.fits_rnd {c : Cont} (h : c.Fits) : c.rnd.Fits := h
theorem LIST.fits_rnd {r : LIST} (h : r.Fits) : r.rnd.Fits := by
  simpa [LIST.Fits, LIST.meta', Cont.Fits, LIST.rnd, LIST.npl] using h
theorem TAB2.fits_rnd {r : TAB2} (h : r.Fits) : r.rnd.Fits := h
theorem TAB1.fits_rnd {r : TAB1} (h : r.Fits) : r.rnd.Fits := by
  obtain ⟨⟨h1, h2, h3, h4⟩, h5⟩ := h
  exact ⟨⟨h1, by simpa [TAB1.rnd] using h2, isSorted_rnd h3, by simpa [TAB1.rnd, TAB2.n2, TAB2.rnd] using h4⟩, h5⟩

theorem LIST.npl_rnd (r : LIST) : r.rnd.npl = r.npl := by simp [LIST.rnd, LIST.npl]
theorem LIST.length_rnd (r : LIST) : r.rnd.data.length = r.data.length := by simp [LIST.rnd]

/-! ### components -/

/-- `m a` is the object `a` with all reals rounded: it is valid if `a` is, and it is printed like `a`.
    The integers that a component prints as reals stay the same if they have up to seven digits: `P` says so for those of `a`. -/
structure Comp.Rounds {α : Type} (c : Comp α) (m : α → α) (P : α → Prop := fun _ => True) : Prop where
  valid : ∀ {a}, c.Valid a → c.Valid (m a)
  print : ∀ a t, c.print (m a) t = c.print a t
  reals : ∀ {a}, P a → c.reals (m a) = (c.reals a).map rnd

theorem contC_rounds : contC.Rounds Cont.rnd := ⟨Cont.fits_rnd, printCont_rnd, fun _ => rfl⟩
theorem listC_rounds : listC.Rounds LIST.rnd := ⟨LIST.fits_rnd, LIST.print_rnd, fun _ => rfl⟩
theorem tab2C_rounds : tab2C.Rounds TAB2.rnd := ⟨TAB2.fits_rnd, TAB2.print_rnd, fun _ => rfl⟩
theorem tab1C_rounds : tab1C.Rounds TAB1.rnd := ⟨TAB1.fits_rnd, TAB1.print_rnd, fun _ => by simp [tab1C, TAB1.rnd, TAB2.rnd]⟩
theorem nilC_rounds : nilC.Rounds id := ⟨fun h => h, fun _ _ => rfl, fun _ => rfl⟩

theorem flatMap_print_rnd {α : Type} {c : Comp α} {m : α → α} (h : ∀ a t, c.print (m a) t = c.print a t) (xs : List α) (t : Nums) :
    (xs.map m).flatMap (fun x => c.print x t) = xs.flatMap (fun x => c.print x t) := by
  simp only [List.flatMap_map, h]

theorem flatMap_reals_rnd {α : Type} {f : α → List Dbl} {m : α → α} {xs : List α} (h : ∀ a ∈ xs, f (m a) = (f a).map rnd) :
    (xs.map m).flatMap f = (xs.flatMap f).map rnd := by
  induction xs with
  | nil => rfl
  | cons a xs ih =>
    simp only [List.map_cons, List.flatMap_cons, List.map_append, h a (by simp), ih (fun b hb => h b (by simp [hb]))]

section
variable {α β : Type} {c : Comp α} {m : α → α} {P : α → Prop}

theorem Comp.Rounds.weaken (h : c.Rounds m P) {Q : α → Prop} (hq : ∀ a, Q a → P a) : c.Rounds m Q :=
  ⟨h.valid, h.print, fun hp => h.reals (hq _ hp)⟩

theorem forall_map {V : α → Prop} {xs : List α} (h : ∀ {a}, V a → V (m a)) (hv : ∀ x ∈ xs, V x) : ∀ x ∈ xs.map m, V x := by
  intro x hx
  obtain ⟨y, hy, rfl⟩ := List.mem_map.mp hx
  exact h (hv y hy)

theorem seqC_rounds (h : c.Rounds m P) (n : Int) : (seqC c n).Rounds (List.map m) (fun xs => ∀ x ∈ xs, P x) where
  valid := fun hv => ⟨by simpa using hv.1, forall_map h.valid hv.2⟩
  print := fun xs t => flatMap_print_rnd h.print xs t
  reals := fun hp => flatMap_reals_rnd (fun a ha => h.reals (hp a ha))

theorem manyC_rounds (h : c.Rounds m P) (n : Int) : (manyC c n).Rounds (List.map m) (fun xs => ∀ x ∈ xs, P x) where
  valid := fun hv => ⟨by simpa using hv.1, forall_map h.valid hv.2⟩
  print := fun xs t => flatMap_print_rnd h.print xs t
  reals := fun hp => flatMap_reals_rnd (fun a ha => h.reals (hp a ha))

theorem iseqC_rounds (h : c.Rounds m P) : (iseqC c).Rounds (ISeq.rnd m) (fun r => ∀ x ∈ r.seq, P x) where
  valid := fun hv => ⟨TAB2.fits_rnd hv.1, by simpa [ISeq.rnd] using hv.2.1, by simpa [ISeq.rnd, TAB2.rnd, TAB2.n2] using hv.2.2.1,
    forall_map h.valid hv.2.2.2⟩
  print := fun r t => by
    show r.tab2.rnd.print t ++ _ = r.tab2.print t ++ _
    rw [TAB2.print_rnd]
    exact congrArg _ (flatMap_print_rnd h.print r.seq t)
  reals := fun hp => by
    show [_, _] ++ _ = ([_, _] ++ _ : List Dbl).map rnd
    rw [List.map_append]
    exact congrArg _ (flatMap_reals_rnd (fun a ha => h.reals (hp a ha)))

theorem iseqD_rounds {c : TAB2 → Comp α} (hc : ∀ r, c r.rnd = c r) (h : ∀ r, (c r).Rounds m P) :
    (iseqD c).Rounds (ISeq.rnd m) (fun r => ∀ x ∈ r.seq, P x) where
  valid := fun {r} hv => ⟨TAB2.fits_rnd hv.1, by simpa [ISeq.rnd] using hv.2.1, by simpa [ISeq.rnd, TAB2.rnd, TAB2.n2] using hv.2.2.1,
    by show ∀ x ∈ r.seq.map m, (c r.tab2.rnd).Valid x
       rw [hc]; exact forall_map (h _).valid hv.2.2.2⟩
  print := fun r t => by
    show r.tab2.rnd.print t ++ (r.seq.map m).flatMap (fun x => (c r.tab2.rnd).print x t) = r.tab2.print t ++ _
    rw [TAB2.print_rnd, hc]
    exact congrArg _ (flatMap_print_rnd (h _).print r.seq t)
  reals := fun {r} hp => by
    show [_, _] ++ (r.seq.map m).flatMap (c r.tab2.rnd).reals = ([_, _] ++ _ : List Dbl).map rnd
    rw [List.map_append, hc]
    exact congrArg _ (flatMap_reals_rnd (fun a ha => (h _).reals (hp a ha)))

theorem checked_rounds (h : c.Rounds m P) {Q : α → Prop} [DecidablePred Q] {ov : α → Prop} [DecidablePred ov] (hq : ∀ a, c.Valid a → Q a → Q (m a)) : (c.checked Q ov).Rounds m P :=
  ⟨fun hv => ⟨h.valid hv.1, hq _ hv.1 hv.2⟩, h.print, h.reals⟩

theorem checkedE_rounds (h : c.Rounds m P) {f : α → Except Err Unit} (hf : ∀ a, c.Valid a → f a = .ok () → f (m a) = .ok ()) : (c.checkedE f).Rounds m P :=
  ⟨fun hv => ⟨h.valid hv.1, hf _ hv.1 hv.2⟩, h.print, h.reals⟩

theorem andThen_rounds {d : α → Comp β} {k : β → β} {Q : β → Prop} (h : c.Rounds m P) (hd : ∀ a, (d a).Rounds k Q) (he : ∀ a, d (m a) = d a) :
    (c.andThen d).Rounds (fun x => (m x.1, k x.2)) (fun x => P x.1 ∧ Q x.2) where
  valid := fun {x} hv => ⟨h.valid hv.1, by rw [he]; exact (hd _).valid hv.2⟩
  print := fun x t => by
    show c.print (m x.1) t ++ (d (m x.1)).print (k x.2) t = _
    rw [he, h.print, (hd _).print]; rfl
  reals := fun {x} hp => by
    show c.reals (m x.1) ++ (d (m x.1)).reals (k x.2) = (c.reals x.1 ++ (d x.1).reals x.2).map rnd
    rw [he, h.reals hp.1, (hd _).reals hp.2, List.map_append]

theorem optC_rounds (h : c.Rounds m P) (p : Prop) [Decidable p] : (optC p c).Rounds (Option.map m) (fun o => ∀ x ∈ o, P x) where
  valid := fun {x} hv => by
    cases x with
    | none => exact hv
    | some x => exact ⟨hv.1, h.valid hv.2⟩
  print := fun x t => by
    cases x with
    | none => rfl
    | some x => exact h.print x t
  reals := fun {x} hp => by
    cases x with
    | none => rfl
    | some x => exact h.reals (hp x rfl)

/-- The printing part of `Comp.Rounds`. -/
structure Printer.Rounds {V : Type} (p : Printer V) (m : V → V) (P : V → Prop := fun _ => True) : Prop where
  print : ∀ a t, p.print (m a) t = p.print a t
  reals : ∀ {a}, P a → p.reals (m a) = (p.reals a).map rnd

theorem via_rounds {V : Type} {p : Printer V} {f : α → V} {k : V → V} {Q : V → Prop} (h : c.Rounds m P) (hp : p.Rounds k Q) (hf : ∀ a, k (f a) = f (m a)) :
    (c.via p f).Rounds k Q where
  valid := by
    rintro _ ⟨a, rfl, ha⟩
    exact ⟨m a, hf a, h.valid ha⟩
  print := hp.print
  reals := hp.reals

theorem none_rounds {V : Type} {p : Printer V} {k : V → V} {Q : V → Prop} (hp : p.Rounds k Q) : p.none.Rounds k Q :=
  ⟨fun h => h.elim, hp.print, hp.reals⟩

theorem ite_rounds {d : Comp α} {p : Prop} {inst : Decidable p} (hc : c.Rounds m P) (hd : d.Rounds m P) : (if p then c else d).Rounds m P := by
  split
  · exact hc
  · exact hd

end

/-- As `Comp.Rounds`, for section types: also L1, L2, N1, N2 of the HEAD record and what is required to read the section back stay the same. -/
structure SecDef.Rounds {β : Type} (D : SecDef β) (m : β → β) (P : β → Prop := fun _ => True) : Prop where
  valid : ∀ {b}, D.Valid b → D.Valid (m b)
  head : ∀ b, D.head (m b) = D.head b
  body : ∀ awr b t, D.body (rnd awr) (m b) t = D.body awr b t
  reals : ∀ {b}, P b → D.reals (m b) = (D.reals b).map rnd
  mtOk : ∀ mt b, D.mtOk mt b → D.mtOk mt (m b)

end ENDFtk

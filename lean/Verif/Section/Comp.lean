import Verif.Record.RecordLemmas
/-
  Components of sections: what is required of each of them, and the records as components.
-/
set_option linter.unusedVariables false
set_option linter.unusedSectionVars false
set_option linter.unusedSimpArgs false
namespace ENDFtk
variable [Disco]

/-- A component of a section as the code sees it: `C( it, end, lineNumber, MAT, MF, MT )`, `print( it, MAT, MF, MT )` and `NC()`;
    `Valid` is its class invariant together with "the integers fit their columns", `reals` lists the reals it prints. -/
structure Comp (α : Type) where
  read : Nums → Parser α
  print : α → Nums → Text
  nc : α → Nat
  Valid : α → Prop
  reals : α → List Dbl

/-- All reals survive being printed in 11 columns. -/
def Reps (l : List Dbl) : Prop := ∀ x ∈ l, Rep x

instance (l : List Dbl) : Decidable (Reps l) := by unfold Reps; exact inferInstance

/-- The requirements:
  * a valid object that is printed is read back, all of its lines are consumed and the line counter advances by `NC()`;
  * printing a valid object gives `NC()` canonical lines (80 columns, numbers in columns 67-75);
  * reading any text fails with an exception derived from `std::exception`, or gives a valid object from `NC()` lines which all carry the
    expected numbers, and advances the line counter by that number.
  `E` are the possible failures: some components can also violate the preconditions of a library function (`Err.ub`). -/
structure Comp.Law {α : Type} (c : Comp α) (E : Err → Prop := StdErr) : Prop where
  round : ∀ {a t}, c.Valid a → Reps (c.reals a) → t.Fit → ∀ s n, c.read t ⟨c.print a t ++ s, n⟩ = .ok (a, ⟨s, n + (c.nc a : Int)⟩)
  canon : ∀ {a t}, c.Valid a → t.Fit → CanonicalText t (c.nc a) (c.print a t)
  reads : ∀ t, Reads E (fun a ls => c.Valid a ∧ AllTail t ls ∧ ls.length = c.nc a) (c.read t)

/-- A `std::exception`, or a violated precondition of a library function (undefined behaviour). -/
def UbErr (e : Err) : Prop := StdErr e ∨ e = .ub

/-- One set of failures is contained in another one. -/
class ErrSub (E F : Err → Prop) : Prop where
  sub : ∀ e, E e → F e

instance (E : Err → Prop) : ErrSub E E := ⟨fun _ h => h⟩
instance : ErrSub StdErr UbErr := ⟨fun _ h => .inl h⟩

theorem Reps.nil : Reps ([] : List Dbl) := by simp [Reps]
theorem reps_cons {x : Dbl} {l : List Dbl} : Reps (x :: l) ↔ Rep x ∧ Reps l := by simp [Reps]
theorem reps_append {l m : List Dbl} : Reps (l ++ m) ↔ Reps l ∧ Reps m := by
  simp only [Reps, List.mem_append]
  exact ⟨fun h => ⟨fun x hx => h x (.inl hx), fun x hx => h x (.inr hx)⟩, fun h x hx => hx.elim (h.1 x) (h.2 x)⟩
theorem reps_flatMap {α : Type} {f : α → List Dbl} {l : List α} : Reps (l.flatMap f) ↔ ∀ a ∈ l, Reps (f a) := by
  simp only [Reps, List.mem_flatMap]
  exact ⟨fun h a ha x hx => h x ⟨a, ha, hx⟩, fun h x ⟨a, ha, hx⟩ => h a ha x hx⟩

theorem AllTail.nil (t : Nums) : AllTail t [] := by simp [AllTail]
theorem allTail_append {t : Nums} {ls ms : List Text} : AllTail t (ls ++ ms) ↔ AllTail t ls ∧ AllTail t ms := by
  simp only [AllTail, List.mem_append]
  exact ⟨fun h => ⟨fun x hx => h x (.inl hx), fun x hx => h x (.inr hx)⟩, fun h x hx => hx.elim (h.1 x) (h.2 x)⟩
theorem allTail_flatten {t : Nums} {bs : List (List Text)} (h : ∀ ls ∈ bs, AllTail t ls) : AllTail t bs.flatten := by
  intro l hl
  obtain ⟨ls, h1, h2⟩ := List.mem_flatten.mp hl
  exact h ls h1 l h2

/-! ### records as components -/

/-- ControlRecord -/
def contC : Comp Cont := ⟨readCont, printCont, fun _ => 1, Cont.Fits, fun c => [c.c1, c.c2]⟩
/-- ListRecord -/
def listC : Comp LIST := ⟨readLIST, LIST.print, LIST.nc, LIST.Fits, fun r => r.c1 :: r.c2 :: r.data⟩
/-- InterpolationRecord -/
def tab2C : Comp TAB2 := ⟨readTAB2, TAB2.print, TAB2.nc, TAB2.Fits, fun r => [r.c1, r.c2]⟩
/-- TabulationRecord -/
def tab1C : Comp TAB1 := ⟨readTAB1, TAB1.print, TAB1.nc, TAB1.Fits, fun r => [r.base.c1, r.base.c2] ++ (r.x ++ r.y)⟩
/-- TextRecord -/
def textC : Comp Text := ⟨readText, printText, fun _ => 1, fun x => x.length = 66 ∧ '\n' ∉ x, fun _ => []⟩
/-- DirectoryRecord -/
def dirC : Comp Dir := ⟨readDir, printDir, fun _ => 1, Dir.Ok, fun _ => []⟩

theorem fits_of_parse {f : Text} {w : Nat} {n : Int} (hw : f.length ≤ w) (h : parseInt f = some n) : fits w n :=
  fits_mono hw (Disco.parseInt_fits f n h)

theorem cols_length (a b : Nat) (l : Text) : (cols a b l).length ≤ b + 1 - a := by simp [cols]; omega

theorem showsCont_fits {c : Cont} {l : Text} (h : ShowsCont c l) : c.Fits :=
  ⟨fits_of_parse (cols_length 23 33 l) h.2.2.1, fits_of_parse (cols_length 34 44 l) h.2.2.2.1,
    fits_of_parse (cols_length 45 55 l) h.2.2.2.2.1, fits_of_parse (cols_length 56 66 l) h.2.2.2.2.2⟩

theorem contC_law : contC.Law where
  round := fun hv hr ht s n => readCont_printCont (Cont.ok_iff.mpr ⟨hv, hr _ (by simp [contC]), hr _ (by simp [contC])⟩) ht s n
  canon := fun hv ht => Cont.Fits.canonical hv ht
  reads := fun t => (readCont_reads t).post (by
    rintro c ls ⟨l, rfl, h1, h2⟩
    exact ⟨showsCont_fits h1, by simpa [AllTail] using h2, rfl⟩)

theorem listC_law : listC.Law where
  round := fun {a t} hv hr ht s n => readLIST_print ⟨Cont.ok_iff.mpr ⟨hv, hr _ (by simp [listC, LIST.meta']), hr _ (by simp [listC, LIST.meta'])⟩,
    fun x hx => hr x (by simp [listC, hx])⟩ ht s n
  canon := fun hv ht => LIST.print_canonical hv ht
  reads := fun t => (readLIST_reads t).post (by
    rintro c ls ⟨h, ds, rfl, h1, h2, h3, _⟩
    exact ⟨showsCont_fits h3, h1, h2⟩)

theorem fieldVals_mem {α : Type} {g : Text → Option α} {w : Nat} {n : Nat} {l : Text} {o : Option α} (h : o ∈ fieldVals g w n l) :
    ∃ l', o = g l' := by
  induction n generalizing l with
  | zero => simp [fieldVals] at h
  | succ n ih =>
    simp only [fieldVals, List.mem_cons] at h
    rcases h with h | h
    · exact ⟨l, h⟩
    · exact ih h

theorem blockSpec_mem {α : Type} {g : Text → Option α} {w per : Nat} {empty : α → Bool} {ds : List Text} {xs : List α}
    (h : BlockSpec g w per empty ds xs) : ∀ x ∈ xs, ∃ l, g l = some x := by
  intro x hx
  obtain ⟨pad, h1, _⟩ := h
  have : some x ∈ ds.flatMap (fieldVals g w per) := by rw [h1]; simp [hx]
  obtain ⟨l, _, hl⟩ := List.mem_flatMap.mp this
  obtain ⟨l', hl'⟩ := fieldVals_mem hl
  exact ⟨l', hl'.symm⟩

theorem intPairField_fits {l : Text} {p : Int × Int} (h : intPairField l = some p) : fits 11 p.1 ∧ fits 11 p.2 := by
  unfold intPairField at h
  simp only [Option.bind_eq_some_iff, Option.some.injEq] at h
  obtain ⟨a, h1, b, h2, rfl⟩ := h
  exact ⟨fits_of_parse (by simp; omega) h1, fits_of_parse (by simp; omega) h2⟩

theorem showsTAB2_fits {t : Nums} {r : TAB2} {ls : List Text} (h : ShowsTAB2 t r ls) (hv : r.Valid) (h0 : 0 ≤ r.n2) : TAB2.Fits r := by
  obtain ⟨l, ds, _, _, _, h4, h5⟩ := h
  have hm : ∀ p ∈ r.bounds.zip r.ints, fits 11 p.1 ∧ fits 11 p.2 := by
    intro p hp
    obtain ⟨l', hl'⟩ := blockSpec_mem h5 p hp
    exact intPairField_fits hl'
  refine ⟨hv, h0, showsCont_fits h4, ?_, ?_⟩
  · intro b hb
    rw [← map_fst_zip' hv.2.1] at hb
    obtain ⟨p, hp, rfl⟩ := List.mem_map.mp hb
    exact (hm p hp).1
  · intro b hb
    rw [← map_snd_zip' hv.2.1] at hb
    obtain ⟨p, hp, rfl⟩ := List.mem_map.mp hb
    exact (hm p hp).2

theorem showsTAB2_tail {t : Nums} {r : TAB2} {ls : List Text} (h : ShowsTAB2 t r ls) : AllTail t ls ∧ ls.length = r.nc := by
  obtain ⟨l, ds, rfl, h1, h2, _⟩ := h; exact ⟨h1, h2⟩

theorem tab2C_law : tab2C.Law where
  round := fun hv hr ht s n => readTAB2_print (TAB2.ok_iff.mpr ⟨hv, hr _ (by simp [tab2C]), hr _ (by simp [tab2C])⟩) ht s n
  canon := fun hv ht => TAB2.print_canonical hv ht
  reads := fun t => (readTAB2_reads t).post (by
    rintro r ls ⟨h1, h2, h3⟩
    exact ⟨showsTAB2_fits h1 h2 h3, showsTAB2_tail h1⟩)

theorem tab1C_law : tab1C.Law where
  round := fun hv hr ht s n => readTAB1_print (TAB1.ok_iff.mpr ⟨hv, ⟨hr _ (by simp [tab1C]), hr _ (by simp [tab1C])⟩,
    fun x hx => hr x (by simp [tab1C, hx]), fun x hx => hr x (by simp [tab1C, hx])⟩) ht s n
  canon := fun hv ht => TAB1.print_canonical hv ht
  reads := fun t => (readTAB1_reads t).post (by
    rintro r ls ⟨⟨hs, ds, rfl, h1, h2, h3, h4⟩, h5⟩
    exact ⟨⟨h5, showsTAB2_fits h3 h5.1 (by rw [h5.2.2.2]; omega)⟩, h1, h2⟩)

theorem Lines.mem_nl {ls : List Text} {s r : Text} (h : Lines ls s r) {l : Text} (hl : l ∈ ls) : '\n' ∉ l := h.nl l hl

theorem textC_law : textC.Law where
  round := fun hv _ ht s n => readText_printText hv.1 hv.2 ht s n
  canon := fun {a t} hv ht => ⟨_, (printText_lines hv.1 hv.2 ht).1, rfl, by simpa using (printText_lines hv.1 hv.2 ht).2⟩
  reads := fun t => by
    apply Reads.intro
    · intro s a s' h
      obtain ⟨ls, h1, h2, l, rfl, h3, h4⟩ := (readText_reads t).ok h
      have hn : '\n' ∉ l := h1.mem_nl (by simp)
      subst h3
      exact ⟨[l], h1, h2, ⟨padded_length 66 l, padded_nl 66 hn⟩, by simpa [AllTail] using h4, rfl⟩
    · intro s e h; exact (readText_reads t).err h

theorem showsDir_ok {d : Dir} {l : Text} (h : ShowsDir d l) : d.Ok :=
  ⟨fits_of_parse (cols_length 1 33 l) h.1, fits_of_parse (cols_length 34 44 l) h.2.1, fits_of_parse (cols_length 45 55 l) h.2.2.1,
    fits_of_parse (cols_length 56 66 l) h.2.2.2⟩

theorem dirC_law : dirC.Law where
  round := fun hv _ ht s n => readDir_printDir hv ht s n
  canon := fun {a t} hv ht => by
    obtain ⟨l, h1, h2⟩ := printDir_lines hv ht
    exact ⟨[l], h1, rfl, by simpa using h2⟩
  reads := fun t => (readDir_reads t).post (by
    rintro r ls ⟨l, rfl, h1, h2⟩
    exact ⟨showsDir_ok h1, by simpa [AllTail] using h2, rfl⟩)

end ENDFtk

import Verif.Record.DataLemmas
/-
  LIST, TAB1, TAB2, interpolation sequences: reading arbitrary text, reading back, printed lines.
-/
set_option linter.unusedVariables false
set_option linter.unusedSectionVars false
set_option linter.unusedSimpArgs false
namespace ENDFtk
variable [Disco]

/-- All these lines carry the numbers `e`. -/
def AllTail (e : Nums) (ls : List Text) : Prop := ∀ l ∈ ls, HasTail e l

/-- A text consisting of `k` canonical lines. -/
def CanonicalText (t : Nums) (k : Nat) (s : Text) : Prop :=
  ∃ ls, s = unlines ls ∧ ls.length = k ∧ ∀ l ∈ ls, CanonicalLine t l

theorem CanonicalText.append {t : Nums} {k m : Nat} {s r : Text} (h1 : CanonicalText t k s) (h2 : CanonicalText t m r) :
    CanonicalText t (k + m) (s ++ r) := by
  obtain ⟨ls, rfl, h3, h4⟩ := h1
  obtain ⟨ms, rfl, h5, h6⟩ := h2
  refine ⟨ls ++ ms, by simp, by simp [h3, h5], ?_⟩
  simp only [List.mem_append]
  rintro l (h | h)
  · exact h4 l h
  · exact h6 l h

theorem CanonicalText.nil (t : Nums) : CanonicalText t 0 [] := ⟨[], by simp, rfl, by simp⟩

theorem CanonicalText.flatMap {α : Type} {t : Nums} {nc : α → Nat} {pr : α → Text} {xs : List α}
    (h : ∀ x ∈ xs, CanonicalText t (nc x) (pr x)) : CanonicalText t (xs.map nc).sum (xs.flatMap pr) := by
  induction xs with
  | nil => exact .nil t
  | cons x xs ih =>
    simp only [List.mem_cons, forall_eq_or_imp] at h
    simpa using h.1.append (ih h.2)

theorem printCont_canonical {c : Cont} {t : Nums} (h1 : fits 11 c.l1) (h2 : fits 11 c.l2) (h3 : fits 11 c.n1) (h4 : fits 11 c.n2)
    (ht : t.Fit) : CanonicalText t 1 (printCont c t) := by
  obtain ⟨l, h5, h6⟩ := printCont_lines h1 h2 h3 h4 ht
  exact ⟨[l], h5, rfl, by simpa using h6⟩

theorem Cont.Ok.canonical {c : Cont} {t : Nums} (h : c.Ok) (ht : t.Fit) : CanonicalText t 1 (printCont c t) :=
  printCont_canonical h.2.2.1 h.2.2.2.1 h.2.2.2.2.1 h.2.2.2.2.2 ht

/-- The integers fit their columns. -/
def Cont.Fits (c : Cont) : Prop := fits 11 c.l1 ∧ fits 11 c.l2 ∧ fits 11 c.n1 ∧ fits 11 c.n2

instance (c : Cont) : Decidable c.Fits := by unfold Cont.Fits; exact inferInstance

theorem Cont.ok_iff {c : Cont} : c.Ok ↔ c.Fits ∧ Rep c.c1 ∧ Rep c.c2 := by
  unfold Cont.Ok Cont.Fits
  constructor
  · rintro ⟨h1, h2, h3⟩; exact ⟨h3, h1, h2⟩
  · rintro ⟨h3, h1, h2⟩; exact ⟨h1, h2, h3⟩

theorem Cont.Fits.canonical {c : Cont} {t : Nums} (h : c.Fits) (ht : t.Fit) : CanonicalText t 1 (printCont c t) :=
  printCont_canonical h.1 h.2.1 h.2.2.1 h.2.2.2 ht

/-! ### LIST -/

/-- The LIST record survives printing: reals representable, integers fit 11 columns. -/
def LIST.Ok (r : LIST) : Prop := r.meta'.Ok ∧ ∀ x ∈ r.data, Rep x

instance (r : LIST) : Decidable r.Ok := by unfold LIST.Ok; exact inferInstance

/-- What the lines of a LIST record show. -/
def ShowsLIST (e : Nums) (r : LIST) (ls : List Text) : Prop :=
  ∃ h ds, ls = h :: ds ∧ AllTail e ls ∧ ls.length = r.nc ∧ ShowsCont r.meta' h ∧
    BlockSpec realField 11 6 (fun x => Disco.eqD x Disco.zero) ds r.data

theorem readListMeta_reads (e : Nums) :
    Reads RawErr (fun c ls => ∃ l, ls = [l] ∧ ShowsCont c l ∧ HasTail e l ∧ 0 ≤ c.n1) (readListMeta e) := by
  refine Reads.bind (colsTail_reads readContBase_cols e) ?_
  rintro c ls ⟨l, rfl, h1, h2⟩
  refine Reads.ite (fun _ => Reads.fail RawErr.exc) (fun h => Reads.pure ⟨l, rfl, contOpt_eq_some.mp h1, h2, by omega⟩)

theorem readLIST_reads (e : Nums) : Reads StdErr (ShowsLIST e) (readLIST e) := by
  refine Reads.mapErr (E := RawErr) ?_ (fun e h => catchInt_raw h)
  refine Reads.bind (readListMeta_reads e) ?_
  rintro c ls ⟨l, rfl, h1, h2, h3⟩
  refine Reads.bind (Fmt.unzip_reads realFmt_law e c.n1.toNat) ?_
  rintro xs ds ⟨h4, h5, h6, h7⟩
  have h4' : (xs.length : Int) = c.n1 := by omega
  refine Reads.pure ⟨l, ds, by simp, ?_, ?_, ?_, h7⟩
  · intro l' hl'
    simp only [List.append_nil, List.singleton_append, List.mem_cons] at hl'
    rcases hl' with rfl | h
    · exact h2
    · exact h5 _ h
  · simp only [List.append_nil, List.singleton_append, List.length_cons, h6, LIST.nc, h4, realFmt]; omega
  · simpa [LIST.meta', LIST.npl, h4'] using h1

theorem readListMeta_print {c : Cont} {t : Nums} (hc : c.Ok) (h0 : 0 ≤ c.n1) (ht : t.Fit) (s : Text) (n : Int) :
    readListMeta t ⟨printCont c t ++ s, n⟩ = .ok (c, ⟨s, n + 1⟩) := by
  have h := Parser.mapErr_ok.mp (readCont_printCont hc ht s n)
  rw [readListMeta, Parser.bind_ok h, if_neg (by omega)]
  rfl

theorem readLIST_print {r : LIST} {t : Nums} (hr : r.Ok) (ht : t.Fit) (s : Text) (n : Int) :
    readLIST t ⟨r.print t ++ s, n⟩ = .ok (r, ⟨s, n + (r.nc : Int)⟩) := by
  rw [readLIST, Parser.mapErr_ok, LIST.print, List.append_assoc,
    Parser.bind_ok (readListMeta_print hr.1 (by simp [LIST.meta', LIST.npl]) ht _ n)]
  have e : r.meta'.n1.toNat = r.data.length := by simp [LIST.meta', LIST.npl]
  rw [e, Parser.bind_ok (Fmt.unzip_writeBlock realFmt_law ht r.data hr.2 s (n + 1))]
  simp only [Parser.pure_run, Except.ok.injEq, Prod.mk.injEq, St.mk.injEq, true_and, LIST.nc]
  refine ⟨by cases r; simp [LIST.meta'], ?_⟩
  simp only [realFmt]; omega

/-- The integers fit their columns. -/
def LIST.Fits (r : LIST) : Prop := r.meta'.Fits

instance (r : LIST) : Decidable r.Fits := by unfold LIST.Fits; exact inferInstance

theorem LIST.print_canonical {r : LIST} {t : Nums} (hr : r.Fits) (ht : t.Fit) : CanonicalText t r.nc (r.print t) := by
  obtain ⟨ls, h1, h2, h3⟩ := Fmt.writeBlock_lines realFmt_wlaw ht r.data (fun _ _ => trivial)
  exact (hr.canonical ht).append ⟨ls, h1, h2, h3⟩

/-! ### sortedness -/

theorem isSorted_iff_chain {α : Type} (lt : α → α → Bool) (l : List α) :
    isSorted lt l = true ↔ ∀ i (h : i + 1 < l.length), lt (l[i + 1]'h) (l[i]'(by omega)) = false := by
  induction l with
  | nil => simp [isSorted]
  | cons a l ih =>
    cases l with
    | nil => simp [isSorted]
    | cons b l =>
      rw [isSorted, Bool.and_eq_true, ih]
      simp only [Bool.not_eq_true']
      constructor
      · rintro ⟨h1, h2⟩ i hi
        cases i with
        | zero => simpa using h1
        | succ i =>
          have := h2 i (by simpa using hi)
          simpa using this
      · intro h
        refine ⟨by simpa using h 0 (by simp), ?_⟩
        intro i hi
        have := h (i + 1) (by simpa using hi)
        simpa using this

theorem isSorted_int (l : List Int) : isSorted (fun a b => decide (a < b)) l = true ↔ l.Pairwise (· ≤ ·) := by
  induction l with
  | nil => simp [isSorted]
  | cons a l ih =>
    cases l with
    | nil => simp [isSorted]
    | cons b l =>
      rw [isSorted, Bool.and_eq_true, ih, List.pairwise_cons (a := a)]
      simp only [Bool.not_eq_true', decide_eq_false_iff_not, Int.not_lt, List.mem_cons, forall_eq_or_imp]
      constructor
      · intro ⟨h1, h2⟩
        refine ⟨⟨h1, ?_⟩, h2⟩
        intro c hc
        have := (List.pairwise_cons.mp h2).1 c hc
        omega
      · intro ⟨⟨h1, _⟩, h2⟩; exact ⟨h1, h2⟩

/-! ### TAB2 -/

/-- Invariants of an interpolation table. -/
def TAB2.Valid (r : TAB2) : Prop := r.bounds ≠ [] ∧ r.bounds.length = r.ints.length ∧ r.bounds.Pairwise (· ≤ ·)

instance (r : TAB2) : Decidable r.Valid := by unfold TAB2.Valid; exact inferInstance

theorem TAB2.make_ok {c1 c2 : Dbl} {l1 l2 : Int} {b i : List Int} {r : TAB2} :
    TAB2.make c1 c2 l1 l2 b i = .ok r ↔ r = ⟨c1, c2, l1, l2, b, i⟩ ∧ r.Valid := by
  unfold TAB2.make
  constructor
  · intro h
    split at h
    · cases h
    split at h
    · cases h
    split at h
    · cases h
    cases h
    rename_i h1 h2 h3
    refine ⟨rfl, h1, by simpa using h2, ?_⟩
    rw [← isSorted_int]
    simpa using h3
  · rintro ⟨rfl, h1, h2, h3⟩
    rw [if_neg h1, if_neg (by simpa using h2), if_neg]
    rw [← isSorted_int] at h3
    simpa using h3

/-- The record survives printing. -/
def TAB2.Ok (r : TAB2) : Prop :=
  r.Valid ∧ 0 ≤ r.n2 ∧ r.meta'.Ok ∧ (∀ b ∈ r.bounds, fits 11 b) ∧ (∀ i ∈ r.ints, fits 11 i)

instance (r : TAB2) : Decidable r.Ok := by unfold TAB2.Ok; exact inferInstance

/-- What the lines of a TAB2 record show. -/
def ShowsTAB2 (e : Nums) (r : TAB2) (ls : List Text) : Prop :=
  ∃ h ds, ls = h :: ds ∧ AllTail e ls ∧ ls.length = r.nc ∧ ShowsCont r.meta' h ∧
    BlockSpec intPairField 22 3 (fun p => p.1 == 0 && p.2 == 0) ds (r.bounds.zip r.ints)

/-- Errors inside the TAB1/TAB2 constructors. -/
def TabErr (e : Err) : Prop := RawErr e ∨ e = .illegalN2 ∨ e = .inconsistentN2

theorem catchAll_tab {e : Err} (h : TabErr e) : StdErr (catchAll e) := by
  rcases h with (rfl | ⟨n, rfl⟩) | rfl | rfl <;> rfl

theorem zip_fst_snd {α β : Type} (ps : List (α × β)) : (ps.map Prod.fst).zip (ps.map Prod.snd) = ps := by
  induction ps with
  | nil => rfl
  | cons p ps ih => simp [ih]

theorem Reads.liftE {α : Type} {E : Err → Prop} {Q : α → List Text → Prop} {x : Except Err α}
    (h1 : ∀ a, x = .ok a → Q a []) (h2 : ∀ e, x = .error e → E e) : Reads E Q (liftE x) := by
  intro s
  cases x with
  | ok a => exact ⟨[], .nil _, by simp, h1 a rfl⟩
  | error e => exact h2 e rfl

theorem readInterpBase_reads (e : Nums) :
    Reads TabErr (fun r ls => ShowsTAB2 e r ls ∧ r.Valid ∧ 0 ≤ r.n2) (readInterpBase e) := by
  refine Reads.bind (Q := fun c ls => ∃ l, ls = [l] ∧ ShowsCont c l ∧ HasTail e l ∧ 1 ≤ c.n1 ∧ 0 ≤ c.n2) ?_ ?_
  · refine Reads.bind ((colsTail_reads readContBase_cols e).conseq (fun e h => .inl h) (fun _ _ h => h)) ?_
    rintro c ls ⟨l, rfl, h1, h2⟩
    refine Reads.ite (fun _ => Reads.fail (.inl RawErr.exc)) (fun h => Reads.ite (fun _ => Reads.fail (.inr (.inl rfl)))
      (fun h' => Reads.pure ⟨l, rfl, contOpt_eq_some.mp h1, h2, by omega, by omega⟩))
  rintro c ls ⟨l, rfl, h1, h2, h3, h3'⟩
  refine Reads.bind (Q := fun ps ds => (ps : List (Int × Int)).length = c.n1.toNat ∧ AllTail e ds ∧ ds.length = (c.n1.toNat + 2) / 3 ∧
    BlockSpec intPairField 22 3 (fun p => p.1 == 0 && p.2 == 0) ds ps) ?_ ?_
  · refine Reads.bind ((Fmt.unzip_reads intPairFmt_law e c.n1.toNat).conseq (fun e h => .inl h) (fun _ _ h => h)) ?_
    rintro ps ds ⟨h4, h5, h6, h7⟩
    refine Reads.ite (fun _ => Reads.fail (.inl RawErr.exc)) (fun h => Reads.pure ?_)
    simp only [List.append_nil]
    exact ⟨h4, h5, h6, h7⟩
  rintro ps ds ⟨h4, h5, h6, h7⟩
  refine Reads.bind (Q := fun r ms => ms = [] ∧ r = TAB2.mk c.c1 c.c2 c.l1 c.l2 (ps.map Prod.fst) (ps.map Prod.snd) ∧ r.Valid) ?_ ?_
  · refine Reads.liftE (fun r h => ⟨rfl, TAB2.make_ok.mp h⟩) ?_
    intro er h
    unfold TAB2.make at h
    split at h
    · rename_i h0
      have : ps = [] := by simpa using h0
      subst this
      simp at h4; omega
    split at h
    · cases h; exact .inl RawErr.exc
    split at h
    · cases h; exact .inl RawErr.exc
    · cases h
  rintro r ms ⟨rfl, hr, hv⟩
  refine Reads.ite (fun _ => Reads.fail (.inr (.inr rfl))) (fun hn => ?_)
  have hn : c.n2 = r.n2 := by simpa using hn
  have hb : r.bounds = ps.map Prod.fst := by rw [hr]
  have hi : r.ints = ps.map Prod.snd := by rw [hr]
  have hlen : (ps.length : Int) = c.n1 := by omega
  refine Reads.pure ⟨⟨l, ds, by simp, ?_, ?_, ?_, ?_⟩, hv, by omega⟩
  · intro l' hl'
    simp only [List.append_nil, List.singleton_append, List.mem_cons] at hl'
    rcases hl' with rfl | h
    · exact h2
    · exact h5 _ h
  · simp only [List.append_nil, List.singleton_append, List.length_cons, h6, TAB2.nc, hb, List.length_map, h4]; omega
  · have : r.meta' = c := by
      rw [TAB2.meta', ← hn, TAB2.nr, hb, List.length_map, hlen, hr]
    rw [this]; exact h1
  · rw [hb, hi, zip_fst_snd]; exact h7

theorem readTAB2_reads (e : Nums) :
    Reads StdErr (fun r ls => ShowsTAB2 e r ls ∧ r.Valid ∧ 0 ≤ r.n2) (readTAB2 e) :=
  (readInterpBase_reads e).mapErr (fun e h => catchAll_tab h)

theorem map_fst_zip' {α β : Type} {a : List α} {b : List β} (h : a.length = b.length) : (a.zip b).map Prod.fst = a := by
  rw [List.map_fst_zip]; omega
theorem map_snd_zip' {α β : Type} {a : List α} {b : List β} (h : a.length = b.length) : (a.zip b).map Prod.snd = b := by
  rw [List.map_snd_zip]; omega

theorem readInterpBase_print {r : TAB2} {t : Nums} (hr : r.Ok) (ht : t.Fit) (s : Text) (n : Int) :
    readInterpBase t ⟨r.print t ++ s, n⟩ = .ok (r, ⟨s, n + (r.nc : Int)⟩) := by
  obtain ⟨hv, h0, hm, hb, hi⟩ := hr
  obtain ⟨v1, v2, v3⟩ := hv
  have hm' : readInterpMeta t ⟨printCont r.meta' t ++ (intPairFmt.writeBlock t (r.bounds.zip r.ints) ++ s), n⟩ =
      .ok (r.meta', ⟨intPairFmt.writeBlock t (r.bounds.zip r.ints) ++ s, n + 1⟩) := by
    have h := Parser.mapErr_ok.mp (readCont_printCont hm ht (intPairFmt.writeBlock t (r.bounds.zip r.ints) ++ s) n)
    have hpos : 0 < r.bounds.length := List.length_pos_iff.mpr v1
    rw [readInterpMeta, Parser.bind_ok h, if_neg (by simp [TAB2.meta', TAB2.nr]; omega), if_neg (by simp [TAB2.meta']; omega)]
    rfl
  have hz : (r.bounds.zip r.ints).length = r.bounds.length := by simp [v2]
  have e : r.meta'.n1.toNat = (r.bounds.zip r.ints).length := by rw [hz]; simp [TAB2.meta', TAB2.nr]
  have hk : ∀ p ∈ r.bounds.zip r.ints, fits 11 p.1 ∧ fits 11 p.2 := by
    intro p hp
    exact ⟨hb _ (List.of_mem_zip (a := p.1) (b := p.2) hp).1, hi _ (List.of_mem_zip (a := p.1) (b := p.2) hp).2⟩
  have hrr : readRanges t (r.bounds.zip r.ints).length ⟨intPairFmt.writeBlock t (r.bounds.zip r.ints) ++ s, n + 1⟩ =
      .ok (r.bounds.zip r.ints, ⟨s, n + 1 + (((r.bounds.zip r.ints).length + 2) / 3 : Nat)⟩) := by
    rw [readRanges, Parser.bind_ok (Fmt.unzip_writeBlock intPairFmt_law ht _ hk s (n + 1)), map_fst_zip' v2,
      if_neg (by rw [(isSorted_int _).mpr v3]; simp)]
    rfl
  rw [readInterpBase, TAB2.print, List.append_assoc, Parser.bind_ok hm', e, Parser.bind_ok hrr, map_fst_zip' v2, map_snd_zip' v2]
  have hmk : TAB2.make r.meta'.c1 r.meta'.c2 r.meta'.l1 r.meta'.l2 r.bounds r.ints = .ok r := by
    rw [TAB2.make_ok]; exact ⟨rfl, v1, v2, v3⟩
  have hl : liftE (TAB2.make r.meta'.c1 r.meta'.c2 r.meta'.l1 r.meta'.l2 r.bounds r.ints)
      ⟨s, n + 1 + (((r.bounds.zip r.ints).length + 2) / 3 : Nat)⟩ =
      .ok (r, ⟨s, n + 1 + (((r.bounds.zip r.ints).length + 2) / 3 : Nat)⟩) := by
    rw [hmk]; rfl
  rw [Parser.bind_ok hl, if_neg (by simp [TAB2.meta']), hz]
  simp only [Parser.pure_run, Except.ok.injEq, Prod.mk.injEq, St.mk.injEq, true_and, TAB2.nc]
  omega

theorem readTAB2_print {r : TAB2} {t : Nums} (hr : r.Ok) (ht : t.Fit) (s : Text) (n : Int) :
    readTAB2 t ⟨r.print t ++ s, n⟩ = .ok (r, ⟨s, n + (r.nc : Int)⟩) := by
  rw [readTAB2, Parser.mapErr_ok]; exact readInterpBase_print hr ht s n

/-- Consistent, and the integers fit their columns. -/
def TAB2.Fits (r : TAB2) : Prop :=
  r.Valid ∧ 0 ≤ r.n2 ∧ r.meta'.Fits ∧ (∀ b ∈ r.bounds, fits 11 b) ∧ (∀ i ∈ r.ints, fits 11 i)

instance (r : TAB2) : Decidable r.Fits := by unfold TAB2.Fits; exact inferInstance

theorem TAB2.ok_iff {r : TAB2} : r.Ok ↔ r.Fits ∧ Rep r.c1 ∧ Rep r.c2 := by
  unfold TAB2.Ok TAB2.Fits
  rw [Cont.ok_iff]
  constructor
  · rintro ⟨h1, h2, ⟨h3, h4, h5⟩, h6⟩; exact ⟨⟨h1, h2, h3, h6⟩, h4, h5⟩
  · rintro ⟨⟨h1, h2, h3, h6⟩, h4, h5⟩; exact ⟨h1, h2, ⟨h3, h4, h5⟩, h6⟩

theorem TAB2.print_canonical {r : TAB2} {t : Nums} (hr : r.Fits) (ht : t.Fit) : CanonicalText t r.nc (r.print t) := by
  obtain ⟨hv, h0, hm, hb, hi⟩ := hr
  have hk : ∀ p ∈ r.bounds.zip r.ints, fits 11 p.1 ∧ fits 11 p.2 := by
    intro p hp
    exact ⟨hb _ (List.of_mem_zip (a := p.1) (b := p.2) hp).1, hi _ (List.of_mem_zip (a := p.1) (b := p.2) hp).2⟩
  obtain ⟨ls, h1, h2, h3⟩ := Fmt.writeBlock_lines intPairFmt_wlaw ht _ hk
  refine (hm.canonical ht).append ⟨ls, h1, ?_, h3⟩
  rw [h2]; simp [intPairFmt, hv.2.1]

/-! ### TAB1 -/

/-- Invariants of a tabulated function. -/
def TAB1.Valid (r : TAB1) : Prop :=
  r.base.Valid ∧ r.x.length = r.y.length ∧ isSorted Disco.ltD r.x = true ∧ r.base.n2 = r.x.length

instance (r : TAB1) : Decidable r.Valid := by unfold TAB1.Valid; exact inferInstance

/-- The record survives printing. -/
def TAB1.Ok (r : TAB1) : Prop := r.Valid ∧ r.base.Ok ∧ (∀ x ∈ r.x, Rep x) ∧ (∀ y ∈ r.y, Rep y)

instance (r : TAB1) : Decidable r.Ok := by unfold TAB1.Ok; exact inferInstance

/-- What the lines of a TAB1 record show. -/
def ShowsTAB1 (e : Nums) (r : TAB1) (ls : List Text) : Prop :=
  ∃ hs ds, ls = hs ++ ds ∧ AllTail e ls ∧ ls.length = r.nc ∧ ShowsTAB2 e r.base hs ∧
    BlockSpec realPairField 22 3 (fun p => Disco.eqD p.1 Disco.zero && Disco.eqD p.2 Disco.zero) ds (r.x.zip r.y)

theorem readTAB1_reads (e : Nums) :
    Reads StdErr (fun r ls => ShowsTAB1 e r ls ∧ r.Valid) (readTAB1 e) := by
  refine Reads.mapErr (E := TabErr) ?_ (fun e h => catchAll_tab h)
  refine Reads.bind (readInterpBase_reads e) ?_
  rintro b ls ⟨h1, h2, h3⟩
  refine Reads.bind (Q := fun ps ds => (ps : List (Dbl × Dbl)).length = b.n2.toNat ∧ AllTail e ds ∧ ds.length = (b.n2.toNat + 2) / 3 ∧
    BlockSpec realPairField 22 3 (fun p => Disco.eqD p.1 Disco.zero && Disco.eqD p.2 Disco.zero) ds ps ∧
    isSorted Disco.ltD (ps.map Prod.fst) = true) ?_ ?_
  · refine Reads.bind ((Fmt.unzip_reads realPairFmt_law e b.n2.toNat).conseq (fun e h => .inl h) (fun _ _ h => h)) ?_
    rintro ps ds ⟨h4, h5, h6, h7⟩
    refine Reads.ite (fun _ => Reads.fail (.inl RawErr.exc)) (fun h => Reads.pure ?_)
    simp only [List.append_nil]
    exact ⟨h4, h5, h6, h7, by simpa using h⟩
  rintro ps ds ⟨h4, h5, h6, h7, h8⟩
  refine Reads.pure ⟨⟨ls, ds, by simp, ?_, ?_, h1, ?_⟩, h2, by simp, h8, ?_⟩
  · obtain ⟨_, _, _, ht, _⟩ := h1
    intro l hl
    simp only [List.append_nil, List.mem_append] at hl
    rcases hl with h | h
    · exact ht _ h
    · exact h5 _ h
  · obtain ⟨_, _, _, _, hn, _⟩ := h1
    simp [hn, h6, TAB1.nc, h4]
  · simp only [zip_fst_snd]; exact h7
  · simp [h4]; omega

theorem readTAB1_print {r : TAB1} {t : Nums} (hr : r.Ok) (ht : t.Fit) (s : Text) (n : Int) :
    readTAB1 t ⟨r.print t ++ s, n⟩ = .ok (r, ⟨s, n + (r.nc : Int)⟩) := by
  obtain ⟨⟨hv, v2, v3, v4⟩, hb, hx, hy⟩ := hr
  have hz : (r.x.zip r.y).length = r.x.length := by simp [v2]
  have hk : ∀ p ∈ r.x.zip r.y, Rep p.1 ∧ Rep p.2 := by
    intro p hp
    exact ⟨hx _ (List.of_mem_zip (a := p.1) (b := p.2) hp).1, hy _ (List.of_mem_zip (a := p.1) (b := p.2) hp).2⟩
  have e : r.base.n2.toNat = (r.x.zip r.y).length := by rw [v4, hz]; simp
  have hrr : readPairs t r.base.n2 ⟨realPairFmt.writeBlock t (r.x.zip r.y) ++ s, n + (r.base.nc : Int)⟩ =
      .ok (r.x.zip r.y, ⟨s, n + (r.base.nc : Int) + (((r.x.zip r.y).length + 2) / 3 : Nat)⟩) := by
    rw [readPairs, e, Parser.bind_ok (Fmt.unzip_writeBlock realPairFmt_law ht _ hk s _), map_fst_zip' v2, v3]
    rfl
  rw [readTAB1, Parser.mapErr_ok, TAB1.print, List.append_assoc, Parser.bind_ok (readInterpBase_print hb ht _ n),
    Parser.bind_ok hrr, map_fst_zip' v2, map_snd_zip' v2, hz]
  simp only [Parser.pure_run, Except.ok.injEq, Prod.mk.injEq, St.mk.injEq, true_and, TAB1.nc]
  push_cast; omega

/-- Consistent, and the integers fit their columns. -/
def TAB1.Fits (r : TAB1) : Prop := r.Valid ∧ r.base.Fits

instance (r : TAB1) : Decidable r.Fits := by unfold TAB1.Fits; exact inferInstance

theorem TAB1.ok_iff {r : TAB1} : r.Ok ↔ r.Fits ∧ (Rep r.base.c1 ∧ Rep r.base.c2) ∧ (∀ x ∈ r.x, Rep x) ∧ (∀ y ∈ r.y, Rep y) := by
  unfold TAB1.Ok TAB1.Fits
  rw [TAB2.ok_iff]
  constructor
  · rintro ⟨h1, ⟨h3, h4⟩, h6⟩; exact ⟨⟨h1, h3⟩, h4, h6⟩
  · rintro ⟨⟨h1, h3⟩, h4, h6⟩; exact ⟨h1, ⟨h3, h4⟩, h6⟩

theorem TAB1.print_canonical {r : TAB1} {t : Nums} (hr : r.Fits) (ht : t.Fit) : CanonicalText t r.nc (r.print t) := by
  obtain ⟨hv, hb⟩ := hr
  obtain ⟨ls, h1, h2, h3⟩ := Fmt.writeBlock_lines realPairFmt_wlaw ht (r.x.zip r.y) (fun _ _ => trivial)
  refine (TAB2.print_canonical hb ht).append ⟨ls, h1, ?_, h3⟩
  rw [h2]; simp [realPairFmt, hv.2.1]

/-! ### sequences -/

theorem readMany_reads {α : Type} {E : Err → Prop} {Q : α → List Text → Prop} {p : Parser α} (hp : Reads E Q p) (n : Nat) :
    Reads E (fun xs ls => xs.length = n ∧ ∃ bs : List (List Text), ls = bs.flatten ∧ All2 Q xs bs) (readMany p n) := by
  induction n with
  | zero => exact Reads.pure ⟨rfl, [], rfl, .nil⟩
  | succ n ih =>
    refine Reads.bind hp ?_
    intro x l1 hx
    refine Reads.bind ih ?_
    rintro xs l2 ⟨h1, bs, rfl, h2⟩
    exact Reads.pure ⟨by simp [h1], l1 :: bs, by simp, .cons hx h2⟩

theorem readSequence_reads {α : Type} {E : Err → Prop} {Q : α → List Text → Prop} {p : Parser α} (hE : E .exc) (hp : Reads E Q p) (n : Int) :
    Reads E (fun xs ls => (xs.length : Int) = toInt32 n ∧ ∃ bs : List (List Text), ls = bs.flatten ∧ All2 Q xs bs) (readSequence p n) := by
  refine Reads.ite (fun _ => Reads.fail hE) (fun h => (readMany_reads hp (toInt32 n).toNat).post ?_)
  rintro xs ls ⟨h1, h2⟩
  exact ⟨by omega, h2⟩

/-- A sequence of components each of which is read back is read back. -/
theorem readMany_print {α : Type} {p : Parser α} {pr : α → Text} {nc : α → Nat} {xs : List α}
    (h : ∀ x ∈ xs, ∀ s n, p ⟨pr x ++ s, n⟩ = .ok (x, ⟨s, n + (nc x : Int)⟩)) (s : Text) (n : Int) :
    readMany p xs.length ⟨xs.flatMap pr ++ s, n⟩ = .ok (xs, ⟨s, n + ((xs.map nc).sum : Nat)⟩) := by
  induction xs generalizing n with
  | nil => simp [readMany]
  | cons x xs ih =>
    simp only [List.mem_cons, forall_eq_or_imp] at h
    simp only [List.length_cons, readMany, List.flatMap_cons, List.append_assoc]
    rw [Parser.bind_ok (h.1 _ n), Parser.bind_ok (ih h.2 _)]
    simp only [Parser.pure_run, Except.ok.injEq, Prod.mk.injEq, St.mk.injEq, true_and, List.map_cons, List.sum_cons]
    push_cast; omega

theorem toInt32_id {n : Int} (h1 : -2147483648 ≤ n) (h2 : n < 2147483648) : toInt32 n = n := by
  unfold toInt32; omega

theorem toInt32_range (n : Int) : -2147483648 ≤ toInt32 n ∧ toInt32 n < 2147483648 := by
  unfold toInt32; omega

theorem readSequence_print {α : Type} {p : Parser α} {pr : α → Text} {nc : α → Nat} {xs : List α} (hx : xs.length < 2147483648)
    (h : ∀ x ∈ xs, ∀ s n, p ⟨pr x ++ s, n⟩ = .ok (x, ⟨s, n + (nc x : Int)⟩)) (s : Text) (n : Int) :
    readSequence p xs.length ⟨xs.flatMap pr ++ s, n⟩ = .ok (xs, ⟨s, n + ((xs.map nc).sum : Nat)⟩) := by
  rw [readSequence, toInt32_id (by omega) (by omega), if_neg (by omega), Int.toNat_natCast]
  exact readMany_print h s n

/-- Invariant of an interpolation sequence (the numbers agree as 32 bit integers, all that the code checks). -/
def ISeq.Valid {α : Type} (r : ISeq α) : Prop := r.seq ≠ [] ∧ toInt32 r.tab2.n2 = toInt32 r.seq.length

theorem readISeq_reads {α : Type} {Q : α → List Text → Prop} {p : Nums → Parser α} (e : Nums) (hp : Reads StdErr Q (p e)) :
    Reads StdErr (fun r ls => r.Valid ∧ r.tab2.Valid ∧ ∃ (hs : List Text) (bs : List (List Text)), ls = hs ++ bs.flatten ∧ ShowsTAB2 e r.tab2 hs ∧ All2 Q r.seq bs)
      (readISeq p e) := by
  refine Reads.bind (readTAB2_reads e) ?_
  rintro r ls ⟨h1, h2, h3⟩
  refine Reads.bind (readSequence_reads (E := StdErr) rfl hp r.n2) ?_
  rintro xs ms ⟨h4, bs, rfl, h5⟩
  refine Reads.liftE ?_ ?_
  · intro a ha
    unfold ISeq.make at ha
    split at ha
    · cases ha
    rename_i hne
    split at ha
    · cases ha
    cases ha
    refine ⟨⟨?_, by simp only; rw [← h4, toInt32_id (by omega) (by have := toInt32_range r.n2; omega)]⟩, h2, ls, bs, by simp, h1, h5⟩
    rintro rfl
    simp at hne
  · intro er h
    unfold ISeq.make at h
    split at h
    · cases h; rfl
    split at h
    · cases h; rfl
    · cases h

theorem readISeq_print {α : Type} {p : Nums → Parser α} {pr : α → Nums → Text} {nc : α → Nat} {r : ISeq α} {t : Nums}
    (hr : r.tab2.Ok) (hne : r.seq ≠ []) (hn : r.tab2.n2 = r.seq.length) (hlt : r.seq.length < 2147483648) (ht : t.Fit)
    (h : ∀ x ∈ r.seq, ∀ s n, p t ⟨pr x t ++ s, n⟩ = .ok (x, ⟨s, n + (nc x : Int)⟩)) (s : Text) (n : Int) :
    readISeq p t ⟨r.print pr t ++ s, n⟩ = .ok (r, ⟨s, n + (r.nc nc : Int)⟩) := by
  rw [readISeq, ISeq.print, List.append_assoc, Parser.bind_ok (readTAB2_print hr ht _ n), hn,
    Parser.bind_ok (readSequence_print hlt h s _)]
  have hpos : 0 < r.seq.length := List.length_pos_iff.mpr hne
  have : ISeq.make r.tab2 r.seq = .ok r := by
    rw [ISeq.make, if_neg (by omega), hn, if_neg (by simp [TAB1.npDiffer])]
  rw [this]
  simp only [liftE, Except.ok.injEq, Prod.mk.injEq, St.mk.injEq, true_and, ISeq.nc]
  push_cast; omega

theorem ISeq.print_canonical {α : Type} {pr : α → Nums → Text} {nc : α → Nat} {r : ISeq α} {t : Nums}
    (hr : r.tab2.Fits) (ht : t.Fit) (h : ∀ x ∈ r.seq, CanonicalText t (nc x) (pr x t)) :
    CanonicalText t (r.nc nc) (r.print pr t) :=
  (TAB2.print_canonical hr ht).append (CanonicalText.flatMap h)

end ENDFtk

import Verif.Record.RecordLemmas
/-
  INTG records.
-/
set_option linter.unusedVariables false
set_option linter.unusedSectionVars false
set_option linter.unusedSimpArgs false
namespace ENDFtk
variable [Disco]

/-- The record survives printing with `NDIGIT = nd`. -/
def INTG.Ok (nd : Nat) (r : INTG) : Prop :=
  0 ≤ r.i ∧ fits 5 r.i ∧ 0 ≤ r.j ∧ fits 5 r.j ∧ r.k.length ≤ intgN nd ∧ ∀ v ∈ r.k, fits (nd + 1) v

instance (nd : Nat) (r : INTG) : Decidable (r.Ok nd) := by unfold INTG.Ok; exact inferInstance

theorem stripZeros_append_zeros (k : List Int) (m : Nat) : stripZeros (k ++ List.replicate m 0) = stripZeros k := by
  unfold stripZeros
  congr 1
  rw [List.reverse_append, List.reverse_replicate]
  induction m with
  | zero => simp
  | succ m ih => rw [List.replicate_succ, List.cons_append, List.dropWhile_cons_of_pos (by simp), ih]

/-- `stripZeros` removes exactly the trailing zeros. -/
theorem stripZeros_spec (k : List Int) :
    ∃ m, k = stripZeros k ++ List.replicate m 0 ∧ ∀ v, (stripZeros k).getLast? = some v → v ≠ 0 := by
  have key : ∀ l : List Int, ∃ m, l = List.replicate m 0 ++ l.dropWhile (· == 0) ∧
      ∀ v, (l.dropWhile (· == 0)).head? = some v → v ≠ 0 := by
    intro l
    induction l with
    | nil => exact ⟨0, by simp⟩
    | cons a l ih =>
      by_cases ha : a = 0
      · subst ha
        obtain ⟨m, h1, h2⟩ := ih
        refine ⟨m + 1, ?_, ?_⟩
        · rw [List.dropWhile_cons_of_pos (by simp), List.replicate_succ, List.cons_append]
          rw [← h1]
        · rw [List.dropWhile_cons_of_pos (by simp)]; exact h2
      · refine ⟨0, ?_, ?_⟩
        · rw [List.dropWhile_cons_of_neg (by simpa using ha)]; rfl
        · rw [List.dropWhile_cons_of_neg (by simpa using ha)]
          intro v hv; simp at hv; subst hv; exact ha
  obtain ⟨m, h1, h2⟩ := key k.reverse
  refine ⟨m, ?_, ?_⟩
  · have := congrArg List.reverse h1
    rw [List.reverse_reverse, List.reverse_append, List.reverse_replicate] at this
    exact this
  · intro v hv
    apply h2 v
    rw [← hv, stripZeros, List.getLast?_reverse]

theorem readMany_append {α : Type} {p : Parser α} {a b : Nat} {s s' s'' : St} {xs ys : List α}
    (h1 : readMany p a s = .ok (xs, s')) (h2 : readMany p b s' = .ok (ys, s'')) :
    readMany p (a + b) s = .ok (xs ++ ys, s'') := by
  induction a generalizing s xs with
  | zero => simp [readMany] at h1; obtain ⟨rfl, rfl⟩ := h1; simpa using h2
  | succ a ih =>
    rw [readMany] at h1
    obtain ⟨x, s1, h3, h4⟩ := Parser.bind_eq_ok.mp h1
    obtain ⟨zs, s2, h5, h6⟩ := Parser.bind_eq_ok.mp h4
    simp at h6
    obtain ⟨rfl, rfl⟩ := h6
    rw [Nat.add_right_comm, readMany, Parser.bind_ok h3, Parser.bind_ok (ih h5)]
    rfl

theorem readMany_ints {w : Nat} (hw : 0 < w) (k : List Int) (hk : ∀ v ∈ k, fits w v) (s : Text) (n : Int) :
    readMany (readInt w) k.length ⟨k.flatMap (writeInt w) ++ s, n⟩ = .ok (k, ⟨s, n⟩) := by
  induction k with
  | nil => rfl
  | cons v k ih =>
    simp only [List.mem_cons, forall_eq_or_imp] at hk
    simp only [List.length_cons, readMany, List.flatMap_cons, List.append_assoc]
    rw [Parser.bind_ok (readInt_writeInt _ _ hw hk.1), Parser.bind_ok (ih hk.2)]
    rfl

theorem readMany_blanks (w m : Nat) (s : Text) (n : Int) :
    readMany (readInt w) m ⟨blanks (m * w) ++ s, n⟩ = .ok (List.replicate m 0, ⟨s, n⟩) := by
  induction m with
  | zero => simp [readMany, blanks]
  | succ m ih =>
    rw [show (m + 1) * w = w + m * w by rw [Nat.add_mul]; omega, blanks_add, List.append_assoc, readMany, Parser.bind_ok (readInt_blanks w _ n),
      Parser.bind_ok ih]
    rfl

theorem flatten_blanks (m w : Nat) : (List.replicate m (blanks w)).flatten = blanks (m * w) := by
  induction m with
  | zero => simp [blanks]
  | succ m ih => rw [List.replicate_succ, List.flatten_cons, ih, ← blanks_add, Nat.add_mul]; congr 1; omega

theorem advance_blanks (m : Nat) (s : Text) (n : Int) : advance m ⟨blanks m ++ s, n⟩ = .ok ((), ⟨s, n⟩) := by
  rw [advance, if_neg (by simp)]
  simp [drop_append_of_length]

/-- The body of an INTG line. -/
def INTG.body (nd n : Nat) (r : INTG) : Text :=
  writeInt 5 r.i ++ writeInt 5 r.j ++ (if nd ≠ 6 then blanks 1 else []) ++
  r.k.flatMap (writeInt (nd + 1)) ++ blanks (intgPad nd) ++
  (List.replicate (n - r.k.length) (blanks (nd + 1))).flatten

theorem INTG.print_eq (nd n : Nat) (r : INTG) (t : Nums) : r.print nd n t = r.body nd n ++ tailText t := rfl

theorem readINTG_print {nd : Nat} {r : INTG} {t : Nums} (hr : r.Ok nd) (ht : t.Fit) (s : Text) (n : Int) :
    readINTG nd (intgN nd) t ⟨r.print nd (intgN nd) t ++ s, n⟩ = .ok (⟨r.i, r.j, stripZeros r.k⟩, ⟨s, n + 1⟩) := by
  obtain ⟨h1, h2, h3, h4, h5, h6⟩ := hr
  have b1 : r.i < 4294967296 := by have := h2.1; simp at this; omega
  have b2 : r.j < 4294967296 := by have := h4.1; simp at this; omega
  have hk : readIntegers nd (intgN nd) ⟨(if nd ≠ 6 then blanks 1 else []) ++ (r.k.flatMap (writeInt (nd + 1)) ++
      (blanks ((intgN nd - r.k.length) * (nd + 1)) ++ (blanks (intgPad nd) ++ (tailText t ++ s)))), n⟩ =
      .ok (stripZeros r.k, ⟨tailText t ++ s, n⟩) := by
    have ha : (if nd ≠ 6 then advance 1 else pure () : Parser Unit)
        ⟨(if nd ≠ 6 then blanks 1 else []) ++ (r.k.flatMap (writeInt (nd + 1)) ++
      (blanks ((intgN nd - r.k.length) * (nd + 1)) ++ (blanks (intgPad nd) ++ (tailText t ++ s)))), n⟩ =
        .ok ((), ⟨r.k.flatMap (writeInt (nd + 1)) ++
      (blanks ((intgN nd - r.k.length) * (nd + 1)) ++ (blanks (intgPad nd) ++ (tailText t ++ s))), n⟩) := by
      by_cases h : nd ≠ 6
      · rw [if_pos h, if_pos h, advance_blanks]
      · rw [if_neg h, if_neg h]; rfl
    have hm : readMany (readInt (nd + 1)) (intgN nd) ⟨r.k.flatMap (writeInt (nd + 1)) ++
      (blanks ((intgN nd - r.k.length) * (nd + 1)) ++ (blanks (intgPad nd) ++ (tailText t ++ s))), n⟩ =
        .ok (r.k ++ List.replicate (intgN nd - r.k.length) 0, ⟨blanks (intgPad nd) ++ (tailText t ++ s), n⟩) := by
      have := readMany_append (readMany_ints (show 0 < nd + 1 by omega) r.k h6 (blanks ((intgN nd - r.k.length) * (nd + 1)) ++
        (blanks (intgPad nd) ++ (tailText t ++ s))) n) (readMany_blanks (nd + 1) (intgN nd - r.k.length) (blanks (intgPad nd) ++ (tailText t ++ s)) n)
      rwa [show r.k.length + (intgN nd - r.k.length) = intgN nd by omega] at this
    rw [readIntegers, Parser.bind_ok ha, Parser.bind_ok hm, Parser.bind_ok (advance_blanks _ _ _), stripZeros_append_zeros]
    rfl
  have hlen : (stripZeros r.k).length ≤ intgN nd := by
    obtain ⟨m, h, _⟩ := stripZeros_spec r.k
    have := congrArg List.length h
    simp at this; omega
  have htext : r.print nd (intgN nd) t ++ s = writeInt 5 r.i ++ (writeInt 5 r.j ++ ((if nd ≠ 6 then blanks 1 else []) ++
      (r.k.flatMap (writeInt (nd + 1)) ++
      (blanks ((intgN nd - r.k.length) * (nd + 1)) ++ (blanks (intgPad nd) ++ (tailText t ++ s)))))) := by
    rw [INTG.print, flatten_blanks]
    simp only [List.append_assoc]
    congr 4
    rw [← List.append_assoc, ← blanks_add, Nat.add_comm, blanks_add, List.append_assoc]
  have hmk : INTG.make (intgN nd) r.i r.j (stripZeros r.k) = .ok ⟨r.i, r.j, stripZeros r.k⟩ := by
    rw [INTG.make, if_neg (by omega), toUnsigned, toUnsigned, Int.emod_eq_of_lt h1 b1, Int.emod_eq_of_lt h3 b2]
  have hl : ∀ st, liftE (INTG.make (intgN nd) r.i r.j (stripZeros r.k)) st = .ok (⟨r.i, r.j, stripZeros r.k⟩, st) := by
    intro st; rw [hmk]; rfl
  rw [readINTG, Parser.mapErr_ok, htext, Parser.bind_ok (readInt_writeInt _ _ (show 0 < 5 by omega) h2),
    Parser.bind_ok (readInt_writeInt _ _ (show 0 < 5 by omega) h4), Parser.bind_ok hk, Parser.bind_ok (hl _),
    Parser.bind_ok (verifyTail_tailText ht s n)]
  rfl

theorem flatMap_writeInt {w : Nat} (hw : 0 < w) (k : List Int) (hk : ∀ v ∈ k, fits w v) :
    (k.flatMap (writeInt w)).length = k.length * w ∧ '\n' ∉ k.flatMap (writeInt w) := by
  induction k with
  | nil => simp
  | cons v k ih =>
    simp only [List.mem_cons, forall_eq_or_imp] at hk
    obtain ⟨h1, h2⟩ := ih hk.2
    refine ⟨?_, ?_⟩
    · rw [List.flatMap_cons, List.length_append, writeInt_length hw hk.1, h1, List.length_cons, Nat.add_mul]; omega
    · simp only [List.flatMap_cons, List.mem_append, not_or]
      exact ⟨writeInt_nl hk.1, h2⟩

theorem intg_width {nd : Nat} (h : 2 ≤ nd ∧ nd ≤ 6) : 10 + (if nd ≠ 6 then 1 else 0) + intgN nd * (nd + 1) + intgPad nd = 66 := by
  obtain ⟨h1, h2⟩ := h
  have : nd = 2 ∨ nd = 3 ∨ nd = 4 ∨ nd = 5 ∨ nd = 6 := by omega
  rcases this with rfl | rfl | rfl | rfl | rfl <;> rfl

theorem INTG.print_canonical {nd : Nat} {r : INTG} {t : Nums} (hnd : 2 ≤ nd ∧ nd ≤ 6) (hr : r.Ok nd) (ht : t.Fit) :
    CanonicalText t 1 (r.print nd (intgN nd) t) := by
  obtain ⟨h1, h2, h3, h4, h5, h6⟩ := hr
  obtain ⟨h7, h8⟩ := flatMap_writeInt (show 0 < nd + 1 by omega) r.k h6
  refine ⟨[r.body nd (intgN nd) ++ tailCols t], by simp [INTG.print_eq, tailText_eq], rfl, ?_⟩
  simp only [List.mem_singleton, forall_eq]
  refine canonical_line ht ?_ ?_
  · have := intg_width hnd
    simp only [INTG.body, List.length_append, writeInt_length (show 0 < 5 by omega) h2, writeInt_length (show 0 < 5 by omega) h4,
      h7, blanks_length, flatten_blanks]
    have hi : (if nd ≠ 6 then blanks 1 else []).length = if nd ≠ 6 then 1 else 0 := by split <;> simp
    rw [hi]
    have : r.k.length * (nd + 1) + (intgN nd - r.k.length) * (nd + 1) = intgN nd * (nd + 1) := by
      rw [← Nat.add_mul]; congr 1; omega
    omega
  · simp only [INTG.body, List.mem_append, not_or, flatten_blanks]
    refine ⟨⟨⟨⟨⟨writeInt_nl h2, writeInt_nl h4⟩, ?_⟩, h8⟩, nl_not_mem_blanks _⟩, nl_not_mem_blanks _⟩
    split
    · exact nl_not_mem_blanks 1
    · simp

/-! ### reading INTG from full lines -/

/-- A column reader that is only used on lines that are long enough. -/
def ColsL {α : Type} (w : Nat) (g : Text → Option α) (p : Parser α) : Prop :=
  ∀ l t n, '\n' ∉ l → EOL t → w ≤ l.length → p ⟨l ++ t, n⟩ = match g l with
    | some a => .ok (a, ⟨l.drop w ++ t, n⟩)
    | none => .error .exc

theorem ColsF.toL {α : Type} {w : Nat} {g : Text → Option α} {p : Parser α} (h : ColsF w g p) : ColsL w g p := by
  intro l t n hl ht hw
  rw [h l t n hl ht, if_neg (by omega)]
  rfl

theorem ColsL.bind {α β : Type} {w1 w2 : Nat} {g1 : Text → Option α} {g2 : α → Text → Option β}
    {p : Parser α} {f : α → Parser β} (hp : ColsL w1 g1 p) (hf : ∀ a, ColsL w2 (g2 a) (f a)) :
    ColsL (w1 + w2) (fun l => (g1 l).bind (fun a => g2 a (l.drop w1))) (p >>= f) := by
  intro l t n hl ht hw
  rw [Parser.bind_run, hp l t n hl ht (by omega)]
  cases hg : g1 l with
  | none => simp [hg]
  | some a =>
    simp only [hg, Option.bind_some]
    rw [hf a _ t n (nl_drop w1 hl) ht (by rw [List.length_drop]; omega)]
    simp [List.drop_drop]

theorem advance_cols (m : Nat) : ColsL m (fun _ => some ()) (advance m) := by
  intro l t n hl ht hw
  rw [advance, if_neg (by simp; omega)]
  simp [List.drop_append_of_le_length hw]

theorem readMany_cols {α : Type} {w : Nat} {g : Text → Option α} {p : Parser α} (hp : ColsF w g p) (n : Nat) :
    ColsF (n * w) (Fmt.entriesOpt g w n) (readMany p n) := by
  induction n with
  | zero => exact (ColsF.pure (α := List α) []).congr (by omega) (fun l => rfl)
  | succ n ih =>
    refine (ColsF.bind hp fun x => ColsF.bind ih fun xs => ColsF.pure (x :: xs)).congr ?_ (fun l => rfl)
    rw [Nat.add_mul]; omega

/-- On a line of at least 66 columns the numbers of an INTG record are read from that line only. -/
theorem readINTG_full_line {nd : Nat} (hnd : 2 ≤ nd ∧ nd ≤ 6) (e : Nums) (l t : Text) (n : Int) (hl : '\n' ∉ l) (ht : EOL t)
    (hw : 66 ≤ l.length) :
    match readINTG nd (intgN nd) e ⟨l ++ t, n⟩ with
    | .ok (r, s') => s' = ⟨t.tail, n + 1⟩ ∧ HasTail e l ∧
        ∃ i j k, parseInt (cols 1 5 l) = some i ∧ parseInt (cols 6 10 l) = some j ∧ r = ⟨toUnsigned i, toUnsigned j, stripZeros k⟩ ∧
          fieldVals (fun s => parseInt (s.take (nd + 1))) (nd + 1) (intgN nd) (l.drop (10 + if nd ≠ 6 then 1 else 0)) = k.map some
    | .error er => StdErr er := by
  have hwd := intg_width hnd
  have hci : ColsL (if nd ≠ 6 then 1 else 0) (fun _ => some ()) (if nd ≠ 6 then advance 1 else pure () : Parser Unit) := by
    by_cases h : nd ≠ 6
    · simp only [if_pos h]; exact advance_cols 1
    · simp only [if_neg h]; exact (ColsF.pure ()).toL
  have hc : ColsL ((if nd ≠ 6 then 1 else 0) + (intgN nd * (nd + 1) + (intgPad nd + 0)))
      (fun l => (some ()).bind fun _ => (Fmt.entriesOpt (fun s => parseInt (s.take (nd + 1))) (nd + 1) (intgN nd)
        (l.drop (if nd ≠ 6 then 1 else 0))).bind fun k => (some ()).bind fun _ => some (stripZeros k))
      (readIntegers nd (intgN nd)) :=
    ColsL.bind hci fun _ => ColsL.bind (readMany_cols (readInt_cols (nd + 1)) (intgN nd)).toL fun k =>
      ColsL.bind (advance_cols (intgPad nd)) fun _ => (ColsF.pure (stripZeros k)).toL
  -- the whole body
  unfold readINTG Parser.mapErr
  have h1 := (readInt_cols 5).toL l t n hl ht (by omega)
  cases hi : parseInt (l.take 5) with
  | none => simp only [hi] at h1; rw [Parser.bind_err h1]; rfl
  | some i =>
    simp only [hi] at h1
    rw [Parser.bind_ok h1]
    have h2 := (readInt_cols 5).toL (l.drop 5) t n (nl_drop 5 hl) ht (by rw [List.length_drop]; omega)
    cases hj : parseInt ((l.drop 5).take 5) with
    | none => simp only [hj] at h2; rw [Parser.bind_err h2]; rfl
    | some j =>
      simp only [hj] at h2
      rw [Parser.bind_ok h2]
      have h3 := hc ((l.drop 5).drop 5) t n (nl_drop 5 (nl_drop 5 hl)) ht (by rw [List.length_drop, List.length_drop]; omega)
      simp only [Option.bind_some] at h3
      rw [List.drop_drop] at h3 ⊢
      cases hk : Fmt.entriesOpt (fun s => parseInt (s.take (nd + 1))) (nd + 1) (intgN nd)
        ((l.drop (5 + 5)).drop (if nd ≠ 6 then 1 else 0)) with
      | none => simp only [hk, Option.bind_none] at h3; rw [Parser.bind_err h3]; rfl
      | some k =>
        simp only [hk, Option.bind_some] at h3
        rw [Parser.bind_ok h3]
        obtain ⟨hk1, hk2⟩ := Fmt.entriesOpt_some hk
        have hlen : (stripZeros k).length ≤ intgN nd := by
          obtain ⟨m, h, _⟩ := stripZeros_spec k
          have := congrArg List.length h
          simp at this; omega
        have hmk : INTG.make (intgN nd) i j (stripZeros k) = .ok ⟨toUnsigned i, toUnsigned j, stripZeros k⟩ := by
          rw [INTG.make, if_neg (by omega)]
        have hl' : ∀ st, liftE (INTG.make (intgN nd) i j (stripZeros k)) st = .ok (⟨toUnsigned i, toUnsigned j, stripZeros k⟩, st) := by
          intro st; rw [hmk]; rfl
        rw [Parser.bind_ok (hl' _), List.drop_drop]
        have e66 : 5 + 5 + ((if nd ≠ 6 then 1 else 0) + (intgN nd * (nd + 1) + (intgPad nd + 0))) = 66 := by omega
        rw [e66]
        have h4 := verifyTail_line e (l.drop 66) t n (nl_drop 66 hl) ht
        by_cases hs : t = [] ∧ (l.drop 66).length < 14
        · rw [if_pos hs] at h4; rw [Parser.bind_err h4]; rfl
        · rw [if_neg hs] at h4
          cases htc : tailCheck e (l.drop 66) with
          | error er =>
            simp only [htc] at h4
            rw [Parser.bind_err h4]
            exact catchInt_raw (tailCheck_err htc)
          | ok u =>
            simp only [htc] at h4
            rw [Parser.bind_ok h4]
            refine ⟨rfl, tailOpt_eq_some (tailCheck_ok htc), i, j, k, hi, hj, rfl, ?_⟩
            rw [List.drop_drop] at hk1
            exact hk1

end ENDFtk

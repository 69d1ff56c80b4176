import Verif.Props.Access9
/-
  C62, part 10, and C56: the lines of section 32/151, for what was read.
-/
set_option linter.unusedVariables false
set_option linter.unusedSectionVars false
set_option linter.unusedSimpArgs false
namespace ENDFtk.Props
variable [Disco] [CorrOps]

/-! ### specification: INTG records -/

/-- The line has the integers of an INTG record in its columns: I in columns 1-5, J in columns 6-10, the values in fields of NDIGIT + 1 columns, from column 12 on
    (11 for NDIGIT = 6): 18, 13, 11, 9, 8 of them for NDIGIT = 2, 3, 4, 5, 6. -/
def IntgShows (nd : Nat) (l : Text) (i j : Int) (values : List Int) : Prop :=
  Disco.parseInt (cols 1 5 l) = some i ∧ Disco.parseInt (cols 6 10 l) = some j ∧
  (values.length = match nd with | 2 => 18 | 3 => 13 | 4 => 11 | 5 => 9 | 6 => 8 | _ => 0) ∧
  ∀ p v, values[p]? = some v →
    let first := (if nd = 6 then 11 else 12) + p * (nd + 1)
    Disco.parseInt (cols first (first + nd) l) = some v

/-- The elements of the matrix in such a line: value p, if it is not 0, is in row I and column J + p.  (I and J are `unsigned int`.) -/
def lineElements (nd : Nat) (r : Int × Int × List Int) : List (Int × Int × Dbl) :=
  (r.2.2.zipIdx.filter (fun x => x.1 ≠ 0)).map (fun x => (toUnsigned r.1, toUnsigned (toUnsigned r.2.1 + x.2), CorrOps.corrOf nd x.1))

/-- Line `k` is the first one of this matrix: NDIGIT is L1, NNN is L2, NM is N1; what comes after the matrix begins on line `e`.  If the next NM lines have 66
    columns or more, they are INTG records with the elements, and `e` is the line after them. -/
def MatrixAt (s : St) (k : Nat) (m : CorrMatrix) (e : Nat) : Prop :=
  ∃ c, LineShows k s c ∧ Get.Correlations32.NDIGIT m = toUnsigned (toInt32 c.l1) ∧ Get.Correlations32.NNN m = toUnsigned (toInt32 c.l2) ∧ k < e ∧
    ((∀ q : Nat, (q : Int) < toUnsigned (toInt32 c.n1) → 66 ≤ (lineAt (k + 1 + q) s.rest).length) →
      (e : Int) = k + 1 + toUnsigned (toInt32 c.n1) ∧
      ∃ rs : List (Int × Int × List Int), (rs.length : Int) = toUnsigned (toInt32 c.n1) ∧ m.elems = rs.flatMap (lineElements m.ndigit) ∧
        ∀ q r, rs[q]? = some r → IntgShows m.ndigit (lineAt (k + 1 + q) s.rest) r.1 r.2.1 r.2.2)

/-! ### how a text is consumed -/

/-- What is left is an end of the text. -/
def Consumes {α : Type} (p : Parser α) : Prop := ∀ s a s', p s = .ok (a, s') → s'.rest <:+ s.rest

theorem Consumes.bind {α β : Type} {p : Parser α} {f : α → Parser β} (hp : Consumes p) (hf : ∀ a, Consumes (f a)) : Consumes (p >>= f) := by
  intro s b s' h
  obtain ⟨a, s1, h1, h2⟩ := Parser.bind_eq_ok.mp h
  exact (hf a _ _ _ h2).trans (hp _ _ _ h1)

theorem Consumes.pure {α : Type} (a : α) : Consumes (Pure.pure a : Parser α) := by
  intro s b s' h
  cases h; exact List.suffix_refl _

theorem Consumes.fail {α : Type} (e : Err) : Consumes (Parser.fail e : Parser α) := by intro s b s' h; cases h

theorem takeField_suffix {w : Nat} {t f r : Text} (h : takeField w t = .ok (f, r)) : r <:+ t := by
  induction w generalizing t f with
  | zero => cases h; exact List.suffix_refl _
  | succ w ih =>
    cases t with
    | nil => cases h
    | cons c t =>
      unfold takeField at h
      split at h
      · cases h; exact List.suffix_refl _
      · cases ht : takeField w t with
        | error e => rw [ht] at h; cases h
        | ok q =>
          obtain ⟨f', r'⟩ := q
          rw [ht] at h
          cases h
          exact (ih ht).trans (List.suffix_cons _ _)

theorem readInt_consumes (w : Nat) : Consumes (readInt w) := by
  refine Consumes.bind ?_ fun f => ?_
  · intro s a s' h
    unfold readField at h
    cases ht : takeField w s.rest with
    | error e => rw [ht] at h; cases h
    | ok q =>
      obtain ⟨f', r'⟩ := q
      rw [ht] at h
      cases h
      exact takeField_suffix ht
  · split
    · exact Consumes.pure _
    · exact Consumes.fail _

theorem advance_consumes (n : Nat) : Consumes (advance n) := by
  intro s a s' h
  unfold advance at h
  split at h
  · cases h
  · cases h; exact List.drop_suffix _ _

theorem many_consumes {α : Type} {p : Parser α} (h : Consumes p) (n : Nat) : Consumes (readMany p n) := by
  induction n with
  | zero => exact Consumes.pure _
  | succ n ih => exact Consumes.bind h fun _ => Consumes.bind ih fun _ => Consumes.pure _

theorem readIntegers_consumes (nd n : Nat) : Consumes (readIntegers nd n) := by
  refine Consumes.bind ?_ fun _ => Consumes.bind (many_consumes (readInt_consumes _) _) fun _ => Consumes.bind (advance_consumes _) fun _ => Consumes.pure _
  split
  · exact advance_consumes 1
  · exact Consumes.pure _

theorem endLine_after (t : Text) : endLine t = afterLine t := by
  induction t with
  | nil => rfl
  | cons c t ih =>
    unfold endLine
    by_cases h : c = '\n'
    · subst h; rfl
    · rw [if_neg h, ih]
      unfold afterLine
      rw [List.dropWhile_cons_of_pos (by simpa using h)]

theorem suffix_after {r t : Text} (h : r <:+ t) : ∃ n, ∀ j, lineAt (j + n) t = lineAt j (afterLine r) ∧ 1 ≤ n := by
  obtain ⟨p, rfl⟩ := h
  induction p with
  | nil => exact ⟨1, fun j => ⟨rfl, Nat.le_refl _⟩⟩
  | cons c p ih =>
    obtain ⟨n, hn⟩ := ih
    by_cases h : c = '\n'
    · subst h
      exact ⟨n + 1, fun j => ⟨(hn j).1, by omega⟩⟩
    · refine ⟨n, fun j => ⟨?_, (hn j).2⟩⟩
      obtain ⟨m, rfl⟩ : ∃ m, n = m + 1 := ⟨n - 1, by have := (hn 0).2; omega⟩
      have := (hn j).1
      rw [← this]
      show lineAt (j + m) (afterLine (c :: (p ++ r))) = lineAt (j + m) (afterLine (p ++ r))
      congr 1
      unfold afterLine
      rw [List.dropWhile_cons_of_pos (by simpa using h)]

/-- From this position on, the lines are those of `s` from line `k` on. -/
def Pos (s : St) (k : Nat) (s1 : St) : Prop := ∀ j, lineAt (j + k) s.rest = lineAt j s1.rest

theorem pos_line {s s1 : St} {k : Nat} (h : Pos s k s1) (j : Nat) : lineAt j s1.rest = lineAt (k + j) s.rest := by rw [← h j, Nat.add_comm]

theorem tail_after {e : Nums} {s s' : St} (h : verifyTail e s = .ok ((), s')) : ∃ r, r <:+ s.rest ∧ s'.rest = afterLine r := by
  unfold verifyTail at h
  obtain ⟨t, s1, h1, h2⟩ := Parser.bind_eq_ok.mp h
  have e2 : s1 = s' := by
    split at h2
    · cases h2
    · split at h2
      · cases h2
      · split at h2
        · cases h2
        · cases h2; rfl
  subst e2
  unfold readTail at h1
  obtain ⟨_, a1, x1, h1⟩ := Parser.bind_eq_ok.mp h1
  obtain ⟨_, a2, x2, h1⟩ := Parser.bind_eq_ok.mp h1
  obtain ⟨_, a3, x3, h1⟩ := Parser.bind_eq_ok.mp h1
  obtain ⟨_, a4, x4, h1⟩ := Parser.bind_eq_ok.mp h1
  obtain ⟨_, a5, x5, h1⟩ := Parser.bind_eq_ok.mp h1
  obtain ⟨_, a6, x6, h1⟩ := Parser.bind_eq_ok.mp h1
  obtain ⟨_, a7, x7, h1⟩ := Parser.bind_eq_ok.mp h1
  cases x5; cases x6; cases x7; cases h1
  refine ⟨a4.rest, ?_, endLine_after _⟩
  exact (readInt_consumes _ _ _ _ x4).trans ((readInt_consumes _ _ _ _ x3).trans ((readInt_consumes _ _ _ _ x2).trans (readInt_consumes _ _ _ _ x1)))

theorem intg_pos {nd n : Nat} {t : Nums} {s s' : St} {r : INTG} (h : readINTG nd n t s = .ok (r, s')) : ∃ k, 1 ≤ k ∧ Pos s k s' := by
  unfold readINTG at h
  have h := Parser.mapErr_ok.mp h
  obtain ⟨_, a1, x1, h⟩ := Parser.bind_eq_ok.mp h
  obtain ⟨_, a2, x2, h⟩ := Parser.bind_eq_ok.mp h
  obtain ⟨_, a3, x3, h⟩ := Parser.bind_eq_ok.mp h
  obtain ⟨q, a4, x4, h⟩ := Parser.bind_eq_ok.mp h
  obtain ⟨_, a5, x5, h⟩ := Parser.bind_eq_ok.mp h
  cases h
  have e4 : a4 = a3 := by
    unfold liftE at x4
    split at x4
    · cases x4; rfl
    · cases x4
  subst e4
  obtain ⟨r, h1, h2⟩ := tail_after x5
  obtain ⟨k, hk⟩ := suffix_after (h1.trans ((readIntegers_consumes _ _ _ _ _ x3).trans ((readInt_consumes _ _ _ _ x2).trans (readInt_consumes _ _ _ _ x1))))
  exact ⟨k, (hk 0).2, fun j => by rw [h2]; exact (hk j).1⟩

theorem Pos.trans {s s1 s2 : St} {k m : Nat} (h1 : Pos s k s1) (h2 : Pos s1 m s2) : Pos s (k + m) s2 := by
  intro j
  rw [← h2 j, ← h1 (j + m)]
  congr 1
  omega

theorem intgs_pos {nd n : Nat} {t : Nums} {m : Nat} {s s' : St} {rs : List INTG} (h : readMany (readINTG nd n t) m s = .ok (rs, s')) : ∃ k, Pos s k s' := by
  induction m generalizing s rs with
  | zero => cases h; exact ⟨0, fun _ => rfl⟩
  | succ m ih =>
    obtain ⟨r, s1, h1, h⟩ := Parser.bind_eq_ok.mp h
    obtain ⟨rs', s2, h2, h⟩ := Parser.bind_eq_ok.mp h
    cases h
    obtain ⟨k, -, hk⟩ := intg_pos h1
    obtain ⟨k', hk'⟩ := ih h2
    exact ⟨_, hk.trans hk'⟩

/-! ### full lines -/

theorem fieldVals_at {α : Type} {g : Text → Option α} {w n : Nat} {l : Text} {k : List α} (h : fieldVals g w n l = k.map some) :
    k.length = n ∧ ∀ p v, k[p]? = some v → g (l.drop (p * w)) = some v := by
  induction n generalizing l k with
  | zero =>
    cases k with
    | nil => exact ⟨rfl, fun p v h => by simp at h⟩
    | cons a k => simp [fieldVals] at h
  | succ n ih =>
    cases k with
    | nil => simp [fieldVals] at h
    | cons a k =>
      simp only [fieldVals, List.map_cons, List.cons.injEq] at h
      obtain ⟨i1, i2⟩ := ih h.2
      refine ⟨by simp [i1], ?_⟩
      intro p v hp
      cases p with
      | zero => simp at hp; subst hp; simpa using h.1
      | succ p =>
        have := i2 p v (by simpa using hp)
        rw [List.drop_drop] at this
        rw [Nat.succ_mul, Nat.add_comm]; exact this

theorem elemsFrom_zip (nd : Nat) (i j : Int) (n : Nat) (k : List Int) :
    CorrMatrix.elemsFrom nd i j n k = ((k.zipIdx n).filter (fun x => x.1 ≠ 0)).map (fun x => (i, toUnsigned (j + x.2), CorrOps.corrOf nd x.1)) := by
  induction k generalizing n with
  | nil => rfl
  | cons v k ih =>
    rw [CorrMatrix.elemsFrom, List.zipIdx_cons, ih]
    by_cases hv : v = 0
    · simp [hv]
    · simp [hv]

theorem intg_full {nd : Nat} (hnd : 2 ≤ nd ∧ nd ≤ 6) {t : Nums} {s s' : St} {r : INTG} (h : readINTG nd (intgN nd) t s = .ok (r, s'))
    (hf : 66 ≤ (lineAt 0 s.rest).length) :
    Pos s 1 s' ∧ ∃ q : Int × Int × List Int, IntgShows nd (lineAt 0 s.rest) q.1 q.2.1 q.2.2 ∧ CorrMatrix.elemsOf nd r = lineElements nd q := by
  obtain ⟨l, tt, hs, hl, ht⟩ := split_line s.rest
  have e0 : lineAt 0 s.rest = l := by
    show firstLine s.rest = l
    rw [hs]
    rcases ht with rfl | ⟨r, rfl⟩
    · rw [List.append_nil]
      clear hs hf
      induction l with
      | nil => rfl
      | cons c l ih =>
        show List.takeWhile _ _ = _
        rw [List.takeWhile_cons_of_pos (by simp only [decide_eq_true_eq]; intro e; exact hl (by simp [e])), ← show firstLine l = List.takeWhile (fun x => decide (x ≠ '\n')) l from rfl,
          ih (by intro e; exact hl (by simp [e]))]
    · exact (firstLine_cons hl).1
  rw [e0] at hf ⊢
  have h1 := readINTG_full_line hnd t l tt s.line hl ht hf
  rw [← hs, show (⟨s.rest, s.line⟩ : St) = s from rfl, h] at h1
  obtain ⟨hs', -, i, j, k, p1, p2, rfl, p3⟩ := h1
  refine ⟨?_, (i, j, k), ⟨p1, p2, ?_, ?_⟩, ?_⟩
  · intro m
    show lineAt m (afterLine s.rest) = lineAt m s'.rest
    rw [hs', hs]
    congr 1
    rcases ht with rfl | ⟨r, rfl⟩
    · rw [List.append_nil, ← endLine_after]
      clear hs e0 hf h hs' p1 p2 p3
      induction l with
      | nil => rfl
      | cons c l ih =>
        unfold endLine
        rw [if_neg (by intro e; exact hl (by simp [e]))]
        exact ih (by intro e; exact hl (by simp [e]))
    · exact (firstLine_cons hl).2
  · rw [(fieldVals_at p3).1]
    obtain ⟨h2, h6⟩ := hnd
    have : nd = 2 ∨ nd = 3 ∨ nd = 4 ∨ nd = 5 ∨ nd = 6 := by omega
    rcases this with rfl | rfl | rfl | rfl | rfl <;> rfl
  · intro p v hp
    have := (fieldVals_at p3).2 p v hp
    simp only at this ⊢
    rw [List.drop_drop] at this
    rw [← this]
    congr 1
    unfold cols
    have h1 : (if nd = 6 then 11 else 12) + p * (nd + 1) - 1 = 10 + (if nd ≠ 6 then 1 else 0) + p * (nd + 1) := by split <;> simp_all <;> omega
    rw [h1]
    congr 1
    omega
  · rw [CorrMatrix.elemsOf, CorrMatrix.elemsFrom_strip, elemsFrom_zip]
    rfl

theorem intgs_full {nd : Nat} (hnd : 2 ≤ nd ∧ nd ≤ 6) {t : Nums} {m : Nat} {s s' : St} {rs : List INTG}
    (h : readMany (readINTG nd (intgN nd) t) m s = .ok (rs, s')) (hf : ∀ q, q < m → 66 ≤ (lineAt q s.rest).length) :
    Pos s m s' ∧ ∃ qs : List (Int × Int × List Int), qs.length = m ∧ rs.flatMap (CorrMatrix.elemsOf nd) = qs.flatMap (lineElements nd) ∧
      ∀ q r, qs[q]? = some r → IntgShows nd (lineAt q s.rest) r.1 r.2.1 r.2.2 := by
  induction m generalizing s rs with
  | zero => cases h; exact ⟨fun _ => rfl, [], rfl, rfl, fun q r h => by simp at h⟩
  | succ m ih =>
    obtain ⟨r, s1, h1, h⟩ := Parser.bind_eq_ok.mp h
    obtain ⟨rs', s2, h2, h⟩ := Parser.bind_eq_ok.mp h
    cases h
    obtain ⟨p1, q1, a1, b1⟩ := intg_full hnd h1 (hf 0 (by omega))
    obtain ⟨p2, qs, a2, b2, c2⟩ := ih h2 (fun q hq => by rw [pos_line p1]; exact hf _ (by omega))
    refine ⟨by have := p1.trans p2; rwa [Nat.add_comm 1 m] at this, q1 :: qs, by simp [a2], ?_, ?_⟩
    · simp only [List.flatMap_cons, b1, b2]
    · intro q r hq
      cases q with
      | zero => simp at hq; subst hq; exact a1
      | succ q =>
        have := c2 q r (by simpa using hq)
        rw [pos_line p1, Nat.add_comm] at this; exact this

theorem matrix_at {t : Nums} {s s0 s1 : St} {k : Nat} {m : CorrMatrix} (hp : Pos s k s0) (h : CorrMatrix.read t s0 = .ok (m, s1)) :
    ∃ e, MatrixAt s k m e ∧ Pos s e s1 := by
  unfold CorrMatrix.read at h
  obtain ⟨c, s2, h1, h⟩ := Parser.bind_eq_ok.mp h
  obtain ⟨l1, e1⟩ := cont_line h1
  have p1 : Pos s0 1 s2 := by intro j; rw [e1]; rfl
  have hl : LineShows k s c := by
    have : lineAt 0 s0.rest = lineAt k s.rest := pos_line hp 0
    unfold LineShows at l1 ⊢
    rwa [this] at l1
  split at h
  · cases h
  · rename_i hnd
    obtain ⟨rs, s3, h2, h⟩ := Parser.bind_eq_ok.mp h
    cases h
    have hu := Int.emod_nonneg (toInt32 c.l1) (show (4294967296 : Int) ≠ 0 by decide)
    have hn := Int.emod_nonneg (toInt32 c.n1) (show (4294967296 : Int) ≠ 0 by decide)
    have en : (((CorrMatrix.asUnsigned c.n1).toNat : Nat) : Int) = toUnsigned (toInt32 c.n1) := Int.toNat_of_nonneg hn
    have head : ∀ elems : List (Int × Int × Dbl), Get.Correlations32.NDIGIT ⟨(CorrMatrix.asUnsigned c.l1).toNat, toInt32 c.l2, elems⟩ = toUnsigned (toInt32 c.l1) :=
      fun _ => Int.toNat_of_nonneg hu
    have hnd' : 2 ≤ (CorrMatrix.asUnsigned c.l1).toNat ∧ (CorrMatrix.asUnsigned c.l1).toNat ≤ 6 := by omega
    by_cases hf : ∀ q : Nat, (q : Int) < toUnsigned (toInt32 c.n1) → 66 ≤ (lineAt (k + 1 + q) s.rest).length
    · obtain ⟨p2, qs, a, b, d⟩ := intgs_full hnd' h2 (fun q hq => by
        rw [pos_line (hp.trans p1)]; exact hf q (by omega))
      refine ⟨k + 1 + (CorrMatrix.asUnsigned c.n1).toNat, ⟨c, hl, head _, rfl, by omega, fun _ => ⟨by rw [← en]; omega, qs, by rw [a, en], b, ?_⟩⟩, (hp.trans p1).trans p2⟩
      intro q r hq
      have := d q r hq
      rwa [pos_line (hp.trans p1)] at this
    · obtain ⟨n, p2⟩ := intgs_pos h2
      exact ⟨k + 1 + n, ⟨c, hl, head _, rfl, by omega, fun hf' => absurd hf' hf⟩, (hp.trans p1).trans p2⟩

/-- What is read from a text as a correlation matrix: if the NM lines after the CONT record have 66 columns or more, then the elements are the values that are not 0, in the
    order of the text, and the position after it is the beginning of the next line. -/
theorem C56_read_elements {t : Nums} {s s' : St} {m : CorrMatrix} (h : CorrMatrix.read t s = .ok (m, s')) :
    ∃ e, MatrixAt s 0 m e ∧ ∀ j, lineAt j s'.rest = lineAt (e + j) s.rest := by
  obtain ⟨e, h1, h2⟩ := matrix_at (s := s) (k := 0) (fun _ => rfl) h
  exact ⟨e, h1, pos_line h2⟩

end ENDFtk.Props

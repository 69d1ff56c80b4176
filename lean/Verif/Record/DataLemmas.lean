import Verif.Record.LineLemmas
import Verif.Record.Data
/-
  The block reader: what is read from arbitrary text, and reading back of what is printed.
-/
set_option linter.unusedVariables false
set_option linter.unusedSectionVars false
set_option linter.unusedSimpArgs false
namespace ENDFtk
variable [Disco]

/-- The values of `n` consecutive fields of `w` columns of a line. -/
def fieldVals {α : Type} (g : Text → Option α) (w : Nat) : Nat → Text → List (Option α)
  | 0, _ => []
  | n + 1, l => g l :: fieldVals g w n (l.drop w)

/-- The fields of the lines `ds`, in order, are the entries `xs` followed by less than a line of empty fields. -/
def BlockSpec {α : Type} (g : Text → Option α) (w per : Nat) (empty : α → Bool) (ds : List Text) (xs : List α) : Prop :=
  ∃ pad, ds.flatMap (fieldVals g w per) = xs.map some ++ pad ∧ pad.length < per ∧
    ∀ o ∈ pad, ∃ d, o = some d ∧ empty d = true

namespace Fmt
variable {α : Type}

/-- What is needed of an entry type. -/
structure Law (f : Fmt α) (w : Nat) (g : Text → Option α) (ok : α → Prop) : Prop where
  cols : ColsF w g f.read
  w66 : f.per * w = 66
  read_write : ∀ x s n, ok x → f.read ⟨f.write x ++ s, n⟩ = .ok (x, ⟨s, n⟩)
  write_length : ∀ x, ok x → (f.write x).length = w
  write_nl : ∀ x, ok x → '\n' ∉ f.write x
  blank : f.blank = blanks w
  read_blank : ∃ d, f.isDefault d = true ∧ ∀ s n, f.read ⟨blanks w ++ s, n⟩ = .ok (d, ⟨s, n⟩)

/-- What is needed of an entry type for its lines to be well formed. -/
structure WLaw (f : Fmt α) (w : Nat) (ok : α → Prop) : Prop where
  w66 : f.per * w = 66
  write_length : ∀ x, ok x → (f.write x).length = w
  write_nl : ∀ x, ok x → '\n' ∉ f.write x
  blank : f.blank = blanks w

variable {f : Fmt α} {w : Nat} {g : Text → Option α} {ok : α → Prop}

theorem Law.per_pos (h : f.Law w g ok) : 0 < f.per := by
  have := h.w66
  rcases Nat.eq_zero_or_pos f.per with h0 | h0
  · rw [h0] at this; omega
  · exact h0

theorem WLaw.per_pos (h : f.WLaw w ok) : 0 < f.per := by
  have := h.w66
  rcases Nat.eq_zero_or_pos f.per with h0 | h0
  · rw [h0] at this; omega
  · exact h0

def entriesOpt (g : Text → Option α) (w : Nat) : Nat → Text → Option (List α)
  | 0, _ => some []
  | n + 1, l => (g l).bind fun x => (entriesOpt g w n (l.drop w)).bind fun xs => some (x :: xs)

theorem readEntries_cols (h : f.Law w g ok) (n : Nat) : ColsF (n * w) (entriesOpt g w n) (f.readEntries n) := by
  induction n with
  | zero => exact (ColsF.pure (α := List α) []).congr (by omega) (fun l => rfl)
  | succ n ih =>
    refine (ColsF.bind h.cols fun x => ColsF.bind ih fun xs => ColsF.pure (x :: xs)).congr ?_ (fun l => rfl)
    rw [Nat.add_mul]; omega

theorem entriesOpt_some {n : Nat} {l : Text} {xs : List α} (h : entriesOpt g w n l = some xs) :
    fieldVals g w n l = xs.map some ∧ xs.length = n := by
  induction n generalizing l xs with
  | zero => simp [entriesOpt] at h; subst h; simp [fieldVals]
  | succ n ih =>
    simp only [entriesOpt, Option.bind_eq_some_iff, Option.some.injEq] at h
    obtain ⟨x, h1, ys, h2, rfl⟩ := h
    obtain ⟨h3, h4⟩ := ih h2
    simp [fieldVals, h1, h3, h4]

def leftOpt (g : Text → Option α) (w : Nat) (emp : α → Bool) : Nat → Text → Option Unit
  | 0, _ => some ()
  | n + 1, l => (g l).bind fun x => if emp x then leftOpt g w emp n (l.drop w) else none

omit [Disco] in
theorem fail_cols (w : Nat) : ColsF w (fun _ => none) (Parser.fail .exc : Parser α) := by
  intro l t n _ _
  simp only [Parser.fail_run]
  split <;> rfl

theorem readLeftovers_cols (h : f.Law w g ok) (n : Nat) :
    ColsF (n * w) (leftOpt g w f.isDefault n) (f.readLeftovers n) := by
  induction n with
  | zero => exact (ColsF.pure ()).congr (by omega) (fun l => rfl)
  | succ n ih =>
    refine (ColsF.bind (w2 := n * w) (g2 := fun x l => if f.isDefault x then leftOpt g w f.isDefault n l else none)
      h.cols fun x => ?_).congr ?_ (fun l => rfl)
    · by_cases hx : f.isDefault x = true
      · simpa [hx] using ih
      · simpa [hx] using fail_cols (n * w)
    · rw [Nat.add_mul]; omega

theorem leftOpt_some {emp : α → Bool} {n : Nat} {l : Text} (h : leftOpt g w emp n l = some ()) :
    (fieldVals g w n l).length = n ∧ ∀ o ∈ fieldVals g w n l, ∃ d, o = some d ∧ emp d = true := by
  induction n generalizing l with
  | zero => simp [fieldVals]
  | succ n ih =>
    simp only [leftOpt, Option.bind_eq_some_iff] at h
    obtain ⟨x, h1, h2⟩ := h
    by_cases hx : emp x = true
    · rw [if_pos hx] at h2
      obtain ⟨h3, h4⟩ := ih h2
      refine ⟨by simp [fieldVals, h3], ?_⟩
      simp only [fieldVals, List.mem_cons, forall_eq_or_imp]
      exact ⟨⟨x, h1, hx⟩, h4⟩
    · rw [if_neg hx] at h2; cases h2

theorem fieldVals_add (n m : Nat) (l : Text) : fieldVals g w (n + m) l = fieldVals g w n l ++ fieldVals g w m (l.drop (n * w)) := by
  induction n generalizing l with
  | zero => simp [fieldVals]
  | succ n ih =>
    rw [Nat.add_right_comm]
    simp only [fieldVals, ih, List.cons_append, List.drop_drop, List.cons.injEq, true_and]
    congr 3
    rw [Nat.add_mul]; omega

theorem fieldVals_length (n : Nat) (l : Text) : (fieldVals g w n l).length = n := by
  induction n generalizing l with
  | zero => rfl
  | succ n ih => simp [fieldVals, ih]

theorem readFullLine_reads (h : f.Law w g ok) (e : Nums) :
    Reads RawErr (fun xs ls => ∃ l, ls = [l] ∧ HasTail e l ∧ fieldVals g w f.per l = xs.map some ∧ xs.length = f.per)
      (f.readFullLine e) := by
  have hc := readEntries_cols h f.per
  rw [h.w66] at hc
  refine (colsTail_reads hc e).post ?_
  rintro xs ls ⟨l, rfl, h1, h2⟩
  exact ⟨l, rfl, h2, entriesOpt_some h1⟩

theorem readPartialLine_reads (h : f.Law w g ok) (e : Nums) {n : Nat} (hn : n ≤ f.per) :
    Reads RawErr (fun xs ls => ∃ l, ls = [l] ∧ HasTail e l ∧ xs.length = n ∧
      ∃ pad, fieldVals g w f.per l = xs.map some ++ pad ∧ pad.length = f.per - n ∧ ∀ o ∈ pad, ∃ d, o = some d ∧ f.isDefault d = true)
      (f.readPartialLine e n) := by
  have hc : ColsF 66 (fun l => (entriesOpt g w n l).bind fun xs => (leftOpt g w f.isDefault (f.per - n) (l.drop (n * w))).bind fun _ => some xs)
      (do
        let xs ← f.readEntries n
        f.readLeftovers (f.per - n)
        pure xs) := by
    refine (ColsF.bind (readEntries_cols h n) fun xs => ColsF.bind (readLeftovers_cols h (f.per - n)) fun _ =>
      ColsF.pure xs).congr ?_ (fun l => rfl)
    have h1 := h.w66
    rw [Nat.add_zero, ← Nat.add_mul, ← h1]; congr 1; omega
  refine (colsTail_reads hc e).post ?_
  rintro xs ls ⟨l, rfl, h1, h2⟩
  simp only [Option.bind_eq_some_iff, Option.some.injEq] at h1
  obtain ⟨ys, h3, u, h4, rfl⟩ := h1
  obtain ⟨h5, h6⟩ := entriesOpt_some h3
  obtain ⟨h7, h8⟩ := leftOpt_some h4
  refine ⟨l, rfl, h2, h6, _, ?_, h7, h8⟩
  have : f.per = n + (f.per - n) := by omega
  rw [this, fieldVals_add, h5]; simp

theorem readFullLines_reads (h : f.Law w g ok) (e : Nums) (k : Nat) :
    Reads RawErr (fun xs ls => ls.length = k ∧ (∀ l ∈ ls, HasTail e l) ∧ ls.flatMap (fieldVals g w f.per) = xs.map some ∧
      xs.length = k * f.per) (f.readFullLines e k) := by
  induction k with
  | zero => exact Reads.pure (by simp)
  | succ k ih =>
    refine Reads.bind (readFullLine_reads h e) ?_
    rintro xs ls ⟨l, rfl, h1, h2, h3⟩
    refine Reads.bind ih ?_
    rintro ys ls' ⟨h4, h5, h6, h7⟩
    refine Reads.pure ?_
    refine ⟨by simp [h4], ?_, ?_, ?_⟩
    · simp only [List.append_nil, List.singleton_append, List.mem_cons, forall_eq_or_imp]; exact ⟨h1, h5⟩
    · simp [h2, h6]
    · simp [h3, h7, Nat.add_mul]; omega

/-- Reading a block of `n` entries from any text. -/
theorem unzip_reads (h : f.Law w g ok) (e : Nums) (n : Nat) :
    Reads RawErr (fun xs ls => xs.length = n ∧ (∀ l ∈ ls, HasTail e l) ∧ ls.length = (n + (f.per - 1)) / f.per ∧
      BlockSpec g w f.per f.isDefault ls xs) (f.unzip e n) := by
  have hp := h.per_pos
  have hdm := Nat.div_add_mod n f.per
  have hcomm : n / f.per * f.per = f.per * (n / f.per) := Nat.mul_comm _ _
  have hlt := Nat.mod_lt n hp
  unfold unzip
  refine Reads.bind (readFullLines_reads h e (n / f.per)) ?_
  rintro xs ls ⟨h1, h2, h3, h4⟩
  refine Reads.ite ?_ ?_
  · intro hmod
    refine Reads.bind (readPartialLine_reads h e (Nat.le_of_lt (Nat.mod_lt n hp))) ?_
    rintro ys ls' ⟨l, rfl, h5, h6, pad, h7, h8, h9⟩
    refine Reads.pure ⟨?_, ?_, ?_, pad, ?_, ?_, h9⟩
    · rw [List.length_append, h4, h6]; omega
    · simp only [List.append_nil, List.mem_append, List.mem_singleton]
      rintro l' (hl | rfl)
      · exact h2 _ hl
      · exact h5
    · have e1 : n + (f.per - 1) = f.per * (n / f.per) + (n % f.per + (f.per - 1)) := by omega
      rw [e1, Nat.mul_add_div hp]
      have e2 : (n % f.per + (f.per - 1)) / f.per = 1 := by
        apply Nat.div_eq_of_lt_le <;> omega
      simp [h1, e2]
    · simp [h3, h7]
    · rw [h8]; omega
  · intro hmod
    have hmod : n % f.per = 0 := by simpa using hmod
    refine Reads.pure ⟨by omega, by simpa using h2, ?_, [], by simpa using h3, hp, by simp⟩
    have e1 : n + (f.per - 1) = f.per * (n / f.per) + (f.per - 1) := by omega
    rw [e1, Nat.mul_add_div hp, Nat.div_eq_of_lt (show f.per - 1 < f.per by omega)]
    simpa using h1

/-! #### reading back -/

theorem readEntries_write (h : f.Law w g ok) (xs : List α) (hx : ∀ x ∈ xs, ok x) (s : Text) (n : Int) :
    f.readEntries xs.length ⟨xs.flatMap f.write ++ s, n⟩ = .ok (xs, ⟨s, n⟩) := by
  induction xs with
  | nil => rfl
  | cons x xs ih =>
    simp only [List.mem_cons, forall_eq_or_imp] at hx
    simp only [List.length_cons, readEntries, List.flatMap_cons, List.append_assoc]
    rw [Parser.bind_ok (h.read_write _ _ _ hx.1), Parser.bind_ok (ih hx.2)]
    rfl

theorem readLeftovers_blank (h : f.Law w g ok) (k : Nat) (s : Text) (n : Int) :
    f.readLeftovers k ⟨(List.replicate k f.blank).flatten ++ s, n⟩ = .ok ((), ⟨s, n⟩) := by
  induction k with
  | zero => rfl
  | succ k ih =>
    obtain ⟨d, hd, hr⟩ := h.read_blank
    rw [List.replicate_succ, List.flatten_cons, List.append_assoc, readLeftovers]
    have hr' : f.read ⟨f.blank ++ ((List.replicate k f.blank).flatten ++ s), n⟩ =
        .ok (d, ⟨(List.replicate k f.blank).flatten ++ s, n⟩) := by
      have := hr ((List.replicate k f.blank).flatten ++ s) n
      rwa [← h.blank] at this
    rw [Parser.bind_ok hr', if_pos hd, ih]

theorem readFullLine_write (h : f.Law w g ok) {t : Nums} (ht : t.Fit) (xs : List α) (hx : ∀ x ∈ xs, ok x) (hl : xs.length = f.per)
    (s : Text) (n : Int) :
    f.readFullLine t ⟨xs.flatMap f.write ++ tailText t ++ s, n⟩ = .ok (xs, ⟨s, n + 1⟩) := by
  rw [readFullLine, ← hl, List.append_assoc, Parser.bind_ok (readEntries_write h xs hx _ n),
    Parser.bind_ok (verifyTail_tailText ht s n)]
  rfl

theorem readFullLines_write (h : f.Law w g ok) {t : Nums} (ht : t.Fit) (k : Nat) (xs : List α) (hx : ∀ x ∈ xs, ok x)
    (hl : k * f.per ≤ xs.length) (s : Text) (n : Int) :
    f.readFullLines t k ⟨f.writeFullLines t k xs ++ s, n⟩ = .ok (xs.take (k * f.per), ⟨s, n + k⟩) := by
  induction k generalizing xs n with
  | zero => simp [readFullLines, writeFullLines]
  | succ k ih =>
    rw [Nat.add_mul, Nat.one_mul] at hl
    simp only [readFullLines, writeFullLines]
    have h1 := readFullLine_write h ht (xs.take f.per) (fun x hx' => hx x (List.mem_of_mem_take hx'))
      (by rw [List.length_take]; omega) (f.writeFullLines t k (xs.drop f.per) ++ s) n
    rw [List.append_assoc ((xs.take f.per).flatMap f.write ++ tailText t), Parser.bind_ok h1]
    rw [Parser.bind_ok (ih (xs.drop f.per) (fun x hx' => hx x (List.mem_of_mem_drop hx')) (by rw [List.length_drop]; omega) (n + 1))]
    simp only [Parser.pure_run, Except.ok.injEq, Prod.mk.injEq, St.mk.injEq, true_and]
    refine ⟨?_, by push_cast; omega⟩
    rw [Nat.add_mul, Nat.one_mul, Nat.add_comm (k * f.per), List.take_add]

/-- A printed block is read back. -/
theorem unzip_writeBlock (h : f.Law w g ok) {t : Nums} (ht : t.Fit) (xs : List α) (hx : ∀ x ∈ xs, ok x) (s : Text) (n : Int) :
    f.unzip t xs.length ⟨f.writeBlock t xs ++ s, n⟩ = .ok (xs, ⟨s, n + ((xs.length + (f.per - 1)) / f.per : Nat)⟩) := by
  have hp := h.per_pos
  have hdm := Nat.div_add_mod xs.length f.per
  have hcomm : xs.length / f.per * f.per = f.per * (xs.length / f.per) := Nat.mul_comm _ _
  have hlt := Nat.mod_lt xs.length hp
  unfold unzip writeBlock
  rw [List.append_assoc, Parser.bind_ok (readFullLines_write h ht _ xs hx (by omega) _ n)]
  by_cases hmod : xs.length % f.per ≠ 0
  · rw [if_pos hmod, if_pos hmod]
    have hlen : (xs.drop (xs.length / f.per * f.per)).length = xs.length % f.per := by
      rw [List.length_drop]; omega
    have hr : f.readPartialLine t (xs.length % f.per)
        ⟨(xs.drop (xs.length / f.per * f.per)).flatMap f.write ++
          (List.replicate (f.per - xs.length % f.per) f.blank).flatten ++ tailText t ++ s, n + (xs.length / f.per : Nat)⟩ =
        .ok (xs.drop (xs.length / f.per * f.per), ⟨s, n + (xs.length / f.per : Nat) + 1⟩) := by
      unfold readPartialLine
      have hi : (do
          let ys ← f.readEntries (xs.length % f.per)
          f.readLeftovers (f.per - xs.length % f.per)
          pure ys : Parser (List α)) ⟨(xs.drop (xs.length / f.per * f.per)).flatMap f.write ++
          (List.replicate (f.per - xs.length % f.per) f.blank).flatten ++ tailText t ++ s, n + (xs.length / f.per : Nat)⟩ =
          .ok (xs.drop (xs.length / f.per * f.per), ⟨tailText t ++ s, n + (xs.length / f.per : Nat)⟩) := by
        have he := readEntries_write h (xs.drop (xs.length / f.per * f.per)) (fun x hx' => hx x (List.mem_of_mem_drop hx'))
          ((List.replicate (f.per - xs.length % f.per) f.blank).flatten ++ (tailText t ++ s)) (n + (xs.length / f.per : Nat))
        rw [hlen] at he
        rw [List.append_assoc, List.append_assoc, Parser.bind_ok he,
          Parser.bind_ok (readLeftovers_blank h _ _ _)]
        rfl
      rw [Parser.bind_ok hi, Parser.bind_ok (verifyTail_tailText ht s _)]
      rfl
    rw [Parser.bind_ok hr]
    simp only [Parser.pure_run, Except.ok.injEq, Prod.mk.injEq, St.mk.injEq, true_and, List.take_append_drop]
    have e1 : xs.length + (f.per - 1) = f.per * (xs.length / f.per) + (xs.length % f.per + (f.per - 1)) := by omega
    rw [e1, Nat.mul_add_div hp]
    have e2 : (xs.length % f.per + (f.per - 1)) / f.per = 1 := by
      apply Nat.div_eq_of_lt_le <;> omega
    rw [e2]; push_cast; omega
  · have hmod' : xs.length % f.per = 0 := by simpa using hmod
    rw [if_neg hmod, if_neg hmod]
    simp only [Parser.pure_run, List.nil_append, Except.ok.injEq, Prod.mk.injEq, St.mk.injEq, true_and]
    refine ⟨List.take_of_length_le (by omega), ?_⟩
    have e1 : xs.length + (f.per - 1) = f.per * (xs.length / f.per) + (f.per - 1) := by omega
    rw [e1, Nat.mul_add_div hp, Nat.div_eq_of_lt (show f.per - 1 < f.per by omega)]
    simp

/-! #### the printed lines -/

theorem flatMap_write (h : f.WLaw w ok) (xs : List α) (hx : ∀ x ∈ xs, ok x) :
    (xs.flatMap f.write).length = xs.length * w ∧ '\n' ∉ xs.flatMap f.write := by
  induction xs with
  | nil => simp
  | cons x xs ih =>
    simp only [List.mem_cons, forall_eq_or_imp] at hx
    obtain ⟨h1, h2⟩ := ih hx.2
    refine ⟨?_, ?_⟩
    · rw [List.flatMap_cons, List.length_append, h.write_length x hx.1, h1, List.length_cons, Nat.add_mul]; omega
    · simp only [List.flatMap_cons, List.mem_append, not_or]
      exact ⟨h.write_nl x hx.1, h2⟩

theorem replicate_blank (h : f.WLaw w ok) (k : Nat) :
    (List.replicate k f.blank).flatten.length = k * w ∧ '\n' ∉ (List.replicate k f.blank).flatten := by
  rw [h.blank]
  refine ⟨by simp, ?_⟩
  simp only [List.mem_flatten, List.mem_replicate, not_exists, not_and]
  rintro x ⟨_, rfl⟩
  exact nl_not_mem_blanks w

theorem writeFullLines_lines (h : f.WLaw w ok) {t : Nums} (ht : t.Fit) (k : Nat) (xs : List α) (hx : ∀ x ∈ xs, ok x)
    (hl : k * f.per ≤ xs.length) :
    ∃ ls, f.writeFullLines t k xs = unlines ls ∧ ls.length = k ∧ ∀ l ∈ ls, CanonicalLine t l := by
  induction k generalizing xs with
  | zero => exact ⟨[], by simp [writeFullLines], rfl, by simp⟩
  | succ k ih =>
    rw [Nat.add_mul, Nat.one_mul] at hl
    obtain ⟨ls, h1, h2, h3⟩ := ih (xs.drop f.per) (fun x hx' => hx x (List.mem_of_mem_drop hx')) (by rw [List.length_drop]; omega)
    obtain ⟨h4, h5⟩ := flatMap_write h (xs.take f.per) (fun x hx' => hx x (List.mem_of_mem_take hx'))
    refine ⟨((xs.take f.per).flatMap f.write ++ tailCols t) :: ls, by simp [writeFullLines, h1, tailText_eq], by simp [h2], ?_⟩
    simp only [List.mem_cons, forall_eq_or_imp]
    refine ⟨canonical_line ht ?_ h5, h3⟩
    rw [h4, List.length_take, Nat.min_eq_left (by omega), h.w66]

theorem writeBlock_lines (h : f.WLaw w ok) {t : Nums} (ht : t.Fit) (xs : List α) (hx : ∀ x ∈ xs, ok x) :
    ∃ ls, f.writeBlock t xs = unlines ls ∧ ls.length = (xs.length + (f.per - 1)) / f.per ∧ ∀ l ∈ ls, CanonicalLine t l := by
  have hp := h.per_pos
  have hdm := Nat.div_add_mod xs.length f.per
  have hcomm : xs.length / f.per * f.per = f.per * (xs.length / f.per) := Nat.mul_comm _ _
  have hlt := Nat.mod_lt xs.length hp
  obtain ⟨ls, h1, h2, h3⟩ := writeFullLines_lines h ht (xs.length / f.per) xs hx (by omega)
  unfold writeBlock
  by_cases hmod : xs.length % f.per ≠ 0
  · rw [if_pos hmod, h1]
    obtain ⟨h4, h5⟩ := flatMap_write h (xs.drop (xs.length / f.per * f.per)) (fun x hx' => hx x (List.mem_of_mem_drop hx'))
    obtain ⟨h6, h7⟩ := replicate_blank h (f.per - xs.length % f.per)
    refine ⟨ls ++ [(xs.drop (xs.length / f.per * f.per)).flatMap f.write ++
      (List.replicate (f.per - xs.length % f.per) f.blank).flatten ++ tailCols t], by simp [tailText_eq], ?_, ?_⟩
    · have e1 : xs.length + (f.per - 1) = f.per * (xs.length / f.per) + (xs.length % f.per + (f.per - 1)) := by omega
      rw [e1, Nat.mul_add_div hp]
      have e2 : (xs.length % f.per + (f.per - 1)) / f.per = 1 := by
        apply Nat.div_eq_of_lt_le <;> omega
      simp [h2, e2]
    · simp only [List.mem_append, List.mem_singleton]
      rintro l (hl | rfl)
      · exact h3 l hl
      · refine canonical_line ht ?_ ?_
        · rw [List.length_append, h4, h6, ← Nat.add_mul, ← h.w66, List.length_drop]
          congr 1; omega
        · simp only [List.mem_append, not_or]; exact ⟨h5, h7⟩
  · rw [if_neg hmod, List.append_nil]
    have hmod' : xs.length % f.per = 0 := by simpa using hmod
    refine ⟨ls, h1, ?_, h3⟩
    have e1 : xs.length + (f.per - 1) = f.per * (xs.length / f.per) + (f.per - 1) := by omega
    rw [e1, Nat.mul_add_div hp, Nat.div_eq_of_lt (show f.per - 1 < f.per by omega), h2]; simp

end Fmt

/-! ### the three entry types -/

/-- A real of 11 columns. -/
def realField (l : Text) : Option Dbl := parseReal (l.take 11)

/-- Two reals of 11 columns. -/
def realPairField (l : Text) : Option (Dbl × Dbl) :=
  (parseReal (l.take 11)).bind fun a => (parseReal ((l.drop 11).take 11)).bind fun b => some (a, b)

/-- Two integers of 11 columns. -/
def intPairField (l : Text) : Option (Int × Int) :=
  (parseInt (l.take 11)).bind fun a => (parseInt ((l.drop 11).take 11)).bind fun b => some (a, b)

theorem realFmt_law : realFmt.Law 11 realField Rep where
  cols := readReal_cols
  w66 := rfl
  read_write := fun x s n h => readReal_writeReal s n h
  write_length := fun x _ => Disco.writeReal_length x
  write_nl := fun x _ => Disco.writeReal_nl x
  blank := rfl
  read_blank := ⟨Disco.zero, Disco.eqD_zero, fun s n => readReal_blanks s n⟩

theorem realFmt_wlaw : realFmt.WLaw 11 (fun _ => True) := ⟨rfl, fun x _ => Disco.writeReal_length x, fun x _ => Disco.writeReal_nl x, rfl⟩

theorem realPairFmt_wlaw : realPairFmt.WLaw 22 (fun _ => True) :=
  ⟨rfl, fun x _ => by simp [realPairFmt, Disco.writeReal_length], fun x _ => by simp [realPairFmt, Disco.writeReal_nl], rfl⟩

theorem pairRead_cols {α β : Type} {w1 w2 : Nat} {g1 : Text → Option α} {g2 : Text → Option β} {p : Parser α} {q : Parser β}
    (hp : ColsF w1 g1 p) (hq : ColsF w2 g2 q) :
    ColsF (w1 + w2) (fun l => (g1 l).bind fun a => (g2 (l.drop w1)).bind fun b => some (a, b)) (pairRead p q) :=
  (ColsF.bind hp fun a => ColsF.bind hq fun b => ColsF.pure (a, b)).congr (by omega) (fun l => rfl)

theorem realPairFmt_law : realPairFmt.Law 22 realPairField (fun p => Rep p.1 ∧ Rep p.2) where
  cols := pairRead_cols readReal_cols readReal_cols
  w66 := rfl
  read_write := fun x s n h => by
    simp only [realPairFmt, pairRead, List.append_assoc, Parser.bind_ok (readReal_writeReal _ _ h.1),
      Parser.bind_ok (readReal_writeReal _ _ h.2)]
    rfl
  write_length := fun x _ => by simp [realPairFmt, Disco.writeReal_length]
  write_nl := fun x _ => by simp [realPairFmt, Disco.writeReal_nl]
  blank := rfl
  read_blank := ⟨(Disco.zero, Disco.zero), by simp [realPairFmt, Disco.eqD_zero], fun s n => by
    rw [show (22 : Nat) = 11 + 11 from rfl, blanks_add]
    simp only [realPairFmt, pairRead, List.append_assoc, Parser.bind_ok (readReal_blanks _ _)]
    rfl⟩

theorem intPairFmt_law : intPairFmt.Law 22 intPairField (fun p => fits 11 p.1 ∧ fits 11 p.2) where
  cols := pairRead_cols (readInt_cols 11) (readInt_cols 11)
  w66 := rfl
  read_write := fun x s n h => by
    simp only [intPairFmt, pairRead, List.append_assoc, Parser.bind_ok (readInt_writeInt _ _ (show 0 < 11 by omega) h.1),
      Parser.bind_ok (readInt_writeInt _ _ (show 0 < 11 by omega) h.2)]
    rfl
  write_length := fun x h => by
    simp [intPairFmt, writeInt_length (show 0 < 11 by omega) h.1, writeInt_length (show 0 < 11 by omega) h.2]
  write_nl := fun x h => by simp [intPairFmt, writeInt_nl h.1, writeInt_nl h.2]
  blank := rfl
  read_blank := ⟨(0, 0), rfl, fun s n => by
    rw [show (22 : Nat) = 11 + 11 from rfl, blanks_add]
    simp only [intPairFmt, pairRead, List.append_assoc, Parser.bind_ok (readInt_blanks 11 _ _)]
    rfl⟩

theorem intPairFmt_wlaw : intPairFmt.WLaw 22 (fun p => fits 11 p.1 ∧ fits 11 p.2) :=
  ⟨rfl, intPairFmt_law.write_length, intPairFmt_law.write_nl, rfl⟩

end ENDFtk

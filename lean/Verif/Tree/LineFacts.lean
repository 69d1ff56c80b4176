import Verif.Record.LineLemmas
import Verif.Tree.Layout
/-
  Reading divisions and skipping lines, in terms of the line predicates of `Verif/Tree/Layout.lean`; the indexing loops.
-/
set_option linter.unusedVariables false
set_option linter.unusedSectionVars false
set_option linter.unusedSimpArgs false
namespace ENDFtk
variable [Disco]

/-- The first line of `s` is `l` and what follows is `r`.  A line without newline at the end of the buffer must have 80 columns. -/
def At (l s r : Text) : Prop := '\n' ∉ l ∧ (s = l ++ '\n' :: r ∨ (s = l ∧ r = [] ∧ 80 ≤ l.length))

omit [Disco] in
theorem At.lines {l s r : Text} (h : At l s r) : Lines [l] s r := by
  rcases h with ⟨h1, rfl | ⟨rfl, rfl, h2⟩⟩
  · exact Lines.one h1 r
  · exact Lines.last h1 (by rintro rfl; simp at h2)

omit [Disco] in
theorem At.nl {l r : Text} (h : '\n' ∉ l) : At l (l ++ '\n' :: r) r := ⟨h, .inl rfl⟩

omit [Disco] in
theorem At.unique {l s r l' r' : Text} (h : At l s r) (h' : At l' s r') : l = l' ∧ r = r' := by
  obtain ⟨h1, h2⟩ := h.lines.unique h'.lines rfl
  exact ⟨(List.cons.inj h1).1, h2⟩

omit [Disco] in
theorem At.eq {l s r : Text} (h : At l s r) (hr : r ≠ []) : s = l ++ '\n' :: r := by
  rcases h.2 with h | ⟨_, h, _⟩
  · exact h
  · exact absurd h hr

omit [Disco] in
theorem At.length_lt {l s r : Text} (h : At l s r) : r.length < s.length := h.lines.length_lt (by simp)

omit [Disco] in
theorem At.ne_nil {l s r : Text} (h : At l s r) : s ≠ [] := by
  have := h.length_lt
  intro hs; subst hs; simp at this

omit [Disco] in
theorem LineF.inv {α : Type} {g : Text → Except Err α} {p : Parser α} (hp : LineF 80 g p) {s s' : St} {a : α}
    (h : p s = .ok (a, s')) : ∃ l, At l s.rest s'.rest ∧ g l = .ok a ∧ s'.line = s.line + 1 := by
  obtain ⟨rest, line⟩ := s
  obtain ⟨l, t, rfl, hl, ht⟩ := split_line rest
  rw [hp l t line hl ht] at h
  by_cases h1 : t = [] ∧ l.length < 80
  · rw [if_pos h1] at h; cases h
  · rw [if_neg h1] at h
    cases hgl : g l with
    | error e => simp [hgl] at h
    | ok b =>
      simp only [hgl] at h
      cases h
      refine ⟨l, ⟨hl, ?_⟩, hgl, rfl⟩
      rcases ht with rfl | ⟨r, rfl⟩
      · right; simp at h1; exact ⟨by simp, rfl, h1⟩
      · left; rfl

theorem tailOpt_iff {l : Text} {t : Nums} :
    tailOpt (l.drop 66) = some t ↔ HasTail t l ∧ ∃ n, parseInt (cols 76 80 l) = some n := by
  simp only [tailOpt, Option.bind_eq_some_iff, List.drop_drop, Option.some.injEq, HasTail, cols]
  constructor
  · rintro ⟨mat, h1, mf, h2, mt, h3, ns, h4, rfl⟩
    exact ⟨⟨h1, h2, h3⟩, ns, h4⟩
  · rintro ⟨⟨h1, h2, h3⟩, ns, h4⟩
    exact ⟨_, h1, _, h2, _, h3, ns, h4, rfl⟩

theorem divLine_iff {l : Text} {d : Division} (hl : '\n' ∉ l) :
    ((opt (contOpt l)).bind fun b => (opt (tailOpt (l.drop 66))).bind fun t => divCheck b t) = .ok d ↔ DivLine d l := by
  constructor
  · intro h
    cases h1 : contOpt l with
    | none => simp [h1, opt, Except.bind] at h
    | some b =>
      cases h2 : tailOpt (l.drop 66) with
      | none => simp [h1, opt, Except.bind, h2] at h
      | some t =>
        simp only [h1, h2, opt, Except.bind, divCheck] at h
        split at h
        · cases h
        split at h
        · cases h
        split at h
        · cases h
        cases h
        obtain ⟨h3, h4⟩ := tailOpt_iff.mp h2
        refine ⟨⟨hl, h3, h4⟩, contOpt_eq_some.mp h1, ?_, ?_, ?_⟩ <;> simp only <;> omega
  · rintro ⟨⟨_, h3, h4⟩, h5, h6, h7, h8⟩
    rw [contOpt_eq_some.mpr h5, tailOpt_iff.mpr ⟨h3, h4⟩]
    simp only [opt, Except.bind, divCheck]
    rw [if_neg (by omega), if_neg (by omega), if_neg (by omega)]

theorem DivLine.unique {d d' : Division} {l : Text} (h : DivLine d l) (h' : DivLine d' l) : d = d' := by
  have h1 := (divLine_iff h.1.1).mpr h
  rw [(divLine_iff h.1.1).mpr h'] at h1
  exact (Except.ok.inj h1).symm

theorem readDivision_run {d : Division} {l : Text} (h : DivLine d l) (r : Text) (n : Int) :
    readDivision ⟨l ++ '\n' :: r, n⟩ = .ok (d, ⟨r, n + 1⟩) := by
  rw [readDivision_line.run_nl h.1.1, (divLine_iff h.1.1).mpr h]

/-- The same for the last line of a buffer, without newline. -/
theorem readDivision_at {d : Division} {l s r : Text} (h : DivLine d l) (ha : At l s r) (n : Int) :
    readDivision ⟨s, n⟩ = .ok (d, ⟨r, n + 1⟩) := by
  rcases ha with ⟨h1, rfl | ⟨rfl, rfl, h2⟩⟩
  · exact readDivision_run h r n
  · have := readDivision_line s [] n h1 (.inl rfl)
    rw [List.append_nil] at this
    rw [this, if_neg (by omega)]
    simp only [(divLine_iff h1).mpr h]
    rfl

theorem readDivision_inv {s s' : St} {d : Division} (h : readDivision s = .ok (d, s')) :
    ∃ l, At l s.rest s'.rest ∧ DivLine d l ∧ s'.line = s.line + 1 := by
  obtain ⟨l, h1, h2, h3⟩ := readDivision_line.inv h
  exact ⟨l, h1, (divLine_iff h1.1).mp h2, h3⟩

theorem readDivision_err {s : St} {e : Err} (h : readDivision s = .error e) : StdErr e := readDivision_reads.err h

theorem skip_run {t : Nums} {l : Text} (h : TextLine t l) (r : Text) (n : Int) : skip ⟨l ++ '\n' :: r, n⟩ = .ok (t, ⟨r, n + 1⟩) := by
  rw [skip_line.run_nl h.1, tailOpt_iff.mpr h.2]
  rfl

theorem skip_inv {s s' : St} {t : Nums} (h : skip s = .ok (t, s')) :
    ∃ l, At l s.rest s'.rest ∧ TextLine t l ∧ s'.line = s.line + 1 := by
  obtain ⟨l, h1, h2, h3⟩ := skip_line.inv h
  refine ⟨l, h1, ⟨h1.1, ?_⟩, h3⟩
  cases h4 : tailOpt (l.drop 66) with
  | none => simp [h4, opt] at h2
  | some t' => simp [h4, opt] at h2; subst h2; exact tailOpt_iff.mp h4

/-! ### classification -/

theorem baseIsZero_iff {d : Division} : d.baseIsZero = true ↔ ZeroCols d.base := by
  simp [Division.baseIsZero, ZeroCols, and_assoc]

theorem isHead_iff {d : Division} : d.isHead = true ↔ d.tail.mat ≠ 0 ∧ d.tail.mf ≠ 0 ∧ d.tail.mt ≠ 0 := by
  simp only [Division.isHead, Bool.and_eq_true, decide_eq_true_eq]
  constructor
  · rintro ⟨⟨h1, h2⟩, h3⟩; exact ⟨h3, h2, h1⟩
  · rintro ⟨h3, h2, h1⟩; exact ⟨⟨h1, h2⟩, h3⟩

theorem DLine.isHead_iff {l : DLine} : l.IsHead ↔ DivLine l.div l.text ∧ l.div.isHead = true := by
  rw [DLine.IsHead, ENDFtk.isHead_iff]

theorem DLine.isSend_iff {l : DLine} : l.IsSend ↔ DivLine l.div l.text ∧ l.div.isSend = true := by
  simp only [DLine.IsSend, Division.isSend, Division.isSendPermissive, Bool.and_eq_true, decide_eq_true_eq, beq_iff_eq,
    baseIsZero_iff]
  constructor
  · rintro ⟨h1, h2, h3, h4, h5⟩; exact ⟨h1, ⟨⟨h2, h5⟩, by omega⟩, h3⟩
  · rintro ⟨h1, ⟨⟨h2, h5⟩, h4⟩, h3⟩
    have := h1.2.2.2.1
    exact ⟨h1, h2, h3, by omega, h5⟩

theorem DLine.isFend_iff {l : DLine} : l.IsFend ↔ DivLine l.div l.text ∧ l.div.isFend = true := by
  simp only [DLine.IsFend, Division.isFend, Division.isFendPermissive, Division.isSendPermissive, Bool.and_eq_true,
    decide_eq_true_eq, beq_iff_eq, baseIsZero_iff]
  constructor
  · rintro ⟨h1, h2, h3, h4, h5⟩; exact ⟨h1, ⟨⟨h2, h5⟩, h4⟩, h3⟩
  · rintro ⟨h1, ⟨⟨h2, h5⟩, h4⟩, h3⟩; exact ⟨h1, h2, h3, h4, h5⟩

theorem DLine.isMend_iff {l : DLine} : l.IsMend ↔ DivLine l.div l.text ∧ l.div.isMend = true := by
  simp only [DLine.IsMend, Division.isMend, Division.isFendPermissive, Division.isSendPermissive, Bool.and_eq_true,
    beq_iff_eq, baseIsZero_iff]
  constructor
  · rintro ⟨h1, h2, h3⟩; rw [h3]; exact ⟨h1, ⟨⟨h2, rfl⟩, rfl⟩, rfl⟩
  · rintro ⟨h1, ⟨⟨h2, h5⟩, h4⟩, h3⟩
    refine ⟨h1, h2, ?_⟩
    cases hq : l.div.tail with
    | mk a b c => rw [hq] at h3 h4 h5; simp_all

theorem DLine.isTend_iff {l : DLine} : l.IsTend ↔ DivLine l.div l.text ∧ l.div.isTend = true := by
  simp only [DLine.IsTend, Division.isTend, Division.isFendPermissive, Division.isSendPermissive, Bool.and_eq_true,
    beq_iff_eq, baseIsZero_iff]
  constructor
  · rintro ⟨h1, h2, h3⟩; rw [h3]; exact ⟨h1, ⟨⟨h2, rfl⟩, rfl⟩, rfl⟩
  · rintro ⟨h1, ⟨⟨h2, h5⟩, h4⟩, h3⟩
    refine ⟨h1, h2, ?_⟩
    cases hq : l.div.tail with
    | mk a b c => rw [hq] at h3 h4 h5; simp_all

/-- The kinds exclude each other. -/
theorem Division.kinds (d : Division) :
    (d.isHead = true → d.isSend = false ∧ d.isFend = false ∧ d.isMend = false ∧ d.isTend = false) ∧
    (d.isSend = true → d.isFend = false ∧ d.isMend = false ∧ d.isTend = false) ∧
    (d.isFend = true → d.isMend = false ∧ d.isTend = false) ∧ (d.isMend = true → d.isTend = false) := by
  simp only [Division.isHead, Division.isSend, Division.isFend, Division.isMend, Division.isTend, Division.isFendPermissive,
    Division.isSendPermissive]
  generalize d.baseIsZero = b
  cases b <;> simp
  refine ⟨?_, ?_, ?_, ?_⟩ <;> intros <;> simp_all <;> omega

/-! ### findEnd -/

theorem findEnd_run {body : List Text} {send : Text} (hb : ∀ l ∈ body, ∃ t, TextLine t l ∧ t.mt ≠ 0)
    (hs : ∃ t, TextLine t send ∧ t.mt = 0) (r : Text) : ∀ (fuel : Nat) (n : Int), body.length < fuel →
    ∃ m, findEnd fuel ⟨unlines (body ++ [send]) ++ r, n⟩ = .ok ((), ⟨r, m⟩) := by
  induction body with
  | nil =>
    intro fuel n hf
    obtain ⟨fuel, rfl⟩ := Nat.exists_eq_succ_of_ne_zero (show fuel ≠ 0 by simp at hf; omega)
    obtain ⟨t, h1, h2⟩ := hs
    refine ⟨n + 1, ?_⟩
    simp only [List.nil_append, unlines_cons, unlines_nil, List.append_assoc, List.cons_append]
    rw [findEnd, Parser.bind_ok (skip_run h1 _ n), if_neg (by simpa using h2)]
    rfl
  | cons l body ih =>
    intro fuel n hf
    obtain ⟨fuel, rfl⟩ := Nat.exists_eq_succ_of_ne_zero (show fuel ≠ 0 by simp at hf; omega)
    obtain ⟨t, h1, h2⟩ := hb l (by simp)
    obtain ⟨m, hm⟩ := ih (fun x hx => hb x (by simp [hx])) fuel (n + 1) (by simp at hf; omega)
    refine ⟨m, ?_⟩
    simp only [List.cons_append, unlines_cons, List.append_assoc]
    rw [findEnd, Parser.bind_ok (skip_run h1 _ n), if_pos h2, Parser.bind_ok (Parser.get_run _), if_neg (by simp)]
    exact hm

theorem findEnd_inv : ∀ (fuel : Nat) (s : St), s.rest.length < fuel →
    match findEnd fuel s with
    | .ok (_, s') => ∃ body send, Lines (body ++ [send]) s.rest s'.rest ∧ (∀ l ∈ body, ∃ t, TextLine t l ∧ t.mt ≠ 0) ∧
        (∃ t, TextLine t send ∧ t.mt = 0)
    | .error e => StdErr e := by
  intro fuel
  induction fuel with
  | zero => intro s h; omega
  | succ fuel ih =>
    intro s hf
    rw [findEnd, Parser.bind_run]
    cases hs : skip s with
    | error e => exact skip_reads.err hs
    | ok r =>
      obtain ⟨t, s1⟩ := r
      obtain ⟨l, ha, ht, _⟩ := skip_inv hs
      simp only
      by_cases hmt : t.mt = 0
      · rw [if_neg (by simpa using hmt)]
        exact ⟨[], l, by simpa using ha.lines, by simp, t, ht, hmt⟩
      · rw [if_pos hmt, Parser.bind_ok (Parser.get_run _)]
        by_cases hr : s1.rest = []
        · rw [if_pos hr]; rfl
        · rw [if_neg hr]
          have := ih s1 (by have := ha.length_lt; omega)
          cases h2 : findEnd fuel s1 with
          | error e => rw [h2] at this; exact this
          | ok r =>
            obtain ⟨u, s2⟩ := r
            rw [h2] at this
            obtain ⟨body, send, h3, h4, h5⟩ := this
            refine ⟨l :: body, send, by simpa using ha.lines.trans h3, ?_, h5⟩
            intro x hx
            rcases List.mem_cons.mp hx with rfl | hx
            · exact ⟨t, ht, hmt⟩
            · exact h4 x hx

omit [Disco] in
theorem Lines.eq_unlines {ls : List Text} {s r : Text} (h : Lines ls s r) (hr : r ≠ []) : s = unlines ls ++ r := by
  induction h with
  | nil s => simp
  | cons hl _ ih => simp [ih hr]
  | last _ _ => exact absurd rfl hr

/-! ### skipWhile -/

theorem skipWhile_run {p : Division → Bool} {df : Division} {lf g r : Text} (hf : DivLine df lf) (hg : At lf g r) (hp : p df = false) :
    ∀ (extra : List DLine) (d0 : Division) (begin : Text) (fuel : Nat) (n : Int),
    (∀ l ∈ extra, DivLine l.div l.text ∧ p l.div = true) → extra.length + 1 < fuel → p d0 = true →
    ∃ m, skipWhile p fuel begin d0 ⟨unlines (extra.map DLine.text) ++ g, n⟩ = .ok ((g, df), ⟨r, m⟩) := by
  intro extra
  induction extra with
  | nil =>
    intro d0 begin fuel n _ hfu h0
    obtain ⟨fuel, rfl⟩ := Nat.exists_eq_succ_of_ne_zero (show fuel ≠ 0 by omega)
    obtain ⟨fuel, rfl⟩ := Nat.exists_eq_succ_of_ne_zero (show fuel ≠ 0 by simp at hfu; omega)
    refine ⟨n + 1, ?_⟩
    simp only [List.map_nil, unlines_nil, List.nil_append]
    rw [skipWhile, if_pos h0, Parser.bind_ok (Parser.get_run _), Parser.bind_ok (readDivision_at hf hg n),
      Parser.bind_ok (Parser.get_run _)]
    by_cases hr : r = []
    · simp [hr]
    · simp only [if_neg hr]
      rw [skipWhile, if_neg (by simp [hp])]
      rfl
  | cons l extra ih =>
    intro d0 begin fuel n he hfu h0
    obtain ⟨fuel, rfl⟩ := Nat.exists_eq_succ_of_ne_zero (show fuel ≠ 0 by omega)
    obtain ⟨h1, h2⟩ := he l (by simp)
    obtain ⟨m, hm⟩ := ih l.div (l.text ++ '\n' :: (unlines (extra.map DLine.text) ++ g)) fuel (n + 1)
      (fun x hx => he x (by simp [hx])) (by simp at hfu; omega) h2
    refine ⟨m, ?_⟩
    simp only [List.map_cons, unlines_cons, List.append_assoc, List.cons_append]
    rw [skipWhile, if_pos h0, Parser.bind_ok (Parser.get_run _), Parser.bind_ok (readDivision_run h1 _ n),
      Parser.bind_ok (Parser.get_run _), if_neg (by simp [hg.ne_nil])]
    exact hm

/-- Starting from the division just read. -/
theorem skipWhile_first {p : Division → Bool} {df : Division} {lf g r : Text} (hf : DivLine df lf) (hg : At lf g r) (hp : p df = false)
    (extra : List DLine) (he : ∀ l ∈ extra, DivLine l.div l.text ∧ p l.div = true) (n : Int) :
    ∃ m, (do
      let s ← Parser.get
      let d ← readDivision
      let s' ← Parser.get
      skipWhile p (s'.rest.length + 1) s.rest d) ⟨unlines (extra.map DLine.text) ++ g, n⟩ =
        .ok ((g, df), ⟨r, m⟩) := by
  cases extra with
  | nil =>
    refine ⟨n + 1, ?_⟩
    simp only [List.map_nil, unlines_nil, List.nil_append]
    rw [Parser.bind_ok (Parser.get_run _), Parser.bind_ok (readDivision_at hf hg n), Parser.bind_ok (Parser.get_run _), skipWhile,
      if_neg (by simp [hp])]
    rfl
  | cons l extra =>
    obtain ⟨h1, h2⟩ := he l (by simp)
    have hlen : extra.length + 1 ≤ (unlines (extra.map DLine.text) ++ g).length := by
      have := hg.length_lt
      clear he h1 h2
      induction extra with
      | nil => simp; omega
      | cons x xs ih => simp at ih ⊢; omega
    obtain ⟨m, hm⟩ := skipWhile_run hf hg hp extra l.div (l.text ++ '\n' :: (unlines (extra.map DLine.text) ++ g))
      ((unlines (extra.map DLine.text) ++ g).length + 1) (n + 1) (fun x hx => he x (by simp [hx])) (by omega) h2
    refine ⟨m, ?_⟩
    simp only [List.map_cons, unlines_cons, List.append_assoc, List.cons_append]
    rw [Parser.bind_ok (Parser.get_run _), Parser.bind_ok (readDivision_run h1 _ n), Parser.bind_ok (Parser.get_run _)]
    exact hm

theorem skipWhile_inv {p : Division → Bool} : ∀ (fuel : Nat) (begin l0 : Text) (d0 : Division) (s : St), s.rest.length < fuel →
    At l0 begin s.rest → DivLine d0 l0 →
    match skipWhile p fuel begin d0 s with
    | .ok ((begin', d'), s') => ∃ (extra : List DLine) (l' : Text), Lines (extra.map DLine.text) begin begin' ∧
        (∀ l ∈ extra, DivLine l.div l.text ∧ p l.div = true) ∧ At l' begin' s'.rest ∧ DivLine d' l' ∧ (p d' = false ∨ s'.rest = [])
    | .error e => StdErr e := by
  intro fuel
  induction fuel with
  | zero => intro begin l0 d0 s h; omega
  | succ fuel ih =>
    intro begin l0 d0 s hf ha hd
    rw [skipWhile]
    by_cases hp : p d0 = true
    · rw [if_pos hp, Parser.bind_ok (Parser.get_run _), Parser.bind_run]
      cases hr : readDivision s with
      | error e => exact readDivision_err hr
      | ok x =>
        obtain ⟨d1, s1⟩ := x
        obtain ⟨l1, ha1, hd1, _⟩ := readDivision_inv hr
        simp only
        rw [Parser.bind_ok (Parser.get_run _)]
        by_cases hs1 : s1.rest = []
        · rw [if_pos hs1]
          exact ⟨[⟨l0, d0⟩], l1, by simpa using ha.lines, by simpa using ⟨hd, hp⟩, ha1, hd1, .inr hs1⟩
        · rw [if_neg hs1]
          have := ih s.rest l1 d1 s1 (by have := ha1.length_lt; omega) ha1 hd1
          cases h2 : skipWhile p fuel s.rest d1 s1 with
          | error e => rw [h2] at this; exact this
          | ok y =>
            obtain ⟨⟨begin', d'⟩, s'⟩ := y
            rw [h2] at this
            obtain ⟨extra, l', h3, h4, h5, h6, h7⟩ := this
            refine ⟨⟨l0, d0⟩ :: extra, l', by simpa using ha.lines.trans h3, ?_, h5, h6, h7⟩
            intro x hx
            rcases List.mem_cons.mp hx with rfl | hx
            · exact ⟨hd, hp⟩
            · exact h4 x hx
    · rw [if_neg hp]
      exact ⟨[], l0, by simpa using Lines.nil begin, by simp, ha, hd, .inl (by simpa using hp)⟩

end ENDFtk

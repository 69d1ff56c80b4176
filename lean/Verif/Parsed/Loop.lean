import Verif.Parsed.Types
/-
  The loops of file/Base/src/read.hpp, Material/src/read.hpp and Tape/src/readMaterials.hpp have the same form.
-/
set_option linter.unusedVariables false
set_option linter.unusedSectionVars false
set_option linter.unusedSimpArgs false
namespace ENDFtk
variable [Disco] [CorrOps]

/-- Items until a division that stops the loop. -/
def itemLoop {α : Type} (stop : Division → Bool) (item : Division → Parser α) : Nat → Division → Parser (List α)
  | 0, _ => Parser.fail .fuel
  | fuel + 1, d =>
    if stop d then pure []
    else do
      let x ← item d
      let d' ← readDivision
      let xs ← itemLoop stop item fuel d'
      pure (x :: xs)

/-- An item on the tape, beginning with the line that is read as division.  If `P` holds of it, the line counter is exact. -/
def ItemText {α : Type} (P : α → Prop) (stop : Division → Bool) (item : Division → Parser α) (x : α) (b : List Text) : Prop :=
  ∃ l rest d, b = l :: rest ∧ (∀ m ∈ rest, '\n' ∉ m) ∧ DivLine d l ∧ stop d = false ∧ ∃ k : Nat, (P x → k = rest.length) ∧ Rd (item d) (unlines rest) x k

theorem readSections_eq (mf : Int) (fuel : Nat) (d : Division) : readSections mf fuel d = itemLoop Division.isFend (readAny mf) fuel d := by
  induction fuel generalizing d with
  | zero => rfl
  | succ fuel ih => simp only [readSections, itemLoop, ih]

/-- One file of a material (Material/src/read.hpp 11-44). -/
def fileItem (d : Division) : Parser PFile := if implementedMF d.tail.mf then readPFile d.tail.mf d else Parser.fail .exc

theorem readFiles_eq (fuel : Nat) (d : Division) : readFiles fuel d = itemLoop Division.isMend fileItem fuel d := by
  induction fuel generalizing d with
  | zero => rfl
  | succ fuel ih =>
    simp only [readFiles, itemLoop, ih, fileItem]
    split
    · rfl
    · split
      · rfl
      · rfl

theorem readMaterials_eq (fuel : Nat) (d : Division) : readMaterials fuel d = itemLoop (fun d => d.tail.mat == -1) readPMaterial fuel d := by
  induction fuel generalizing d with
  | zero => rfl
  | succ fuel ih =>
    simp only [readMaterials, itemLoop, ih]
    by_cases h : d.tail.mat = -1 <;> simp [h]

section
variable {α : Type} {P : α → Prop} {stop : Division → Bool} {item : Division → Parser α}

theorem itemLoop_succ_ok {fuel : Nat} {d : Division} {s s' : St} {xs : List α} (h : itemLoop stop item (fuel + 1) d s = .ok (xs, s')) :
    (stop d = true ∧ xs = [] ∧ s' = s) ∨ (stop d = false ∧ ∃ x ys s1 d' s2, xs = x :: ys ∧ item d s = .ok (x, s1) ∧
      readDivision s1 = .ok (d', s2) ∧ itemLoop stop item fuel d' s2 = .ok (ys, s')) := by
  rw [itemLoop] at h
  cases hs : stop d with
  | true =>
    rw [if_pos hs] at h
    simp only [Parser.pure_run, Except.ok.injEq, Prod.mk.injEq] at h
    exact .inl ⟨rfl, h.1.symm, h.2.symm⟩
  | false =>
    rw [if_neg (by simp [hs])] at h
    obtain ⟨x, s1, h1, h⟩ := Parser.bind_eq_ok.mp h
    obtain ⟨d', s2, h2, h⟩ := Parser.bind_eq_ok.mp h
    obtain ⟨ys, s3, h3, h⟩ := Parser.bind_eq_ok.mp h
    simp only [Parser.pure_run, Except.ok.injEq, Prod.mk.injEq] at h
    obtain ⟨rfl, rfl⟩ := h
    exact .inr ⟨rfl, x, ys, s1, d', s2, rfl, h1, h2, h3⟩

/-- What the loop reads are items, one after the other, and a line that stops it. -/
theorem itemLoop_run (hL : ∀ d, LocalP P (item d)) : ∀ {fuel : Nat} {d : Division} {l : Text} {s s' : St} {xs : List α},
    itemLoop stop item fuel d s = .ok (xs, s') → DivLine d l →
    ∃ (rest : List Text) (k : Nat) (bs : List (List Text)) (e : Text) (de : Division), Lines rest s.rest s'.rest ∧ s'.line = s.line + k ∧ ((∀ x ∈ xs, P x) → k = rest.length) ∧
      l :: rest = bs.flatten ++ [e] ∧ DivLine de e ∧ stop de = true ∧ All2 (ItemText P stop item) xs bs
  | 0, _, _, _, _, _, h, _ => by cases h
  | fuel + 1, d, l, s, s', xs, h, hd => by
    rcases itemLoop_succ_ok h with ⟨hs, rfl, rfl⟩ | ⟨hs, x, ys, s1, d', s2, rfl, h1, h2, h3⟩
    · exact ⟨[], 0, [], l, d, .nil _, by simp, by simp, rfl, hd, hs, .nil⟩
    · obtain ⟨ls, k, a1, a2, a4, a3⟩ := (hL d).run h1
      obtain ⟨l', b1, b2, b3⟩ := readDivision_inv h2
      obtain ⟨rest, k', bs, e, de, c1, c2, c7, c3, c4, c5, c6⟩ := itemLoop_run hL h3 b2
      refine ⟨ls ++ l' :: rest, k + 1 + k', (l :: ls) :: bs, e, de, a1.trans (b1.lines.trans c1), by push_cast; omega, fun hP => ?_, by simp [c3], c4, c5, .cons ?_ c6⟩
      · have := a4 (hP x (by simp))
        have := c7 (fun y hy => hP y (by simp [hy]))
        simp; omega
      · exact ⟨l, ls, d, rfl, a1.nl, hd, hs, k, a4, a3⟩

theorem itemText_ne_nil {x : α} {b : List Text} (h : ItemText P stop item x b) : b ≠ [] := by
  obtain ⟨l, rest, d, rfl, _⟩ := h; simp

/-- Items one after the other are read by the loop. -/
theorem itemLoop_rd {e : Text} {de : Division} (he : DivLine de e) (hs : stop de = true) {xs : List α} {bs : List (List Text)}
    (h : All2 (ItemText P stop item) xs bs) : ∀ {d : Division} {l : Text} {rest : List Text}, l :: rest = bs.flatten ++ [e] → DivLine d l →
    ∃ k : Nat, ((∀ x ∈ xs, P x) → k = rest.length) ∧ ∀ {fuel : Nat}, xs.length < fuel → Rd (itemLoop stop item fuel d) (unlines rest) xs k := by
  induction h with
  | nil =>
    intro d l rest h1 h2
    simp only [List.flatten_nil, List.nil_append, List.cons.injEq] at h1
    obtain ⟨rfl, rfl⟩ := h1
    obtain rfl := h2.unique he
    refine ⟨0, by simp, fun {fuel} h3 => ?_⟩
    obtain ⟨f, rfl⟩ : ∃ f, fuel = f + 1 := ⟨fuel - 1, by simp at h3; omega⟩
    rw [itemLoop, if_pos hs]
    exact Rd.pure _
  | cons hx hxs ih =>
    rename_i x b xs bs
    intro d l rest h1 h2
    obtain ⟨l0, r0, d0, rfl, k1, k2, k3, k, k5, k4⟩ := hx
    simp only [List.flatten_cons, List.cons_append, List.append_assoc, List.cons.injEq] at h1
    obtain ⟨rfl, rfl⟩ := h1
    obtain rfl := h2.unique k2
    -- the next line
    obtain ⟨l1, r1, hr⟩ : ∃ l1 r1, bs.flatten ++ [e] = l1 :: r1 := by
      cases hb : bs.flatten ++ [e] with
      | nil => simp at hb
      | cons a b => exact ⟨a, b, rfl⟩
    obtain ⟨d1, hd1⟩ : ∃ d1, DivLine d1 l1 := by
      cases hxs with
      | nil => simp at hr; obtain ⟨rfl, rfl⟩ := hr; exact ⟨de, he⟩
      | cons hy _ =>
        obtain ⟨l2, r2, d2, rfl, _, m2, _⟩ := hy
        simp at hr
        obtain ⟨rfl, _⟩ := hr
        exact ⟨d2, m2⟩
    obtain ⟨m, hm, h4⟩ := ih hr.symm hd1
    refine ⟨k + (1 + m), fun hP => ?_, fun {fuel} h3 => ?_⟩
    · rw [k5 (hP x (by simp)), hm (fun y hy => hP y (by simp [hy])), hr]
      simp; omega
    obtain ⟨f, rfl⟩ : ∃ f, fuel = f + 1 := ⟨fuel - 1, by simp at h3; omega⟩
    rw [itemLoop, if_neg (by simp [k3]), hr]
    refine Rd.bind' k4 (Rd.bind' (t1 := unlines [l1]) (k1 := 1) ?_ (Rd.bindPure (h4 (fuel := f) (by simp at h3; omega)) rfl) rfl rfl) (by simp) (by simp)
    intro r n
    have : unlines [l1] ++ r = l1 ++ '\n' :: r := by simp
    rw [this, readDivision_run hd1]; rfl

theorem itemLoop_local (hL : ∀ d, LocalP P (item d)) : ∀ {fuel : Nat} {d : Division} {s s' : St} {xs : List α},
    itemLoop stop item fuel d s = .ok (xs, s') → ∃ (ls : List Text) (k : Nat), Lines ls s.rest s'.rest ∧ s'.line = s.line + k ∧ ((∀ x ∈ xs, P x) → k = ls.length) ∧
      xs.length ≤ ls.length ∧ ∀ fuel', ls.length < fuel' → Rd (itemLoop stop item fuel' d) (unlines ls) xs k
  | 0, _, _, _, _, h => by cases h
  | fuel + 1, d, s, s', xs, h => by
    rcases itemLoop_succ_ok h with ⟨hs, rfl, rfl⟩ | ⟨hs, x, ys, s1, d', s2, rfl, h1, h2, h3⟩
    · refine ⟨[], 0, .nil _, by simp, by simp, by simp, fun f hf => ?_⟩
      obtain ⟨f, rfl⟩ : ∃ g, f = g + 1 := ⟨f - 1, by simp at hf; omega⟩
      rw [itemLoop, if_pos hs]; exact Rd.pure _
    · obtain ⟨ls, k, a1, a2, a4, a3⟩ := (hL d).run h1
      obtain ⟨l', b1, b2, b3⟩ := readDivision_inv h2
      obtain ⟨ms, m, c1, c2, c5, c3, c4⟩ := itemLoop_local hL h3
      refine ⟨ls ++ l' :: ms, k + (1 + m), a1.trans (b1.lines.trans c1), by push_cast; omega, fun hP => ?_, by simp; omega, fun f hf => ?_⟩
      · rw [a4 (hP x (by simp)), c5 (fun y hy => hP y (by simp [hy]))]
        simp; omega
      obtain ⟨f, rfl⟩ : ∃ g, f = g + 1 := ⟨f - 1, by simp at hf; omega⟩
      rw [itemLoop, if_neg (by simp [hs])]
      refine Rd.bind' a3 (Rd.bind' (t1 := unlines [l']) (k1 := 1) ?_ (Rd.bindPure (c4 f (by simp at hf; omega)) rfl) rfl rfl) (by simp) (by simp)
      intro r n
      have : unlines [l'] ++ r = l' ++ '\n' :: r := by simp
      rw [this, readDivision_run b2]; rfl

/-- The loop ends; it fails only as its items do, or because a line is no division. -/
theorem itemLoop_err {E : Err → Prop} [ErrOk E] (hL : ∀ d, LocalP P (item d)) (hE : ∀ d l, DivLine d l → ∀ s e, item d s = .error e → E e) :
    ∀ {fuel : Nat} {d : Division} {l : Text} {s : St} {e : Err}, DivLine d l → s.rest.length < fuel →
    itemLoop stop item fuel d s = .error e → E e
  | 0, _, _, _, _, _, h, _ => by omega
  | fuel + 1, d, l, s, e, hd, hf, h => by
    rw [itemLoop] at h
    cases hs : stop d with
    | true => rw [if_pos hs] at h; cases h
    | false =>
      rw [if_neg (by simp [hs])] at h
      rcases Parser.bind_eq_error.mp h with h | ⟨x, s1, h1, h⟩
      · exact hE d l hd s e h
      obtain ⟨ls, _, a1, _, _⟩ := (hL d).run h1
      rcases Parser.bind_eq_error.mp h with h | ⟨d', s2, h2, h⟩
      · exact ErrOk.std e (readDivision_err h)
      obtain ⟨l', b1, b2, _⟩ := readDivision_inv h2
      rcases Parser.bind_eq_error.mp h with h | ⟨ys, s3, h3, h⟩
      · have := a1.length_le
        have := b1.length_lt
        exact itemLoop_err hL hE b2 (by omega) h
      · cases h

end

omit [Disco] in
theorem length_le_unlines (ls : List Text) : ls.length ≤ (unlines ls).length := by
  induction ls with
  | nil => simp
  | cons l ls ih => simp; omega

/-- With as much fuel as there is text the loop is local. -/
theorem itemLoop_Local {α : Type} {P : α → Prop} {stop : Division → Bool} {item : Division → Parser α} (hL : ∀ d, LocalP P (item d)) (d : Division) :
    LocalP (fun xs => ∀ x ∈ xs, P x) (do
      let s ← Parser.get
      itemLoop stop item (s.rest.length + 1) d) where
  run := by
    intro s xs s' h
    have h : itemLoop stop item (s.rest.length + 1) d s = .ok (xs, s') := h
    obtain ⟨ls, k, h1, h2, h5, h3, h4⟩ := itemLoop_local hL h
    refine ⟨ls, k, h1, h2, h5, fun r n => ?_⟩
    refine h4 ((unlines ls ++ r).length + 1) ?_ r n
    have := length_le_unlines ls
    simp; omega

end ENDFtk

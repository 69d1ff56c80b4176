import Verif.Section.BlindAll
import Verif.Parsed.Read
/-
  Files, materials and tapes are read from columns 1-75 alone.
-/
set_option linter.unusedVariables false
set_option linter.unusedSectionVars false
set_option linter.unusedSimpArgs false
namespace ENDFtk
variable [Disco] [CorrOps]

omit [CorrOps] in
theorem SameRes.elim {α : Type} {S : Text → Text → Prop} {r r' : Except Err (α × St)} (h : SameRes S r r') :
    (∃ e, r = .error e ∧ r' = .error e) ∨ ∃ a x x' n, r = .ok (a, ⟨x, n⟩) ∧ r' = .ok (a, ⟨x', n⟩) ∧ S x x' := by
  cases r with
  | error e =>
    cases r' with
    | error e' => obtain rfl : e = e' := h; exact .inl ⟨e, rfl, rfl⟩
    | ok q => exact False.elim h
  | ok q =>
    cases r' with
    | error e' => exact False.elim h
    | ok q' =>
      obtain ⟨a, x, n⟩ := q
      obtain ⟨a', x', n'⟩ := q'
      obtain ⟨rfl, h2, h3⟩ := h
      simp only at h2 h3
      subst h2
      exact .inr ⟨a, x, x', n, rfl, rfl, h3⟩

theorem skipLoop_blind {go : Nums → Bool} : ∀ {fuel fuel' : Nat} {x x' : Text} {n : Int}, x.length < fuel → x'.length < fuel' → SameText x x' →
    SameRes SameText (skipLoop go fuel ⟨x, n⟩) (skipLoop go fuel' ⟨x', n⟩)
  | 0, _, _, _, _, h, _, _ => by omega
  | _ + 1, 0, _, _, _, _, h, _ => by omega
  | fuel + 1, fuel' + 1, x, x', n, h, h', hx => by
    rw [skipLoop, skipLoop]
    rcases ((inferInstance : Blind skip).run x x' n hx).elim with ⟨e, e1, e2⟩ | ⟨t, y, y', m, e1, e2, hy⟩
    · rw [Parser.bind_err e1, Parser.bind_err e2]; exact rfl
    · rw [Parser.bind_ok e1, Parser.bind_ok e2]
      split
      · obtain ⟨l, a1, _, _⟩ := skip_inv e1
        obtain ⟨l', b1, _, _⟩ := skip_inv e2
        have := a1.length_lt
        have := b1.length_lt
        simp only at *
        exact skipLoop_blind (by omega) (by omega) hy
      · exact ⟨rfl, rfl, hy⟩

theorem skipLoop_Blind (go : Nums → Bool) : Blind (do
    let s ← Parser.get
    skipLoop go (s.rest.length + 1)) where
  run := fun x x' n h => skipLoop_blind (go := go) (fuel := x.length + 1) (fuel' := x'.length + 1) (by omega) (by omega) h

instance (d : Division) : Blind (skipSection8 d) := Blind.bind (skipLoop_Blind _) fun _ => inferInstance

theorem skipFile8_blind : ∀ {fuel fuel' : Nat} {d : Division} {x x' : Text} {n : Int}, x.length < fuel → x'.length < fuel' → SameText x x' →
    SameRes SameText (skipFile8 fuel d ⟨x, n⟩) (skipFile8 fuel' d ⟨x', n⟩)
  | 0, _, _, _, _, _, h, _, _ => by omega
  | _ + 1, 0, _, _, _, _, _, h, _ => by omega
  | fuel + 1, fuel' + 1, d, x, x', n, h, h', hx => by
    rw [skipFile8_succ, skipFile8_succ]
    split
    · rcases ((inferInstance : Blind (skipSection8 d)).run x x' n hx).elim with ⟨e, e1, e2⟩ | ⟨t, y, y', m, e1, e2, hy⟩
      · rw [Parser.bind_err e1, Parser.bind_err e2]; exact rfl
      · rw [Parser.bind_ok e1, Parser.bind_ok e2]
        have h1 := (skipSection8_ok e1).1
        have h2 := (skipSection8_ok e2).1
        simp only at h1 h2
        exact skipFile8_blind (by omega) (by omega) hy
    · exact ⟨rfl, rfl, hx⟩

theorem skipFile8_Blind (d : Division) : Blind (do
    let s ← Parser.get
    skipFile8 (s.rest.length + 1) d) where
  run := fun x x' n h => skipFile8_blind (d := d) (fuel := x.length + 1) (fuel' := x'.length + 1) (by omega) (by omega) h

section
variable {α : Type} {stop : Division → Bool} {item : Division → Parser α}

theorem itemLoop_blind (hL : ∀ d, LocalW (item d)) (hB : ∀ d, Blind (item d)) : ∀ {fuel fuel' : Nat} {d : Division} {x x' : Text} {n : Int},
    x.length < fuel → x'.length < fuel' → SameText x x' → SameRes SameText (itemLoop stop item fuel d ⟨x, n⟩) (itemLoop stop item fuel' d ⟨x', n⟩)
  | 0, _, _, _, _, _, h, _, _ => by omega
  | _ + 1, 0, _, _, _, _, _, h, _ => by omega
  | fuel + 1, fuel' + 1, d, x, x', n, h, h', hx => by
    rw [itemLoop, itemLoop]
    split
    · exact ⟨rfl, rfl, hx⟩
    rcases ((hB d).run x x' n hx).elim with ⟨e, e1, e2⟩ | ⟨t, y, y', m, e1, e2, hy⟩
    · rw [Parser.bind_err e1, Parser.bind_err e2]; exact rfl
    rw [Parser.bind_ok e1, Parser.bind_ok e2]
    rcases ((inferInstance : Blind readDivision).run y y' m hy).elim with ⟨e, f1, f2⟩ | ⟨d', z, z', k, f1, f2, hz⟩
    · rw [Parser.bind_err f1, Parser.bind_err f2]; exact rfl
    rw [Parser.bind_ok f1, Parser.bind_ok f2]
    obtain ⟨_, _, a1, _⟩ := (hL d).run e1
    obtain ⟨_, _, a2, _⟩ := (hL d).run e2
    obtain ⟨_, b1, _⟩ := readDivision_inv f1
    obtain ⟨_, b2, _⟩ := readDivision_inv f2
    have := a1.length_le
    have := a2.length_le
    have := b1.length_lt
    have := b2.length_lt
    simp only at *
    rcases (itemLoop_blind hL hB (fuel := fuel) (fuel' := fuel') (d := d') (n := k) (by omega) (by omega) hz).elim with
      ⟨e, g1, g2⟩ | ⟨xs, w, w', j, g1, g2, hw⟩
    · rw [Parser.bind_err g1, Parser.bind_err g2]; exact rfl
    · rw [Parser.bind_ok g1, Parser.bind_ok g2]
      exact ⟨rfl, rfl, hw⟩

theorem itemLoop_Blind (hL : ∀ d, LocalW (item d)) (hB : ∀ d, Blind (item d)) (d : Division) : Blind (do
    let s ← Parser.get
    itemLoop stop item (s.rest.length + 1) d) where
  run := fun x x' n h => itemLoop_blind hL hB (d := d) (fuel := x.length + 1) (fuel' := x'.length + 1) (by omega) (by omega) h

end

theorem readAny_blind (mf : Int) (d : Division) : Blind (readAny mf d) := by
  unfold readAny
  cases hT : sectionType? mf d.tail.mt with
  | none => exact Blind.fail _
  | some T =>
    cases T with
    | std T => exact Blind.bind (inferInstance : Blind (T.defn.readSect d d.tail.mat)) fun _ => inferInstance
    | cov => exact Blind.bind (inferInstance : Blind (mf32mt151.readSect d d.tail.mat)) fun _ => inferInstance

instance (mf : Int) (d : Division) : Blind (readPFile mf d) := by
  unfold readPFile
  refine Blind.ite (Blind.ite ?_ inferInstance) (Blind.ite (Blind.mapErr ?_) (Blind.mapErr ?_))
  · simp only [skipMF_eq]
    rw [get_bind_assoc (fun s => skipLoop (fun t => t.mf == 30) (s.rest.length + 1))]
    exact Blind.bind (skipLoop_Blind _) fun _ => inferInstance
  · rw [get_bind_assoc (fun s => skipFile8 (s.rest.length + 1) d)]
    refine Blind.bind (skipFile8_Blind d) fun _ => ?_
    blnd
  · simp only [readSections_eq]
    rw [get_bind_assoc (fun s => itemLoop Division.isFend (readAny mf) (s.rest.length + 1) d)]
    refine Blind.bind (itemLoop_Blind (fun d => (readAny_local mf d).toW) (readAny_blind mf) d) fun _ => ?_
    blnd

theorem fileItem_blind (d : Division) : Blind (fileItem d) := by
  unfold fileItem
  exact Blind.ite inferInstance (Blind.fail _)

instance (d : Division) : Blind (readPMaterial d) := by
  unfold readPMaterial
  refine Blind.mapErr ?_
  simp only [readFiles_eq]
  rw [get_bind_assoc (fun s => itemLoop Division.isMend fileItem (s.rest.length + 1) d)]
  refine Blind.bind (itemLoop_Blind (fun d => (fileItem_local d).toW) fileItem_blind d) fun _ => ?_
  blnd

instance : Blind PTape.read := by
  unfold PTape.read
  refine Blind.mapErr (Blind.bind inferInstance fun id => Blind.bind inferInstance fun d => ?_)
  simp only [readMaterials_eq]
  rw [get_bind_assoc (fun s => itemLoop (fun d => d.tail.mat == -1) readPMaterial (s.rest.length + 1) d)]
  exact Blind.bind (itemLoop_Blind (fun d => (readPMaterial_local d).toW) (fun _ => inferInstance) d) fun _ => inferInstance

end ENDFtk

import Verif.Parsed.Loop
import Verif.Parsed.Fill
/-
  Reading parsed files, materials and tapes: what they read from is exactly the lines of their parts; they end; they fail cleanly.
-/
set_option linter.unusedVariables false
set_option linter.unusedSectionVars false
set_option linter.unusedSimpArgs false
namespace ENDFtk
variable [Disco] [CorrOps]

theorem get_bind_assoc {α β : Type} (p : St → Parser α) (f : α → Parser β) :
    (do let s ← Parser.get; let a ← p s; f a) = ((do let s ← Parser.get; p s) >>= f) := rfl

/-! ### skipping -/

/-- Lines are skipped as long as `go` holds (of the numbers of the line just read). -/
def skipLoop (go : Nums → Bool) : Nat → Parser Unit
  | 0 => Parser.fail .fuel
  | fuel + 1 => do
    let t ← skip
    if go t then skipLoop go fuel else pure ()

theorem skipMT_eq (mt : Int) (fuel : Nat) : skipMT mt fuel = skipLoop (fun t => t.mt == mt) fuel := by
  induction fuel with
  | zero => rfl
  | succ fuel ih => simp only [skipMT, skipLoop, ih, beq_iff_eq]

theorem skipMF_eq (mf : Int) (fuel : Nat) : skipMF mf fuel = skipLoop (fun t => t.mf == mf) fuel := by
  induction fuel with
  | zero => rfl
  | succ fuel ih => simp only [skipMF, skipLoop, ih, beq_iff_eq]

theorem skip_rd {t : Nums} {l : Text} (h : TextLine t l) : Rd skip (unlines [l]) t 1 := by
  intro r n
  have : unlines [l] ++ r = l ++ '\n' :: r := by simp
  rw [this, skip_run h]; rfl

theorem readDivision_rd {d : Division} {l : Text} (h : DivLine d l) : Rd readDivision (unlines [l]) d 1 := by
  intro r n
  have : unlines [l] ++ r = l ++ '\n' :: r := by simp
  rw [this, readDivision_run h]; rfl

theorem skipLoop_local {go : Nums → Bool} : ∀ {fuel : Nat} {s s' : St} {u : Unit}, skipLoop go fuel s = .ok (u, s') →
    ∃ ls e te, Lines (ls ++ [e]) s.rest s'.rest ∧ s'.line = s.line + (ls ++ [e]).length ∧ (∀ l ∈ ls, ∃ t, TextLine t l ∧ go t = true) ∧
      TextLine te e ∧ go te = false ∧ ∀ fuel', (ls ++ [e]).length < fuel' → Rd (skipLoop go fuel') (unlines (ls ++ [e])) () (ls ++ [e]).length
  | 0, _, _, _, h => by cases h
  | fuel + 1, s, s', u, h => by
    rw [skipLoop] at h
    obtain ⟨t, s1, h1, h⟩ := Parser.bind_eq_ok.mp h
    obtain ⟨l, a1, a2, a3⟩ := skip_inv h1
    cases hg : go t with
    | true =>
      rw [if_pos hg] at h
      obtain ⟨ls, e, te, b1, b2, b3, b4, b5, b6⟩ := skipLoop_local h
      refine ⟨l :: ls, e, te, a1.lines.trans b1, by simp at b2 ⊢; omega, ?_, b4, b5, fun f hf => ?_⟩
      · simp only [List.mem_cons, forall_eq_or_imp]; exact ⟨⟨t, a2, hg⟩, b3⟩
      · obtain ⟨f, rfl⟩ : ∃ g, f = g + 1 := ⟨f - 1, by simp at hf; omega⟩
        rw [skipLoop]
        refine Rd.bind' (skip_rd a2) (Rd.ite_pos hg (b6 f (by simp at hf ⊢; omega))) (by simp) (by simp; omega)
    | false =>
      rw [if_neg (by simp [hg])] at h
      simp only [Parser.pure_run, Except.ok.injEq, Prod.mk.injEq] at h
      obtain ⟨-, rfl⟩ := h
      refine ⟨[], l, t, by simpa using a1.lines, by simpa using a3, by simp, a2, hg, fun f hf => ?_⟩
      obtain ⟨f, rfl⟩ : ∃ g, f = g + 1 := ⟨f - 1, by simp at hf; omega⟩
      rw [skipLoop]
      exact Rd.bindPure (skip_rd a2) (if_neg (by simp [hg]))

theorem skipLoop_err {go : Nums → Bool} : ∀ {fuel : Nat} {s : St} {e : Err}, s.rest.length < fuel → skipLoop go fuel s = .error e → StdErr e
  | 0, _, _, h, _ => by omega
  | fuel + 1, s, e, hf, h => by
    rw [skipLoop] at h
    rcases Parser.bind_eq_error.mp h with h | ⟨t, s1, h1, h⟩
    · exact skip_reads.err h
    obtain ⟨l, a1, _, _⟩ := skip_inv h1
    split at h
    · have := a1.length_lt
      exact skipLoop_err (by omega) h
    · cases h

theorem skipLoop_Local (go : Nums → Bool) : Local (do
    let s ← Parser.get
    skipLoop go (s.rest.length + 1)) where
  run := by
    intro s u s' h
    have h : skipLoop go (s.rest.length + 1) s = .ok (u, s') := h
    obtain ⟨ls, e, te, h1, h2, _, _, _, h4⟩ := skipLoop_local h
    refine ⟨ls ++ [e], h1, h2, fun r n => ?_⟩
    refine h4 ((unlines (ls ++ [e]) ++ r).length + 1) ?_ r n
    have := length_le_unlines (ls ++ [e])
    rw [List.length_append (as := unlines _)]
    omega

/-- One round of the outer loop of file/8/src/ctor.hpp 81-91. -/
def skipSection8 (d : Division) : Parser Division := (do
  let s ← Parser.get
  skipLoop (fun t => t.mt == d.tail.mt) (s.rest.length + 1)) >>= fun _ => readDivision

instance (d : Division) : Local (skipSection8 d) := Local.bind (skipLoop_Local _) fun _ => inferInstance

theorem skipFile8_succ (fuel : Nat) (d : Division) : skipFile8 (fuel + 1) d =
    if d.tail.mf = 8 then skipSection8 d >>= skipFile8 fuel else pure d := by
  rw [skipFile8]
  simp only [skipMT_eq]
  split
  · funext s
    simp only [skipSection8, Parser.bind_run, Parser.get_run]
    cases skipLoop (fun t => t.mt == d.tail.mt) (s.rest.length + 1) s with
    | ok q => rfl
    | error e => rfl
  · rfl

theorem skipSection8_ok {d d' : Division} {s s' : St} (h : skipSection8 d s = .ok (d', s')) : s'.rest.length < s.rest.length ∧ ∃ l, DivLine d' l := by
  obtain ⟨u, s1, h1, h2⟩ := Parser.bind_eq_ok.mp h
  obtain ⟨ls, a1, _, _⟩ := (skipLoop_Local _).run h1
  obtain ⟨l, b1, b2, _⟩ := readDivision_inv h2
  have := a1.length_le
  have := b1.length_lt
  exact ⟨by omega, l, b2⟩

theorem skipFile8_local : ∀ {fuel : Nat} {d d' : Division} {s s' : St}, skipFile8 fuel d s = .ok (d', s') →
    ∃ ls, Lines ls s.rest s'.rest ∧ s'.line = s.line + ls.length ∧ ∀ fuel', ls.length < fuel' → Rd (skipFile8 fuel' d) (unlines ls) d' ls.length
  | 0, _, _, _, _, h => by cases h
  | fuel + 1, d, d', s, s', h => by
    rw [skipFile8_succ] at h
    split at h
    · rename_i h8
      obtain ⟨d1, s1, h1, h2⟩ := Parser.bind_eq_ok.mp h
      obtain ⟨ls, a1, a2, a3⟩ := Local.run h1
      have hlt := (skipSection8_ok h1).1
      obtain ⟨ms, b1, b2, b3⟩ := skipFile8_local h2
      refine ⟨ls ++ ms, a1.trans b1, by simp; omega, fun f hf => ?_⟩
      obtain ⟨f, rfl⟩ : ∃ g, f = g + 1 := ⟨f - 1, by simp at hf; omega⟩
      have hne : ls ≠ [] := by
        rintro rfl
        have := a1.count_nl
        have h3 := a1.suffix
        rcases this with ⟨c, e1, e2⟩ | ⟨_, e2, _⟩
        · have : ∀ {s r : Text}, Lines [] s r → s = r := by intro s r h; cases h; rfl
          rw [this a1] at hlt
          omega
        · simp at e2
      have : 0 < ls.length := List.length_pos_iff.mpr hne
      rw [skipFile8_succ, if_pos h8, unlines_append, List.length_append]
      exact Rd.bind a3 (b3 f (by simp at hf; omega))
    · rename_i h8
      simp only [Parser.pure_run, Except.ok.injEq, Prod.mk.injEq] at h
      obtain ⟨rfl, rfl⟩ := h
      refine ⟨[], .nil _, by simp, fun f hf => ?_⟩
      obtain ⟨f, rfl⟩ : ∃ g, f = g + 1 := ⟨f - 1, by simp at hf; omega⟩
      rw [skipFile8_succ, if_neg h8]
      exact Rd.pure _

theorem skipFile8_err : ∀ {fuel : Nat} {d : Division} {s : St} {e : Err}, s.rest.length < fuel → skipFile8 fuel d s = .error e → StdErr e
  | 0, _, _, _, h, _ => by omega
  | fuel + 1, d, s, e, hf, h => by
    rw [skipFile8_succ] at h
    split at h
    · rcases Parser.bind_eq_error.mp h with h | ⟨d1, s1, h1, h⟩
      · rcases Parser.bind_eq_error.mp h with h | ⟨u, s1, h1, h⟩
        · exact skipLoop_err (fuel := s.rest.length + 1) (by omega) h
        · exact readDivision_err h
      · have := (skipSection8_ok h1).1
        exact skipFile8_err (by omega) h
    · cases h

theorem skipFile8_Local (d : Division) : Local (do
    let s ← Parser.get
    skipFile8 (s.rest.length + 1) d) where
  run := by
    intro s u s' h
    have h : skipFile8 (s.rest.length + 1) d s = .ok (u, s') := h
    obtain ⟨ls, h1, h2, h4⟩ := skipFile8_local h
    refine ⟨ls, h1, h2, fun r n => ?_⟩
    refine h4 ((unlines ls ++ r).length + 1) ?_ r n
    have := length_le_unlines ls
    rw [List.length_append]
    omega

/-! ### files -/

theorem readAny_local (mf : Int) (d : Division) : LocalP (fun _ => mf ≠ 32) (readAny mf d) := by
  unfold readAny
  cases hT : sectionType? mf d.tail.mt with
  | none => exact LocalP.ofLocal (inferInstance : Local (Parser.fail _)) _
  | some T =>
    cases T with
    | std T => exact LocalP.ofLocal (Local.bind (inferInstance : Local (T.defn.readSect d d.tail.mat)) fun _ => inferInstance) _
    | cov =>
      refine LocalP.bind (P := fun _ => False) (LocalP.ofW (inferInstance : LocalW (mf32mt151.readSect d d.tail.mat)) (fun _ h => h))
        (fun _ => LocalP.ofLocal inferInstance _) ?_
      intro a b s s' h hb
      exact hb ((sectionType?_cov hT).mpr rfl)

theorem readAny_err {mf : Int} {d : Division} {l : Text} (hd : DivLine d l) {s : St} {e : Err} (h : readAny mf d s = .error e) : UbErr e := by
  unfold readAny at h
  cases hT : sectionType? mf d.tail.mt with
  | some T =>
    simp only [hT] at h
    rcases Parser.bind_eq_error.mp h with h | ⟨x, s1, h1, h⟩
    · cases T with
      | std T => exact (readSect_reads T.lawUb d (showsCont_fits hd.2.1) (fits_of_parse (cols_length 73 75 l) hd.1.2.1.2.2) d.tail.mat).err h
      | cov =>
        have := ResCov.readSect_reads d d.tail.mat s
        rw [show mf32mt151.readSect d d.tail.mat s = .error e from h] at this
        exact this
    · cases h
  | none =>
    simp only [hT] at h
    cases h; exact .inl rfl

theorem fillMap_err {α : Type} {key : α → Int} {xs : List α} {m : SMap α} {e : Err} (h : fillMap key xs m = .error e) : e = .exc := by
  induction xs generalizing m with
  | nil => cases h
  | cons a xs ih =>
    rw [fillMap] at h
    split at h
    · cases h; rfl
    · exact ih h

theorem verifyFEND_err {d : Division} {e : Err} (h : verifyFEND d = .error e) : e = .exc := by
  unfold verifyFEND at h
  grind

/-- No file 32: its sections advance the line counter by more than their lines. -/
def PFile.NoCov (f : PFile) : Prop := f.mf ≠ 32
def PMaterial.NoCov (m : PMaterial) : Prop := ∀ f ∈ m.files', f.NoCov
def PTape.NoCov (t : PTape) : Prop := ∀ m ∈ t.materials, m.NoCov

theorem readPFile_local (mf : Int) (d : Division) : LocalP PFile.NoCov (readPFile mf d) := by
  unfold readPFile
  refine LocalP.ite (LocalP.ofLocal (Local.ite ?_ inferInstance) _) (LocalP.ite (LocalP.ofLocal (Local.mapErr ?_) _) (LocalP.mapErr ?_))
  · simp only [skipMF_eq]
    rw [get_bind_assoc (fun s => skipLoop (fun t => t.mf == 30) (s.rest.length + 1))]
    exact Local.bind (skipLoop_Local _) fun _ => inferInstance
  · rw [get_bind_assoc (fun s => skipFile8 (s.rest.length + 1) d)]
    refine Local.bind (skipFile8_Local d) fun _ => ?_
    locl
  · simp only [readSections_eq]
    rw [get_bind_assoc (fun s => itemLoop Division.isFend (readAny mf) (s.rest.length + 1) d)]
    refine LocalP.bind (itemLoop_Local (readAny_local mf) d) (fun _ => LocalP.ofLocal (by locl) _) ?_
    intro xs f s s' h hf x hx
    obtain ⟨m, s1, _, h⟩ := Parser.bind_eq_ok.mp h
    cases h
    exact hf

theorem catchStd_ub {e : Err} (h : UbErr e) : UbErr (catchStd e) := ErrOk.again e h

theorem readPFile_err {mf : Int} {d : Division} {l : Text} (hd : DivLine d l) {s : St} {e : Err} (h : readPFile mf d s = .error e) : UbErr e := by
  unfold readPFile at h
  split at h
  · split at h
    · rcases Parser.bind_eq_error.mp h with h | ⟨s0, s1, h1, h⟩
      · cases h
      cases h1
      rcases Parser.bind_eq_error.mp h with h | ⟨u, s1, h1, h⟩
      · rw [skipMF_eq] at h
        exact .inl (skipLoop_err (by omega) h)
      · cases h
    · cases h
  · split at h
    · obtain ⟨e', h', he⟩ := Parser.mapErr_error.mp h; clear h; subst he; have h := h'
      refine catchStd_ub ?_
      rcases Parser.bind_eq_error.mp h with h | ⟨s0, s1, h1, h⟩
      · cases h
      cases h1
      rcases Parser.bind_eq_error.mp h with h | ⟨d', s1, h1, h⟩
      · exact .inl (skipFile8_err (by omega) h)
      rcases Parser.bind_eq_error.mp h with h | ⟨u, s1, h1, h⟩
      · cases hv : verifyFEND d' with
        | error e1 => rw [hv] at h; cases h; rw [verifyFEND_err hv]; exact .inl rfl
        | ok u => rw [hv] at h; cases h
      · cases h
    · obtain ⟨e', h', he⟩ := Parser.mapErr_error.mp h; clear h; subst he; have h := h'
      refine catchStd_ub ?_
      rcases Parser.bind_eq_error.mp h with h | ⟨s0, s1, h1, h⟩
      · cases h
      cases h1
      rw [readSections_eq] at h
      rcases Parser.bind_eq_error.mp h with h | ⟨xs, s1, h1, h⟩
      · exact itemLoop_err (readAny_local mf) (fun d l hd s e => readAny_err hd) hd (by omega) h
      rcases Parser.bind_eq_error.mp h with h | ⟨u, s1, h1, h⟩
      · cases hv : fillMap AnySection.mt xs [] with
        | error e1 => rw [hv] at h; cases h; rw [fillMap_err hv]; exact .inl rfl
        | ok u => rw [hv] at h; cases h
      · cases h

/-! ### materials -/

theorem fileItem_local (d : Division) : LocalP PFile.NoCov (fileItem d) := by
  unfold fileItem
  exact LocalP.ite (readPFile_local _ d) (LocalP.ofLocal inferInstance _)

theorem fileItem_err {d : Division} {l : Text} (hd : DivLine d l) {s : St} {e : Err} (h : fileItem d s = .error e) : UbErr e := by
  unfold fileItem at h
  split at h
  · exact readPFile_err hd h
  · cases h; exact .inl rfl

theorem readPMaterial_local (d : Division) : LocalP PMaterial.NoCov (readPMaterial d) := by
  unfold readPMaterial
  refine LocalP.mapErr ?_
  simp only [readFiles_eq]
  rw [get_bind_assoc (fun s => itemLoop Division.isMend fileItem (s.rest.length + 1) d)]
  refine LocalP.bind (itemLoop_Local fileItem_local d) (fun _ => LocalP.ofLocal (by locl) _) ?_
  intro fs m s s' h hm f hf
  obtain ⟨mm, s1, h1, h⟩ := Parser.bind_eq_ok.mp h
  cases h
  cases hv : fillMap PFile.mf fs [] with
  | error e => rw [hv] at h1; cases h1
  | ok u =>
    rw [hv] at h1
    cases h1
    exact hm f (List.mem_map.mpr ⟨_, (fillMap_ok hv).2.2.symm.subset (List.mem_map.mpr ⟨f, hf, rfl⟩), rfl⟩)

theorem readPMaterial_err {d : Division} {l : Text} (hd : DivLine d l) {s : St} {e : Err} (h : readPMaterial d s = .error e) : UbErr e := by
  unfold readPMaterial at h
  obtain ⟨e', h', he⟩ := Parser.mapErr_error.mp h; clear h; subst he; have h := h'
  refine catchStd_ub ?_
  rcases Parser.bind_eq_error.mp h with h | ⟨s0, s1, h1, h⟩
  · cases h
  cases h1
  rw [readFiles_eq] at h
  rcases Parser.bind_eq_error.mp h with h | ⟨xs, s1, h1, h⟩
  · exact itemLoop_err fileItem_local (fun d l hd s e => fileItem_err hd) hd (by omega) h
  rcases Parser.bind_eq_error.mp h with h | ⟨u, s1, h1, h⟩
  · cases hv : fillMap PFile.mf xs [] with
    | error e1 => rw [hv] at h; cases h; rw [fillMap_err hv]; exact .inl rfl
    | ok u => rw [hv] at h; cases h
  · cases h

/-! ### tapes -/

theorem PTape.make_err {id : Tpid} {ms : List PMaterial} {e : Err} (h : PTape.make id ms = .error e) : e = .exc := by
  unfold PTape.make at h
  split at h
  · cases h; rfl
  · cases h

theorem PTape.read_local : LocalP PTape.NoCov PTape.read := by
  unfold PTape.read
  refine LocalP.mapErr (LocalP.bind (P := fun _ => True) (LocalP.ofLocal inferInstance _) (fun id => LocalP.bind (P := fun _ => True) (LocalP.ofLocal inferInstance _)
    (fun d => ?_) (fun _ _ _ _ _ _ => trivial)) (fun _ _ _ _ _ _ => trivial))
  simp only [readMaterials_eq]
  rw [get_bind_assoc (fun s => itemLoop (fun d => d.tail.mat == -1) readPMaterial (s.rest.length + 1) d)]
  refine LocalP.bind (itemLoop_Local readPMaterial_local d) (fun _ => LocalP.ofLocal inferInstance _) ?_
  intro ms t s s' h ht m hm
  cases hv : PTape.make id ms with
  | error e => rw [hv] at h; cases h
  | ok u =>
    rw [hv] at h
    simp only [liftE, Except.ok.injEq, Prod.mk.injEq] at h
    obtain ⟨rfl, rfl⟩ := h
    unfold PTape.make at hv
    split at hv
    · cases hv
    · cases hv; exact ht m hm

instance (mf : Int) (d : Division) : LocalW (readPFile mf d) := (readPFile_local mf d).toW
instance (d : Division) : LocalW (readPMaterial d) := (readPMaterial_local d).toW
instance : LocalW PTape.read := PTape.read_local.toW

theorem PTape.read_err {s : St} {e : Err} (h : PTape.read s = .error e) : UbErr e := by
  unfold PTape.read at h
  obtain ⟨e', h', he⟩ := Parser.mapErr_error.mp h; clear h; subst he; have h := h'
  refine catchStd_ub ?_
  rcases Parser.bind_eq_error.mp h with h | ⟨id, s0, h0, h⟩
  · exact .inl (readTpid_reads.err h)
  rcases Parser.bind_eq_error.mp h with h | ⟨d, s1, h1, h⟩
  · exact .inl (readDivision_err h)
  obtain ⟨l, _, hd, _⟩ := readDivision_inv h1
  rcases Parser.bind_eq_error.mp h with h | ⟨s2, s3, h2, h⟩
  · cases h
  cases h2
  rw [readMaterials_eq] at h
  rcases Parser.bind_eq_error.mp h with h | ⟨ms, s4, h3, h⟩
  · exact itemLoop_err readPMaterial_local (fun d l hd s e => readPMaterial_err hd) hd (by omega) h
  · cases hv : PTape.make id ms with
    | error e1 => rw [hv] at h; cases h; rw [PTape.make_err hv]; exact .inl rfl
    | ok u => rw [hv] at h; cases h

end ENDFtk

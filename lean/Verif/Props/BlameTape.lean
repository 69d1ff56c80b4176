import Verif.Props.Blame32
import Verif.Props.Parsed
/-
  C49: what must be in a file, a material or a tape for the behaviour of its parser to be undefined.
-/
set_option linter.unusedVariables false
set_option linter.unusedSectionVars false
set_option linter.unusedSimpArgs false
namespace ENDFtk.Props
variable [Disco] [CorrOps]

/-! ### specification -/

/-- The text `rest` begins with line `k` of a section of type `S`, whose HEAD line is `head`; that line is to blame. -/
def LineBlamed (S : SecType) (head : Cont) (k : Nat) (rest : Text) : Prop :=
  match S with
  | .std T => ∃ c, ShowsCont c (firstLine rest) ∧ Culprit T head k c
  | .cov => BadLine32 rest

/-- A section of the file is to blame: line `i` is its HEAD line, its type is that for MF and for the MT number of that line, and line `k` after that line is
    to blame. -/
def FileBlamed (mf : Int) (text : Text) : Prop :=
  ∃ i head t S k, ShowsCont head (lineAt i text) ∧ HasTail t (lineAt i text) ∧ S.nums.1 = mf ∧ (∀ m, S.nums.2 = some m → t.mt = m) ∧
    LineBlamed S head k (linesFrom (i + k) text)

/-- A file is to blame: it begins with line `j`, and its number is the MF of that line. -/
def MaterialBlamed (text : Text) : Prop := ∃ j t, HasTail t (lineAt j text) ∧ FileBlamed t.mf (linesFrom j text)

/-! ### the loops -/

theorem linesFrom_add (i j : Nat) (s : Text) : linesFrom (i + j) s = linesFrom i (linesFrom j s) := by
  induction j generalizing s with
  | zero => rfl
  | succ j ih => exact ih _

theorem fileBlamed_lines {mf : Int} {ls : List Text} {s r : Text} (h : Lines ls s r) (hb : FileBlamed mf r) : FileBlamed mf s := by
  obtain ⟨i, head, t, S, k, h1, h2, h3, h4, h5⟩ := hb
  refine ⟨i + ls.length, head, t, S, k, by rw [lineAt_lines h]; exact h1, by rw [lineAt_lines h]; exact h2, h3, h4, ?_⟩
  rw [show i + ls.length + k = i + k + ls.length by omega, from_lines h]; exact h5

theorem materialBlamed_lines {ls : List Text} {s r : Text} (h : Lines ls s r) (hb : MaterialBlamed r) : MaterialBlamed s := by
  obtain ⟨j, t, h1, h2⟩ := hb
  exact ⟨j + ls.length, t, by rw [lineAt_lines h]; exact h1, by rw [from_lines h]; exact h2⟩

theorem itemLoop_blame {α : Type} {P : α → Prop} {stop : Division → Bool} {item : Division → Parser α} {B : Text → Prop} (hL : ∀ d, LocalP P (item d))
    (hB : ∀ {ls s r}, Lines ls s r → B r → B s) (hI : ∀ {s d s1}, readDivision s = .ok (d, s1) → item d s1 = .error .ub → B s.rest) :
    ∀ {fuel : Nat} {s s1 : St} {d : Division}, readDivision s = .ok (d, s1) → itemLoop stop item fuel d s1 = .error .ub → B s.rest
  | 0, _, _, _, _, h => by cases h
  | fuel + 1, s, s1, d, hd, h => by
    rw [itemLoop] at h
    cases hs : stop d with
    | true => rw [if_pos hs] at h; cases h
    | false =>
      rw [if_neg (by simp [hs])] at h
      obtain ⟨l, k1, -, -⟩ := readDivision_inv hd
      rcases Parser.bind_eq_error.mp h with h | ⟨x, s2, h1, h⟩
      · exact hI hd h
      obtain ⟨ls, _, a1, _, _⟩ := (hL d).run h1
      rcases Parser.bind_eq_error.mp h with h | ⟨d', s3, h2, h⟩
      · exact (stdErr_ub (readDivision_err h)).elim
      rcases Parser.bind_eq_error.mp h with h | ⟨ys, s4, h3, h⟩
      · exact hB k1.lines (hB a1 (itemLoop_blame hL hB hI h2 h))
      · cases h

theorem readAny_blame {mf : Int} {s s1 : St} {d : Division} (hd : readDivision s = .ok (d, s1)) (h : readAny mf d s1 = .error .ub) : FileBlamed mf s.rest := by
  unfold readAny at h
  cases hT : sectionType? mf d.tail.mt with
  | none => rw [hT] at h; cases h
  | some S =>
    rw [hT] at h
    simp only at h
    have h : S.defn.readSect d d.tail.mat s1 = .error .ub := by
      rcases Parser.bind_eq_error.mp h with h | ⟨x, s2, h1, h⟩
      · exact h
      · cases h
    obtain ⟨b1, b2, b3⟩ := division_line hd
    obtain ⟨n1, n2⟩ : S.nums.1 = mf ∧ ∀ m, S.nums.2 = some m → d.tail.mt = m := by
      rw [S.nums_eq]; exact sectionType?_iff.mp hT
    have hp : S.defn.parse s = .error .ub := by unfold SecDef.parse; rw [Parser.bind_ok hd]; exact h
    cases S with
    | std T =>
      obtain ⟨head, k, c, g1, g2, g3⟩ := C49_blame T hp
      exact ⟨0, head, d.tail, .std T, k, g1, b2, n1, n2, c, by rw [Nat.zero_add, ← lineAt_from]; exact g2, g3⟩
    | cov =>
      obtain ⟨k, hk⟩ := C55_blame hp
      exact ⟨0, d.base, d.tail, .cov, k, b1, b2, n1, n2, by rw [Nat.zero_add]; exact hk⟩

theorem readPFile_blame {mf : Int} {s s1 : St} {d : Division} (hd : readDivision s = .ok (d, s1)) (h : readPFile mf d s1 = .error .ub) :
    FileBlamed mf s.rest := by
  unfold readPFile at h
  split at h
  · split at h
    · rcases Parser.bind_eq_error.mp h with h | ⟨s0, s2, h1, h⟩
      · cases h
      cases h1
      rcases Parser.bind_eq_error.mp h with h | ⟨u, s2, h1, h⟩
      · rw [skipMF_eq] at h
        exact (stdErr_ub (skipLoop_err (by omega) h)).elim
      · cases h
    · cases h
  · split at h
    · obtain ⟨e', h', he⟩ := Parser.mapErr_error.mp h
      cases catchStd_isUb e' he
      have h := h'
      rcases Parser.bind_eq_error.mp h with h | ⟨s0, s2, h1, h⟩
      · cases h
      cases h1
      rcases Parser.bind_eq_error.mp h with h | ⟨d', s2, h1, h⟩
      · exact (stdErr_ub (skipFile8_err (by omega) h)).elim
      rcases Parser.bind_eq_error.mp h with h | ⟨u, s2, h1, h⟩
      · cases hv : verifyFEND d' with
        | error e1 => rw [hv] at h; cases h; cases verifyFEND_err hv
        | ok u => rw [hv] at h; cases h
      · cases h
    · obtain ⟨e', h', he⟩ := Parser.mapErr_error.mp h
      cases catchStd_isUb e' he
      have h := h'
      rcases Parser.bind_eq_error.mp h with h | ⟨s0, s2, h1, h⟩
      · cases h
      cases h1
      rw [readSections_eq] at h
      rcases Parser.bind_eq_error.mp h with h | ⟨xs, s2, h1, h⟩
      · exact itemLoop_blame (B := FileBlamed mf) (readAny_local mf) fileBlamed_lines readAny_blame hd h
      rcases Parser.bind_eq_error.mp h with h | ⟨u, s2, h1, h⟩
      · cases hv : fillMap AnySection.mt xs [] with
        | error e1 => rw [hv] at h; cases h; cases fillMap_err hv
        | ok u => rw [hv] at h; cases h
      · cases h

theorem fileItem_blame {s s1 : St} {d : Division} (hd : readDivision s = .ok (d, s1)) (h : fileItem d s1 = .error .ub) : MaterialBlamed s.rest := by
  unfold fileItem at h
  split at h
  · exact ⟨0, d.tail, (division_line hd).2.1, readPFile_blame hd h⟩
  · cases h

theorem readPMaterial_blame {s s1 : St} {d : Division} (hd : readDivision s = .ok (d, s1)) (h : readPMaterial d s1 = .error .ub) :
    MaterialBlamed s.rest := by
  unfold readPMaterial at h
  obtain ⟨e', h', he⟩ := Parser.mapErr_error.mp h
  cases catchStd_isUb e' he
  have h := h'
  rcases Parser.bind_eq_error.mp h with h | ⟨s0, s2, h1, h⟩
  · cases h
  cases h1
  rw [readFiles_eq] at h
  rcases Parser.bind_eq_error.mp h with h | ⟨xs, s2, h1, h⟩
  · exact itemLoop_blame (B := MaterialBlamed) fileItem_local materialBlamed_lines fileItem_blame hd h
  rcases Parser.bind_eq_error.mp h with h | ⟨u, s2, h1, h⟩
  · cases hv : fillMap PFile.mf xs [] with
    | error e1 => rw [hv] at h; cases h; cases fillMap_err hv
    | ok u => rw [hv] at h; cases h
  · cases h

/-! ### files, materials, tapes -/

/-- If the behaviour of parsing a file is undefined, then a line of one of its sections is to blame. -/
theorem C49_file_blame {mf : Int} {s : St} (h : readFileFrom mf s = .error .ub) : FileBlamed mf s.rest := by
  unfold readFileFrom at h
  rcases Parser.bind_eq_error.mp h with h | ⟨d, s1, h1, h⟩
  · exact (stdErr_ub (readDivision_err h)).elim
  · exact readPFile_blame h1 h

/-- The same for a material. -/
theorem C49_material_blame {s : St} (h : readMaterialFrom s = .error .ub) : MaterialBlamed s.rest := by
  unfold readMaterialFrom at h
  rcases Parser.bind_eq_error.mp h with h | ⟨d, s1, h1, h⟩
  · exact (stdErr_ub (readDivision_err h)).elim
  · exact readPMaterial_blame h1 h

/-- The same for a tape. -/
theorem C49_tape_blame {s : St} (h : PTape.read s = .error .ub) : MaterialBlamed s.rest := by
  unfold PTape.read at h
  obtain ⟨e', h', he⟩ := Parser.mapErr_error.mp h
  cases catchStd_isUb e' he
  have h := h'
  rcases Parser.bind_eq_error.mp h with h | ⟨id, s0, h0, h⟩
  · exact (stdErr_ub (readTpid_reads.err h)).elim
  rcases Parser.bind_eq_error.mp h with h | ⟨d, s1, h1, h⟩
  · exact (stdErr_ub (readDivision_err h)).elim
  rcases Parser.bind_eq_error.mp h with h | ⟨s2, s3, h2, h⟩
  · cases h
  cases h2
  rw [readMaterials_eq] at h
  obtain ⟨ls, a1, -⟩ := readTpid_reads.ok h0
  rcases Parser.bind_eq_error.mp h with h | ⟨ms, s4, h3, h⟩
  · exact materialBlamed_lines a1 (itemLoop_blame (B := MaterialBlamed) readPMaterial_local materialBlamed_lines readPMaterial_blame h1 h)
  · cases hv : PTape.make id ms with
    | error e1 => rw [hv] at h; cases h; cases PTape.make_err hv
    | ok u => rw [hv] at h; cases h

/-- A tape without such lines is read, or there is a `std::exception`. -/
theorem C49_safe_tape {s : St} (hs : ¬MaterialBlamed s.rest) {er : Err} (h : PTape.read s = .error er) : er.isStd = true := by
  rcases PTape.read_err h with h' | rfl
  · exact h'
  · exact (hs (C49_tape_blame h)).elim

/-- In particular, if no line of the tape has one of these MF numbers: resonances (2, 32), energy-angle distributions (6, 26), thermal scattering (7), decay data (8),
    transition probabilities (12), atomic relaxation (28) and covariances (31, 33, 34, 35, 40). -/
theorem C49_safe_mf {s : St} (hs : ∀ k t, HasTail t (lineAt k s.rest) → t.mf ∉ [2, 6, 7, 8, 12, 26, 28, 31, 32, 33, 34, 35, 40]) {er : Err}
    (h : PTape.read s = .error er) : er.isStd = true := by
  refine C49_safe_tape ?_ h
  rintro ⟨j, t, h1, i, head, t', S, k, -, -, h2, -, h3⟩
  refine hs j t h1 ?_
  rw [← h2]
  cases S with
  | cov => simp [SecType.nums]
  | std T =>
    obtain ⟨c, -, hc⟩ := h3
    cases T <;> first | exact (hc : False).elim | simp [SecType.nums, SectionType.nums]

end ENDFtk.Props

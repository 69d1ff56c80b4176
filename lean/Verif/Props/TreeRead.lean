import Verif.Tree.DupLemmas
import Verif.Tree.IndexLemmas
/-
  C01-C08: indexing a buffer.  Layouts: `Verif/Tree/Layout.lean`; what indexing means: `Verif/Tree/TreeSpec.lean`.
-/
set_option linter.unusedVariables false
set_option linter.unusedSectionVars false
namespace ENDFtk.Props
open ENDFtk
variable [Disco]

theorem ofBuffer_of_run {b : Text} {n : Int} {t : TTape} {s : St} (h : readTTape ⟨b, n⟩ = .ok (t, s)) : TTape.ofBuffer b n = .ok t := by
  rw [TTape.ofBuffer, h]

theorem run_of_ofBuffer {b : Text} {n : Int} {t : TTape} (h : TTape.ofBuffer b n = .ok t) : ∃ s, readTTape ⟨b, n⟩ = .ok (t, s) := by
  unfold TTape.ofBuffer at h
  cases hr : readTTape ⟨b, n⟩ with
  | error e => rw [hr] at h; cases h
  | ok x =>
    obtain ⟨t', s⟩ := x
    rw [hr] at h
    exact ⟨s, by simpa using h⟩

/-- C01: the text of any well formed layout (whatever comes after the TEND line) is accepted, and the tree indexes it byte exactly.
    The TEND line ends with a newline, or the buffer ends after at least 80 columns of it. -/
theorem C01_byte_exact (L : TapeL) (hL : L.Valid) (g rest : Text)
    (hg : g = L.tend.text ++ '\n' :: rest ∨ (g = L.tend.text ∧ 80 ≤ L.tend.text.length)) (line : Int) :
    ∃ t, TTape.ofBuffer (unlines (L.tpid :: L.mats.flatMap MatL.lines) ++ g) line = .ok t ∧ TapeIndexed L t := by
  have hnl := hL.2.2.2.1.1.1
  have hat : ∃ r, At L.tend.text g r := by
    rcases hg with h | ⟨h1, h2⟩
    · exact ⟨rest, hnl, .inl h⟩
    · exact ⟨[], hnl, .inr ⟨h1, rfl, h2⟩⟩
  obtain ⟨r, hat⟩ := hat
  obtain ⟨m, hm⟩ := readTTape_run hL hat line
  rw [TapeL.textWith_eq] at hm
  exact ⟨L.tree, ofBuffer_of_run hm, L.tree_indexed hL⟩

/-- C01 for the whole text of a layout. -/
theorem C01_text (L : TapeL) (hL : L.Valid) (rest : Text) (line : Int) :
    ∃ t, TTape.ofBuffer (unlines L.lines ++ rest) line = .ok t ∧ TapeIndexed L t := by
  obtain ⟨t, h1, h2⟩ := C01_byte_exact L hL (L.tend.text ++ '\n' :: rest) rest (.inl rfl) line
  refine ⟨t, ?_, h2⟩
  rw [← h1]
  simp [TapeL.lines]

/-- C02: every accepted buffer is the text of a well formed layout - identification line, sections in order of appearance, nothing but
    end records between them, a TEND line - followed by some rest; and the tree indexes exactly that layout. -/
theorem C02_nothing_lost (b : Text) (line : Int) (t : TTape) (h : TTape.ofBuffer b line = .ok t) :
    ∃ (L : TapeL) (g rest : Text), L.Valid ∧ b = unlines (L.tpid :: L.mats.flatMap MatL.lines) ++ g ∧
      (g = L.tend.text ++ '\n' :: rest ∨ (g = L.tend.text ∧ 80 ≤ L.tend.text.length)) ∧ TapeIndexed L t := by
  obtain ⟨s, hs⟩ := run_of_ofBuffer h
  have := readTTape_inv ⟨b, line⟩
  rw [hs] at this
  obtain ⟨L, g, v1, v2, v3, v4⟩ := this
  simp only at v2 v4
  rw [TapeL.textWith_eq] at v2
  refine ⟨L, g, s.rest, v1, v2, ?_, v4 ▸ L.tree_indexed v1⟩
  rcases v3.2 with h | ⟨h1, h2, h3⟩
  · exact .inl h
  · exact .inr ⟨h1, h3⟩

/-- C03: for every buffer there is a tree or a `std::exception`; no other exception, no undefined behaviour, no endless loop. -/
theorem C03_total (b : Text) (line : Int) : (∃ t, TTape.ofBuffer b line = .ok t) ∨ TTape.ofBuffer b line = .error .exc := by
  have hi := readTTape_inv ⟨b, line⟩
  unfold TTape.ofBuffer
  cases hr : readTTape ⟨b, line⟩ with
  | ok x => exact .inl ⟨x.1, rfl⟩
  | error e =>
    right
    rw [hr] at hi
    have he : ∃ e', catchStd e' = e := by
      rw [readTTape, Parser.mapErr_error] at hr
      obtain ⟨e', _, h⟩ := hr
      exact ⟨e', h⟩
    obtain ⟨e', rfl⟩ := he
    have hi : (catchStd e').isStd = true := hi
    cases e' <;> simp_all [catchStd, Err.isStd]

/-! ### end records that are repeated or missing -/

/-- The same sections in the same files and materials, whatever end records there are. -/
def SameSections (L L' : TapeL) : Prop :=
  L'.tpid = L.tpid ∧ L'.ntape = L.ntape ∧
  All2 (fun M M' : MatL => All2 (fun F F' : FileL => All2 (fun S S' : SecL => S'.head = S.head ∧ S'.body = S.body ∧ S'.send = S.send)
    F.secs F'.secs) M.files M'.files) L.mats L'.mats

theorem sameSecs {Ss Ss' : List SecL} (h : All2 (fun S S' : SecL => S'.head = S.head ∧ S'.body = S.body ∧ S'.send = S.send) Ss Ss') :
    Ss'.map (fun S => (S.nums, S.tree)) = Ss.map (fun S => (S.nums, S.tree)) := by
  induction h with
  | nil => rfl
  | cons h _ ih =>
    obtain ⟨h1, h2, h3⟩ := h
    simp only [List.map_cons, ih, List.cons.injEq, and_true, Prod.mk.injEq]
    simp [SecL.nums, SecL.tree, SecL.core, h1, h2, h3]

theorem sameFile {F F' : FileL} (h : All2 (fun S S' : SecL => S'.head = S.head ∧ S'.body = S.body ∧ S'.send = S.send) F.secs F'.secs) :
    F'.mf = F.mf ∧ F'.mat = F.mat ∧ F'.tree = F.tree := by
  have hm := sameSecs h
  have hfirst : F'.first.nums = F.first.nums := by
    simp only [FileL.secs, List.map_cons, List.cons.injEq, Prod.mk.injEq] at hm
    exact hm.1.1
  refine ⟨by simp [FileL.mf, hfirst], by simp [FileL.mat, hfirst], ?_⟩
  have := congrArg (List.foldl (fun (m : SMap TSection) (x : Nums × TSection) => m.emplace x.1.mt x.2) []) hm
  simp only [List.foldl_map] at this
  simp only [FileL.tree, FileL.mat, FileL.mf, hfirst]
  rw [← this]

theorem sameMat {M M' : MatL} (h : All2 (fun F F' : FileL => All2 (fun S S' : SecL => S'.head = S.head ∧ S'.body = S.body ∧ S'.send = S.send)
    F.secs F'.secs) M.files M'.files) : M'.mat = M.mat ∧ M'.tree = M.tree := by
  have hm : M'.files.map (fun F => (F.mf, F.mat, F.tree)) = M.files.map (fun F => (F.mf, F.mat, F.tree)) := by
    generalize M.files = fs at h
    generalize M'.files = fs' at h
    induction h with
    | nil => rfl
    | cons h _ ih =>
      obtain ⟨h1, h2, h3⟩ := sameFile h
      simp [ih, h1, h2, h3]
  have hfirst : M'.first.mat = M.first.mat := by
    simp only [MatL.files, List.map_cons, List.cons.injEq, Prod.mk.injEq] at hm
    exact hm.1.2.1
  refine ⟨by simp [MatL.mat, hfirst], ?_⟩
  have := congrArg (List.foldl (fun (m : SMap TFile) (x : Int × Int × TFile) => m.emplace x.1 x.2.2) []) hm
  simp only [List.foldl_map] at this
  simp only [MatL.tree, MatL.mat, hfirst]
  rw [← this]

theorem sameTape {L L' : TapeL} (h : SameSections L L') : L'.tree = L.tree := by
  obtain ⟨h1, h2, h3⟩ := h
  have hm : L'.mats.map (fun M => (M.mat, M.tree)) = L.mats.map (fun M => (M.mat, M.tree)) := by
    generalize L.mats = ms at h3
    generalize L'.mats = ms' at h3
    induction h3 with
    | nil => rfl
    | cons h _ ih =>
      obtain ⟨h1, h2⟩ := sameMat h
      simp [ih, h1, h2]
  have := congrArg (List.foldl (fun (m : SMap TMaterial) (x : Int × TMaterial) => SMap.emplaceMulti x.1 x.2 m) []) hm
  simp only [List.foldl_map] at this
  simp only [TapeL.tree, TapeL.label, h1, h2]
  rw [← this]

/-- Two layouts with the same sections give the same tree. -/
theorem same_tree {L L' : TapeL} (hL : L.Valid) (hL' : L'.Valid) (h : SameSections L L') (rest rest' : Text) (line line' : Int) :
    ∃ t, TTape.ofBuffer (unlines L.lines ++ rest) line = .ok t ∧ TTape.ofBuffer (unlines L'.lines ++ rest') line' = .ok t := by
  have key : ∀ (X : TapeL), X.Valid → ∀ r n, TTape.ofBuffer (unlines X.lines ++ r) n = .ok X.tree := by
    intro X hX r n
    obtain ⟨m, hm⟩ := readTTape_run hX (At.nl hX.2.2.2.1.1.1 (r := r)) n
    rw [TapeL.textWith_eq] at hm
    rw [← ofBuffer_of_run hm]
    simp [TapeL.lines, TapeL.front]
  exact ⟨L.tree, key L hL _ _, by rw [← sameTape h]; exact key L' hL' _ _⟩

/-- `n` repetitions (at least one) of each end record of a list. -/
inductive Repeated (R : DLine → Prop) : List DLine → List DLine → Prop
  | none : Repeated R [] []
  | some {ls ls' : List DLine} : ls ≠ [] → ls' ≠ [] → (∀ l ∈ ls', R l) → Repeated R ls ls'

/-- `L'` is `L` with any number of further SEND, FEND and MEND records next to those it has (or fewer repetitions). -/
def RepeatedEnds (L L' : TapeL) : Prop :=
  L'.tpid = L.tpid ∧ L'.ntape = L.ntape ∧ L'.tend = L.tend ∧
  All2 (fun M M' : MatL =>
    All2 (fun F F' : FileL =>
      All2 (fun S S' : SecL => S'.head = S.head ∧ S'.body = S.body ∧ S'.send = S.send ∧ ∀ l ∈ S'.extra, l.IsSend) F.secs F'.secs ∧
      Repeated DLine.IsFend F.fends F'.fends) M.files M'.files ∧
    Repeated DLine.IsMend M.mends M'.mends) L.mats L'.mats

theorem Repeated.nil_iff {R : DLine → Prop} {a b : List DLine} (h : Repeated R a b) : b = [] ↔ a = [] := by
  cases h with
  | none => simp
  | some h1 h2 _ => simp [h1, h2]

theorem Repeated.all {R : DLine → Prop} {a b : List DLine} (h : Repeated R a b) : ∀ l ∈ b, R l := by
  cases h with
  | none => simp
  | some _ _ h => exact h

theorem rep_secs {Ss Ss' : List SecL}
    (h : All2 (fun S S' : SecL => S'.head = S.head ∧ S'.body = S.body ∧ S'.send = S.send ∧ ∀ l ∈ S'.extra, l.IsSend) Ss Ss') {mf : Int}
    (hv : ∀ S ∈ Ss, S.Valid ∧ S.nums.mf = mf) : ∀ S ∈ Ss', S.Valid ∧ S.nums.mf = mf := by
  induction h with
  | nil => simp
  | @cons S S' Ss Ss' h _ ih =>
    obtain ⟨h1, h2, h3, h4⟩ := h
    intro X hX
    rcases List.mem_cons.mp hX with rfl | hX
    · obtain ⟨⟨v1, v2, v3, _⟩, v5⟩ := hv S (by simp)
      refine ⟨⟨h1 ▸ v1, h2 ▸ v2, h3 ▸ v3, h4⟩, ?_⟩
      simpa [SecL.nums, h1] using v5
    · exact ih (fun Y hY => hv Y (by simp [hY])) X hX

theorem rep_file {F F' : FileL}
    (h : All2 (fun S S' : SecL => S'.head = S.head ∧ S'.body = S.body ∧ S'.send = S.send ∧ ∀ l ∈ S'.extra, l.IsSend) F.secs F'.secs)
    (hr : Repeated DLine.IsFend F.fends F'.fends) (hv : F.Valid) : F'.Valid ∧ F'.mf = F.mf ∧ F'.mat = F.mat := by
  have hs := h.mono (fun a b (h : _ ∧ _ ∧ _ ∧ _) => (⟨h.1, h.2.1, h.2.2.1⟩ : b.head = a.head ∧ b.body = a.body ∧ b.send = a.send))
  obtain ⟨e1, e2, _⟩ := sameFile hs
  refine ⟨⟨?_, ?_, hr.all⟩, e1, e2⟩
  · rw [e1]; exact rep_secs h hv.1
  · have := sameSecs hs
    have h2 := congrArg (List.map (fun x : Nums × TSection => x.1.mt)) this
    simp only [List.map_map] at h2
    have h3 : F'.secs.map (fun s => s.nums.mt) = F.secs.map (fun s => s.nums.mt) := h2
    rw [h3]; exact hv.2.1

theorem rep_mat {M M' : MatL}
    (h : All2 (fun F F' : FileL =>
      All2 (fun S S' : SecL => S'.head = S.head ∧ S'.body = S.body ∧ S'.send = S.send ∧ ∀ l ∈ S'.extra, l.IsSend) F.secs F'.secs ∧
      Repeated DLine.IsFend F.fends F'.fends) M.files M'.files) (hr : Repeated DLine.IsMend M.mends M'.mends) (hv : M.Valid) :
    M'.Valid ∧ M'.mat = M.mat ∧ M'.first.mf = M.first.mf ∧ M'.last.mf = M.last.mf ∧ (M'.last.fends = [] ↔ M.last.fends = []) := by
  have hf : ∀ {fs fs' : List FileL}, All2 (fun F F' : FileL =>
      All2 (fun S S' : SecL => S'.head = S.head ∧ S'.body = S.body ∧ S'.send = S.send ∧ ∀ l ∈ S'.extra, l.IsSend) F.secs F'.secs ∧
      Repeated DLine.IsFend F.fends F'.fends) fs fs' → (∀ F ∈ fs, F.Valid) →
      All2 (fun F F' : FileL => F'.Valid ∧ F'.mf = F.mf ∧ F'.mat = F.mat ∧ (F'.fends = [] ↔ F.fends = [])) fs fs' := by
    intro fs fs' h
    induction h with
    | nil => intro _; exact .nil
    | @cons F F' _ _ h _ ih =>
      intro hv
      obtain ⟨a, b, c⟩ := rep_file h.1 h.2 (hv F (by simp))
      exact .cons ⟨a, b, c, h.2.nil_iff⟩ (ih fun X hX => hv X (by simp [hX]))
  have h2 := hf h (fun F hF => (hv.1 F hF).1)
  have hmf : M'.files.map FileL.mf = M.files.map FileL.mf := by
    clear h hr hv
    generalize M.files = fs at h2
    generalize M'.files = fs' at h2
    induction h2 with
    | nil => rfl
    | cons h _ ih => simp [ih, h.2.1]
  have hlast : ∀ {fs fs' : List FileL}, All2 (fun F F' : FileL => F'.Valid ∧ F'.mf = F.mf ∧ F'.mat = F.mat ∧ (F'.fends = [] ↔ F.fends = [])) fs fs' →
      ∀ F F', fs.getLast? = some F → fs'.getLast? = some F' → F'.mf = F.mf ∧ (F'.fends = [] ↔ F.fends = []) := by
    intro fs fs' h
    induction h with
    | nil => intro F F' h; simp at h
    | @cons a b as bs h h' ih =>
      intro F F' hF hF'
      cases h' with
      | nil => simp at hF hF'; subst hF hF'; exact ⟨h.2.1, h.2.2.2⟩
      | cons _ _ =>
        rw [List.getLast?_cons_cons] at hF hF'
        exact ih F F' hF hF'
  have hfirst : M'.first.mat = M.first.mat ∧ M'.first.mf = M.first.mf := by
    simp only [MatL.files] at h2
    cases h2 with
    | cons h _ => exact ⟨h.2.2.1, h.2.1⟩
  obtain ⟨l1, l2⟩ := hlast h2 M.last M'.last M.last_eq M'.last_eq
  refine ⟨⟨?_, by rw [hmf]; exact hv.2.1, hr.all⟩, hfirst.1, hfirst.2, l1, l2⟩
  intro F' hF'
  obtain ⟨F, hF, hr⟩ := h2.forall.2 F' hF'
  refine ⟨hr.1, ?_⟩
  rw [hr.2.2.1, show M'.mat = M.mat from hfirst.1]
  exact (hv.1 F hF).2

theorem rep_valid {L L' : TapeL} (hL : L.Valid) (h : RepeatedEnds L L') : L'.Valid := by
  obtain ⟨h1, h2, h3, h4⟩ := h
  refine ⟨by rw [h1, h2]; exact hL.1, ?_, ?_, by rw [h3]; exact hL.2.2.2⟩
  · intro M' hM'
    obtain ⟨M, hM, hr⟩ := h4.forall.2 M' hM'
    exact (rep_mat hr.1 hr.2 (hL.2.1 M hM)).1
  · have hv := hL.2.1
    have hc := hL.2.2.1
    generalize L.mats = ms at h4 hv hc
    generalize L'.mats = ms' at h4
    induction h4 with
    | nil => trivial
    | @cons M M' ms ms' h h' ih =>
      cases h' with
      | nil => trivial
      | @cons N N' _ _ hn _ =>
        refine ⟨?_, ih (fun X hX => hv X (by simp [hX])) hc.2⟩
        obtain ⟨m1, m2, m3, m4, m5⟩ := rep_mat h.1 h.2 (hv M (by simp))
        obtain ⟨n1, n2, n3, n4, n5⟩ := rep_mat hn.1 hn.2 (hv N (by simp))
        intro he
        obtain ⟨c1, c2⟩ := hc.1 (h.2.nil_iff.mp he)
        refine ⟨by rw [n2, m2]; exact c1, fun hl => ?_⟩
        rw [n3, m4]
        exact c2 (m5.mp hl)

/-- C04: repeating SEND, FEND and MEND records any number of times does not change the tree. -/
theorem C04_repeated_ends (L L' : TapeL) (hL : L.Valid) (h : RepeatedEnds L L') (rest rest' : Text) (line line' : Int) :
    ∃ t, TTape.ofBuffer (unlines L.lines ++ rest) line = .ok t ∧ TTape.ofBuffer (unlines L'.lines ++ rest') line' = .ok t := by
  refine same_tree hL (rep_valid hL h) ⟨h.1, h.2.1, ?_⟩ rest rest' line line'
  exact h.2.2.2.mono (fun M M' hm => hm.1.mono (fun F F' hf => hf.1.mono (fun S S' hs => ⟨hs.1, hs.2.1, hs.2.2.1⟩)))

/-- The same layout with some FEND and MEND records left out. -/
def OmittedEnds (L L' : TapeL) : Prop :=
  L'.tpid = L.tpid ∧ L'.ntape = L.ntape ∧ L'.tend = L.tend ∧
  All2 (fun M M' : MatL =>
    All2 (fun F F' : FileL => F'.first = F.first ∧ F'.others = F.others ∧ (F'.fends = F.fends ∨ F'.fends = [])) M.files M'.files ∧
    (M'.mends = M.mends ∨ M'.mends = [])) L.mats L'.mats

theorem omit_file {F F' : FileL} (h1 : F'.first = F.first) (h2 : F'.others = F.others) (h3 : F'.fends = F.fends ∨ F'.fends = []) (hv : F.Valid) :
    F'.Valid := by
  obtain ⟨a, b, c⟩ := F'
  obtain ⟨a', b', c'⟩ := F
  simp only at h1 h2 h3
  subst h1 h2
  refine ⟨hv.1, hv.2.1, ?_⟩
  rcases h3 with rfl | rfl
  · exact hv.2.2
  · simp

theorem omit_valid {L L' : TapeL} (hL : L.Valid) (h : OmittedEnds L L') (hc : Chained L'.mats) : L'.Valid := by
  obtain ⟨h1, h2, h3, h4⟩ := h
  refine ⟨by rw [h1, h2]; exact hL.1, ?_, hc, by rw [h3]; exact hL.2.2.2⟩
  intro M' hM'
  obtain ⟨M, hM, hr1, hr2⟩ := h4.forall.2 M' hM'
  have hv := hL.2.1 M hM
  have hmf : M'.files.map FileL.mf = M.files.map FileL.mf := by
    clear hv hM hM' hr2
    generalize M.files = fs at hr1
    generalize M'.files = fs' at hr1
    induction hr1 with
    | nil => rfl
    | cons h _ ih => simp [ih, FileL.mf, h.1]
  have hfirst : M'.mat = M.mat := by
    simp only [MatL.files] at hr1
    cases hr1 with
    | cons h _ => simp [MatL.mat, FileL.mat, h.1]
  refine ⟨?_, by rw [hmf]; exact hv.2.1, ?_⟩
  · intro F' hF'
    obtain ⟨F, hF, r1, r2, r3⟩ := hr1.forall.2 F' hF'
    obtain ⟨v1, v2⟩ := hv.1 F hF
    refine ⟨omit_file r1 r2 r3 v1, ?_⟩
    rw [hfirst, ← v2]
    simp [FileL.mat, r1]
  · rcases hr2 with h | h
    · rw [h]; exact hv.2.2
    · rw [h]; simp

theorem All2.refl {α : Type} {R : α → α → Prop} (h : ∀ a, R a a) (l : List α) : All2 R l l := by
  induction l with
  | nil => exact .nil
  | cons a l ih => exact .cons (h a) ih

/-- C05: leaving out FEND and MEND records does not change the tree, as long as the boundaries stay visible (`Chained L'.mats`: where the MEND is
    missing the next MAT differs, where FEND and MEND are missing the next MF differs as well.  Between the files of a material nothing
    needs to be required: their MF differ). -/
theorem C05_missing_ends (L L' : TapeL) (hL : L.Valid) (h : OmittedEnds L L') (hc : Chained L'.mats) (rest rest' : Text) (line line' : Int) :
    ∃ t, TTape.ofBuffer (unlines L.lines ++ rest) line = .ok t ∧ TTape.ofBuffer (unlines L'.lines ++ rest') line' = .ok t := by
  refine same_tree hL (omit_valid hL h hc) ⟨h.1, h.2.1, ?_⟩ rest rest' line line'
  refine h.2.2.2.mono (fun M M' hm => hm.1.mono (fun F F' hf => ?_))
  have : F'.secs = F.secs := by simp [FileL.secs, hf.1, hf.2.1]
  rw [this]
  exact All2.refl (fun S => ⟨rfl, rfl, rfl⟩) _

/-! ### duplicates -/

/-- C06: well formed materials, then the beginning of a material whose last file has no FEND yet, then a HEAD line with the MF of that file and an
    MT that is already there: rejected whatever follows. -/
theorem C06_duplicate_MT (tpid : Text) (ntape : Int) (ms : List MatL) (M : MatL) (h : DLine) (rest : Text) (line : Int)
    (htp : TextLine ⟨ntape, 0, 0⟩ tpid) (hms : ∀ m ∈ ms, m.Valid) (hM : M.Valid) (hch : Chained (ms ++ [M])) (hmends : M.mends = [])
    (hfends : M.last.fends = []) (hh : h.IsHead) (hmf : h.div.tail.mf = M.last.mf)
    (hmt : ∃ S ∈ M.last.secs, S.nums.mt = h.div.tail.mt) :
    TTape.ofBuffer (unlines (tpid :: ms.flatMap MatL.lines ++ M.lines ++ [h.text]) ++ rest) line = .error .exc := by
  have hat : At h.text (h.text ++ '\n' :: rest) rest := At.nl hh.1.1.1
  have hmt' : h.div.tail.mt ∈ M.last.secs.map (fun s => s.nums.mt) := by
    obtain ⟨S, h1, h2⟩ := hmt
    exact List.mem_map.mpr ⟨S, h1, h2⟩
  have hlines : M.lines = M.files.flatMap FileL.lines := by simp [MatL.lines, hmends]
  obtain ⟨x, hx⟩ : ∃ x, M.files.flatMap FileL.lines = M.head.text :: x :=
    ⟨_, by simp [MatL.files, MatL.head, FileL.head, FileL.lines, FileL.secs, SecL.lines, SecL.core]; rfl⟩
  have := readTTape_error htp hms hM hch (g := unlines (M.files.flatMap FileL.lines) ++ (h.text ++ '\n' :: rest))
    (r := unlines x ++ (h.text ++ '\n' :: rest)) (by
      rw [hx, unlines_cons, List.append_assoc, List.cons_append]
      exact At.nl hM.isHead.1.1.1)
    (fun n => readTMaterial_dupMT hM hh hfends hmf hmt' hat _) line
  have e : unlines (tpid :: ms.flatMap MatL.lines ++ M.lines ++ [h.text]) ++ rest =
      tpid ++ '\n' :: (unlines (ms.flatMap MatL.lines) ++ (unlines (M.files.flatMap FileL.lines) ++ (h.text ++ '\n' :: rest))) := by
    rw [hlines]; simp
  rw [e, TTape.ofBuffer, this]

/-- C06: well formed materials, then the beginning of a material without MEND yet, then a HEAD line of that material with an MF that is
    already there (and that begins a new file): rejected whatever follows. -/
theorem C06_duplicate_MF (tpid : Text) (ntape : Int) (ms : List MatL) (M : MatL) (h : DLine) (rest : Text) (line : Int)
    (htp : TextLine ⟨ntape, 0, 0⟩ tpid) (hms : ∀ m ∈ ms, m.Valid) (hM : M.Valid) (hch : Chained (ms ++ [M])) (hmends : M.mends = [])
    (hh : h.IsHead) (hnew : M.last.fends = [] → h.div.tail.mf ≠ M.last.mf) (hmat : h.div.tail.mat = M.mat)
    (hmf : ∃ F ∈ M.files, F.mf = h.div.tail.mf) :
    TTape.ofBuffer (unlines (tpid :: ms.flatMap MatL.lines ++ M.lines ++ [h.text]) ++ rest) line = .error .exc := by
  have hat : At h.text (h.text ++ '\n' :: rest) rest := At.nl hh.1.1.1
  have hmf' : h.div.tail.mf ∈ M.files.map FileL.mf := by
    obtain ⟨S, h1, h2⟩ := hmf
    exact List.mem_map.mpr ⟨S, h1, h2⟩
  have hlines : M.lines = M.files.flatMap FileL.lines := by simp [MatL.lines, hmends]
  obtain ⟨x, hx⟩ : ∃ x, M.files.flatMap FileL.lines = M.head.text :: x :=
    ⟨_, by simp [MatL.files, MatL.head, FileL.head, FileL.lines, FileL.secs, SecL.lines, SecL.core]; rfl⟩
  have := readTTape_error htp hms hM hch (g := unlines (M.files.flatMap FileL.lines) ++ (h.text ++ '\n' :: rest))
    (r := unlines x ++ (h.text ++ '\n' :: rest)) (by
      rw [hx, unlines_cons, List.append_assoc, List.cons_append]
      exact At.nl hM.isHead.1.1.1)
    (fun n => readTMaterial_dupMF hM hh hnew hmat hmf' hat _) line
  have e : unlines (tpid :: ms.flatMap MatL.lines ++ M.lines ++ [h.text]) ++ rest =
      tpid ++ '\n' :: (unlines (ms.flatMap MatL.lines) ++ (unlines (M.files.flatMap FileL.lines) ++ (h.text ++ '\n' :: rest))) := by
    rw [hlines]; simp
  rw [e, TTape.ofBuffer, this]

/-! ### truncated buffers -/

/-- C07: a beginning `p` of the text of a well formed tape that does not reach the end of the TEND line - its newline, or its 80th column
    if it has so many - is rejected. -/
theorem C07_truncated (L : TapeL) (hL : L.Valid) (rest p q : Text) (hpq : p ++ q = unlines L.lines ++ rest) (line : Int)
    (hcut : p.length < (unlines (L.tpid :: L.mats.flatMap MatL.lines)).length + min 80 (L.tend.text.length + 1)) :
    TTape.ofBuffer p line = .error .exc := by
  rcases C03_total p line with ⟨t, h⟩ | h
  · exfalso
    obtain ⟨s, hs⟩ := run_of_ofBuffer h
    have hpq' : p ++ q = L.front ++ (L.tend.text ++ '\n' :: rest) := by
      rw [hpq]; simp [TapeL.lines, TapeL.front]
    have hcut' : p.length < L.front.length + min 80 (L.tend.text.length + 1) := hcut
    rcases prefix_accepted hL (At.nl hL.2.2.2.1.1.1) hpq' hs with hp | ⟨h80, hp⟩
    · have := hp.length_le
      simp only [List.length_append, List.length_cons, List.length_nil] at this
      omega
    · have := hp.length_le
      simp only [List.length_append, List.length_take] at this
      omega
  · exact h

/-- C07: every accepted buffer contains a TEND record. -/
theorem C07_no_tend (b : Text) (line : Int) (t : TTape) (h : TTape.ofBuffer b line = .ok t) :
    ∃ (l : DLine) (x y : Text), l.IsTend ∧ b = x ++ '\n' :: l.text ++ y := by
  obtain ⟨L, g, rest, h1, h2, h3, _⟩ := C02_nothing_lost b line t h
  obtain ⟨x, hx⟩ := unlines_ends L.tpid (L.mats.flatMap MatL.lines)
  rw [hx] at h2
  rcases h3 with h3 | ⟨h3, _⟩
  · exact ⟨L.tend, x, '\n' :: rest, h1.2.2.2, by rw [h2, h3]; simp⟩
  · exact ⟨L.tend, x, [], h1.2.2.2, by rw [h2, h3]; simp⟩

/-! ### keys -/

/-- C08, except for the MAT number of sections (the file constructor does not compare it: `C08_section_mat_differs`): what is found under
    (MAT, MF, MT) reports these numbers. -/
theorem C08_keys_partial (b : Text) (line : Int) (t : TTape) (h : TTape.ofBuffer b line = .ok t) (mat : Int) (ms : List TMaterial)
    (hms : t.material mat = .ok ms) : ∀ m ∈ ms, m.mat = mat ∧
      ∀ mf f, m.file mf = .ok f → f.mat = mat ∧ f.mf = mf ∧ ∀ mt s, f.section' mt = .ok s → s.mf = mf ∧ s.mt = mt := by
  obtain ⟨s, hs⟩ := run_of_ofBuffer h
  have := readTTape_inv ⟨b, line⟩
  rw [hs] at this
  obtain ⟨L, g, v1, v2, v3, v4⟩ := this
  simp only at v4
  obtain ⟨b1, b2⟩ := SMap.buildMulti MatL.mat MatL.tree L.mats
  have b2' : ∀ k, SMap.getAll L.tree.materials k = (L.mats.filter (fun M => M.mat == k)).map MatL.tree := b2
  rw [v4, TTape.material_eq, b2'] at hms
  split at hms
  · cases hms
  cases hms
  intro m hm
  obtain ⟨M, hM, rfl⟩ := List.mem_map.mp hm
  obtain ⟨hM1, hM2⟩ := List.mem_filter.mp hM
  have hmat : M.mat = mat := by simpa using hM2
  have hMv := v1.2.1 M hM1
  refine ⟨hmat, ?_⟩
  intro mf f hf
  obtain ⟨F, hF, rfl, rfl⟩ := ((SMap.build FileL.mf FileL.tree hMv.2.1).2 _ _).mp (SMap.at'_ok.mp hf)
  obtain ⟨hF1, hF2⟩ := hMv.1 F hF
  refine ⟨by rw [← hmat, ← hF2]; rfl, rfl, ?_⟩
  intro mt sec hsec
  obtain ⟨S, hS, rfl, rfl⟩ := ((SMap.build (fun S : SecL => S.nums.mt) SecL.tree hF1.2.1).2 _ _).mp (SMap.at'_ok.mp hsec)
  exact ⟨(hF1.1 S hS).2, rfl⟩

/-- C08 including the MAT number, for tapes whose HEAD lines carry the MAT of their file. -/
theorem C08_keys_consistent_heads (L : TapeL) (hL : L.Valid) (hheads : ∀ M ∈ L.mats, ∀ F ∈ M.files, ∀ S ∈ F.secs, S.nums.mat = M.mat)
    (rest : Text) (line : Int) :
    ∃ t, TTape.ofBuffer (unlines L.lines ++ rest) line = .ok t ∧ ∀ mat ms, t.material mat = .ok ms → ∀ m ∈ ms, m.mat = mat ∧
      ∀ mf f, m.file mf = .ok f → f.mat = mat ∧ f.mf = mf ∧ ∀ mt s, f.section' mt = .ok s → s.mat = mat ∧ s.mf = mf ∧ s.mt = mt := by
  obtain ⟨m, hm⟩ := readTTape_run hL (At.nl hL.2.2.2.1.1.1 (r := rest)) line
  rw [TapeL.textWith_eq] at hm
  have ht : TTape.ofBuffer (unlines L.lines ++ rest) line = .ok L.tree := by
    rw [← ofBuffer_of_run hm]
    simp [TapeL.lines, TapeL.front]
  refine ⟨L.tree, ht, ?_⟩
  intro mat ms hms m' hm'
  obtain ⟨k1, k2⟩ := C08_keys_partial _ _ _ ht mat ms hms m' hm'
  refine ⟨k1, fun mf f hf => ?_⟩
  obtain ⟨k3, k4, k5⟩ := k2 mf f hf
  refine ⟨k3, k4, fun mt s hs => ?_⟩
  refine ⟨?_, k5 mt s hs⟩
  obtain ⟨b1, b2⟩ := SMap.buildMulti MatL.mat MatL.tree L.mats
  have b2' : ∀ k, SMap.getAll L.tree.materials k = (L.mats.filter (fun M => M.mat == k)).map MatL.tree := b2
  rw [TTape.material_eq, b2'] at hms
  split at hms
  · cases hms
  cases hms
  obtain ⟨M, hM, rfl⟩ := List.mem_map.mp hm'
  obtain ⟨hM1, hM2⟩ := List.mem_filter.mp hM
  have hMv := hL.2.1 M hM1
  obtain ⟨F, hF, rfl, rfl⟩ := ((SMap.build FileL.mf FileL.tree hMv.2.1).2 _ _).mp (SMap.at'_ok.mp hf)
  obtain ⟨S, hS, rfl, rfl⟩ := ((SMap.build (fun S : SecL => S.nums.mt) SecL.tree (hMv.1 F hF).1.2.1).2 _ _).mp (SMap.at'_ok.mp hs)
  have := hheads M hM1 F hF S hS
  rw [← k1]
  exact this

end ENDFtk.Props

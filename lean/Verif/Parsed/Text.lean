import Verif.Parsed.Spec
/-
  Reading a parsed file, material or tape succeeds exactly on the texts described in Parsed/Spec.lean.
-/
set_option linter.unusedVariables false
set_option linter.unusedSectionVars false
set_option linter.unusedSimpArgs false
namespace ENDFtk
variable [Disco] [CorrOps]

theorem readsAs_cons {α : Type} {E : Prop} {item : Division → Parser α} {x : α} {l : Text} {rest : List Text} {d : Division} (hd : DivLine d l)
    (hn : ∀ m ∈ rest, '\n' ∉ m) [hL : LocalW (item d)] : ReadsAs E (do let d ← readDivision; item d) x (l :: rest) ↔ ∃ k : Nat, (E → k = rest.length) ∧ Rd (item d) (unlines rest) x k := by
  constructor
  · rintro ⟨_, k, hk, h⟩
    have key : ∀ r n, item d ⟨unlines rest ++ r, n⟩ = .ok (x, ⟨r, n - 1 + (k : Int)⟩) := by
      intro r n
      have := h r (n - 1)
      simp only [unlines_cons, List.append_assoc, List.cons_append] at this
      rw [Parser.bind_ok (readDivision_run hd _ _)] at this
      rw [show n - 1 + 1 = n by omega] at this
      exact this
    cases k with
    | zero =>
      have h0 := key [] 0
      obtain ⟨_, j, _, h1, _⟩ := hL.run h0
      simp only at h1
      omega
    | succ k =>
      refine ⟨k, fun hE => by have := hk hE; simp at this; omega, fun r n => ?_⟩
      rw [key]
      congr 3; push_cast; omega
  · rintro ⟨k, hk, h⟩
    refine ⟨by simp only [List.mem_cons, forall_eq_or_imp]; exact ⟨hd.1.1, hn⟩, k + 1, fun hE => by rw [hk hE]; simp, fun r n => ?_⟩
    simp only [unlines_cons, List.append_assoc, List.cons_append]
    rw [Parser.bind_ok (readDivision_run hd _ _), h]
    congr 3; push_cast; omega

theorem ReadsAs.run {α : Type} {E : Prop} {p : Parser α} {a : α} {ls : List Text} (h : ReadsAs E p a ls) (r : Text) (n : Int) :
    ∃ k : Nat, p ⟨unlines ls ++ r, n⟩ = .ok (a, ⟨r, n + (k : Int)⟩) := by
  obtain ⟨_, k, _, h⟩ := h
  exact ⟨k, h r n⟩

theorem Rd.inj {α : Type} {p : Parser α} {t : Text} {a b : α} {k k' : Nat} (h : Rd p t a k) (h' : Rd p t b k') : a = b := by
  have h1 := h [] 0
  rw [h' [] 0] at h1
  simp at h1
  exact h1.1.symm

/-! ### sections -/

theorem readAny_rd {mf : Int} {d : Division} {t : Text} {x : AnySection} {k : Nat} :
    Rd (readAny mf d) t x k ↔ sectionType? mf d.tail.mt = some x.1 ∧ Rd (x.1.defn.readSect d d.tail.mat) t x.2 k := by
  unfold readAny
  cases hT : sectionType? mf d.tail.mt with
  | none => constructor
            · intro h; have := h [] 0; cases this
            · rintro ⟨h, _⟩; cases h
  | some T =>
    simp only [Option.some.injEq]
    constructor
    · intro h
      have h0 : ∀ r n, ∃ y, T.defn.readSect d d.tail.mat ⟨t ++ r, n⟩ = .ok (y, ⟨r, n + (k : Int)⟩) ∧ (⟨T, y⟩ : AnySection) = x := by
        intro r n
        have := h r n
        obtain ⟨y, s1, h1, h2⟩ := Parser.bind_eq_ok.mp this
        simp only [Parser.pure_run, Except.ok.injEq, Prod.mk.injEq] at h2
        obtain ⟨h2, rfl⟩ := h2
        exact ⟨y, h1, h2⟩
      obtain ⟨y, _, rfl⟩ := h0 [] 0
      refine ⟨rfl, fun r n => ?_⟩
      obtain ⟨z, h1, h2⟩ := h0 r n
      cases h2
      exact h1
    · rintro ⟨rfl, h⟩
      obtain ⟨T, x⟩ := x
      exact Rd.bindPure h rfl

/-- The MT number of a section that was read is that of its HEAD line. -/
theorem readSect_mt_std {T : SectionType} {mf : Int} {d : Division} {l : Text} (hd : DivLine d l) (hT : sectionType? mf d.tail.mt = some (.std T)) {mat : Int} {s s' : St}
    {x : Sect T.Data} (h : T.defn.readSect d mat s = .ok (x, s')) : x.mt = d.tail.mt ∧ 1 ≤ x.mt ∧ T.defn.WellFormed x ∧ (T ≠ .mf2mt151 → T.defn.ValidSect x) := by
  obtain ⟨ls, _, _, h1, h2, _, _, _, _, h3, _⟩ :=
    (readSect_reads T.lawUb d (showsCont_fits hd.2.1) (fits_of_parse (cols_length 73 75 l) hd.1.2.1.2.2) mat).ok h
  refine ⟨?_, mt_pos T.lawUb h1, h1, fun hne => h2 (by cases T <;> first | rfl | exact absurd rfl hne)⟩
  rw [h3, SecDef.mtOf]
  cases hf : T.defn.fixedMT with
  | none => rfl
  | some m => exact ((sectionType?_iff.mp hT).2 m hf).symm

theorem readSect_mt {T : SecType} {mf : Int} {d : Division} {l : Text} (hd : DivLine d l) (hT : sectionType? mf d.tail.mt = some T) {mat : Int} {s s' : St}
    {x : Sect T.Data} (h : T.defn.readSect d mat s = .ok (x, s')) : x.mt = d.tail.mt ∧ 1 ≤ x.mt := by
  cases T with
  | std T =>
    have := readSect_mt_std hd hT h
    exact ⟨this.1, this.2.1⟩
  | cov =>
    have h1 := ResCov.readSect_reads d mat s
    rw [show mf32mt151.readSect d mat s = .ok (x, s') from h] at h1
    have h2 : x.mt = 151 := h1.1.2.2.2.1
    have h3 : d.tail.mt = 151 := (sectionType?_iff.mp hT).2 151 rfl
    omega

theorem itemText_section {mf : Int} {x : AnySection} {b : List Text} : ItemText (fun _ => mf ≠ 32) Division.isFend (readAny mf) x b ↔ SectionText mf x b := by
  constructor
  · rintro ⟨l, rest, d, rfl, h1, h2, h3, k, hk, h4⟩
    obtain ⟨h5, h6⟩ := readAny_rd.mp h4
    exact ⟨⟨d.tail, ⟨l, rest, d, rfl, h2, rfl⟩, h5⟩, (readsAs_cons (item := fun d => x.1.defn.readSect d d.tail.mat) h2 h1).mpr ⟨k, hk, h6⟩⟩
  · rintro ⟨⟨t, ⟨l, rest, d, rfl, h2, rfl⟩, h5⟩, h6⟩
    have hn : ∀ m ∈ rest, '\n' ∉ m := fun m hm => h6.1 m (by simp [hm])
    obtain ⟨k, hk, h7⟩ := (readsAs_cons (item := fun d => x.1.defn.readSect d d.tail.mat) h2 hn).mp h6
    refine ⟨l, rest, d, rfl, hn, h2, ?_, k, hk, readAny_rd.mpr ⟨h5, h7⟩⟩
    have := readSect_mt h2 h5 (h7 [] 0)
    simp [Division.isFend, Division.isFendPermissive, Division.isSendPermissive]
    intro _ h; omega

theorem All2.congr {α β : Type} {R R' : α → β → Prop} (h : ∀ a b, R a b ↔ R' a b) {as : List α} {bs : List β} : All2 R as bs ↔ All2 R' as bs :=
  ⟨All2.mono fun a b => (h a b).mp, All2.mono fun a b => (h a b).mpr⟩

/-! ### files -/

theorem readPFile_mf {mf : Int} {d : Division} {s s' : St} {f : PFile} (h : readPFile mf d s = .ok (f, s')) : f.mf = mf := by
  unfold readPFile at h
  split at h
  · rename_i h30
    split at h
    · obtain ⟨_, _, _, h⟩ := Parser.bind_eq_ok.mp h
      obtain ⟨_, _, _, h⟩ := Parser.bind_eq_ok.mp h
      cases h; exact h30.symm
    · cases h; exact h30.symm
  split at h
  · rename_i h8
    have h := Parser.mapErr_ok.mp h
    obtain ⟨_, _, _, h⟩ := Parser.bind_eq_ok.mp h
    obtain ⟨_, _, _, h⟩ := Parser.bind_eq_ok.mp h
    obtain ⟨_, _, _, h⟩ := Parser.bind_eq_ok.mp h
    cases h; exact h8.1.symm
  · have h := Parser.mapErr_ok.mp h
    obtain ⟨_, _, _, h⟩ := Parser.bind_eq_ok.mp h
    obtain ⟨_, _, _, h⟩ := Parser.bind_eq_ok.mp h
    obtain ⟨_, _, _, h⟩ := Parser.bind_eq_ok.mp h
    cases h; rfl

/-- The first line of the file makes file::Type< 8 > read sections rather than skip them. -/
def Plain8 (mf mt : Int) : Prop := mf = 8 → mt = 454 ∨ mt = 457 ∨ mt = 459

theorem readFileFrom_local (mf : Int) : LocalP PFile.NoCov (readFileFrom mf) := by
  unfold readFileFrom
  exact LocalP.bind (P := fun _ => True) (LocalP.ofLocal inferInstance _) (fun d => readPFile_local mf d) (fun _ _ _ _ _ _ => trivial)
theorem readMaterialFrom_local : LocalP PMaterial.NoCov readMaterialFrom := by
  unfold readMaterialFrom
  exact LocalP.bind (P := fun _ => True) (LocalP.ofLocal inferInstance _) (fun d => readPMaterial_local d) (fun _ _ _ _ _ _ => trivial)
instance (mf : Int) : LocalW (readFileFrom mf) := (readFileFrom_local mf).toW
instance : LocalW readMaterialFrom := readMaterialFrom_local.toW

/-- The files of a material are those it was made of. -/
theorem PMaterial.make_mem {mat : Int} {fs : List PFile} {m : PMaterial} (h : PMaterial.make mat fs = .ok m) {f : PFile} : f ∈ m.files' ↔ f ∈ fs := by
  unfold PMaterial.make at h
  cases hm : fillMap PFile.mf fs [] with
  | error e => simp [hm] at h
  | ok mm =>
    simp only [hm, Except.ok.injEq] at h
    subst h
    constructor
    · intro hf
      obtain ⟨e, he, rfl⟩ := List.mem_map.mp hf
      exact (fillMap_entry hm he).2
    · intro hf
      exact List.mem_map.mpr ⟨_, (fillMap_ok hm).2.2.symm.subset (List.mem_map.mpr ⟨f, hf, rfl⟩), rfl⟩

theorem PTape.make_eq {id : Tpid} {ms : List PMaterial} {t : PTape} (h : PTape.make id ms = .ok t) : t = ⟨id, ms⟩ := by
  unfold PTape.make at h
  split at h
  · cases h
  · exact (Except.ok.inj h).symm

theorem readFile_inv {mf : Int} (h30 : mf ≠ 30) {d : Division} {l : Text} (hd : DivLine d l) (h8 : Plain8 mf d.tail.mt) {s s' : St} {f : PFile}
    (h : readPFile mf d s = .ok (f, s')) : ∃ xs rest, Lines rest s.rest s'.rest ∧ FileText mf xs (l :: rest) ∧ PFile.make mf xs = .ok f := by
  unfold readPFile at h
  rw [if_neg h30, if_neg (by rintro ⟨h1, h2⟩; exact h2 (h8 h1))] at h
  have h := Parser.mapErr_ok.mp h
  obtain ⟨_, _, h1, h⟩ := Parser.bind_eq_ok.mp h
  cases h1
  obtain ⟨xs, s1, h1, h⟩ := Parser.bind_eq_ok.mp h
  obtain ⟨m, s2, h2, h⟩ := Parser.bind_eq_ok.mp h
  simp only [Parser.pure_run, Except.ok.injEq, Prod.mk.injEq] at h
  obtain ⟨rfl, rfl⟩ := h
  rw [readSections_eq] at h1
  obtain ⟨rest, k, bs, e, de, a1, _, _, a3, a4, a5, a6⟩ := itemLoop_run (readAny_local mf) h1 hd
  cases hm : fillMap AnySection.mt xs [] with
  | error e => rw [hm] at h2; cases h2
  | ok m' =>
    rw [hm] at h2
    simp only [liftE, Except.ok.injEq, Prod.mk.injEq] at h2
    obtain ⟨rfl, rfl⟩ := h2
    refine ⟨xs, rest, a1, ⟨bs, ⟨e, de⟩, a3, (All2.congr fun x b => itemText_section).mp a6, DLine.isFend_iff.mpr ⟨a4, a5⟩⟩, ?_⟩
    simp [PFile.make, hm]

theorem fileText_first {mf : Int} {xs : List AnySection} {ls : List Text} (h : FileText mf xs ls) :
    ∃ l rest d, ls = l :: rest ∧ DivLine d l ∧ (∀ m ∈ rest, '\n' ∉ m) ∧ ((∃ x ys, xs = x :: ys ∧ sectionType? mf d.tail.mt = some x.1) ∨ (xs = [] ∧ d.isFend = true)) := by
  obtain ⟨bs, fend, rfl, h2, h3⟩ := h
  have hf := DLine.isFend_iff.mp h3
  cases h2 with
  | nil => exact ⟨fend.text, [], fend.div, rfl, hf.1, by simp, .inr ⟨rfl, hf.2⟩⟩
  | cons hx hxs =>
    rename_i x b xs bs
    obtain ⟨⟨t, ⟨l, rest, d, rfl, k2, rfl⟩, k3⟩, k4⟩ := hx
    refine ⟨l, rest ++ (bs.flatten ++ [fend.text]), d, by simp, k2, ?_, .inl ⟨x, xs, rfl, k3⟩⟩
    intro m hm
    simp only [List.mem_append, List.mem_singleton] at hm
    rcases hm with hm | hm | rfl
    · exact k4.1 m (by simp [hm])
    · obtain ⟨b, hb, hm⟩ := List.mem_flatten.mp hm
      obtain ⟨y, _, hy⟩ := hxs.forall.2 b hb
      exact hy.2.1 m hm
    · exact hf.1.1.1

theorem sectionType?_8 {mt : Int} {T : SecType} (h : sectionType? 8 mt = some T) : mt = 454 ∨ mt = 457 ∨ mt = 459 := by
  have := sectionType?_iff.mp h
  obtain ⟨h1, h2⟩ := this
  rw [show T.defn.fixedMT = T.nums.2 by rw [T.nums_eq]] at h2
  rw [show T.defn.mf = T.nums.1 by rw [T.nums_eq]] at h1
  cases T with
  | std T => cases T <;> simp_all [SecType.nums, SectionType.nums]
  | cov => simp [SecType.nums] at h1

/-- A file is read from such a text as the constructor makes it of the sections; it throws if the constructor does. -/
theorem readFile_run {mf : Int} (h30 : mf ≠ 30) {xs : List AnySection} {ls : List Text} (h : FileText mf xs ls) :
    ∃ k : Nat, (mf ≠ 32 → k = ls.length) ∧ ∀ r n, readFileFrom mf ⟨unlines ls ++ r, n⟩ = match PFile.make mf xs with
      | .ok f => .ok (f, ⟨r, n + (k : Int)⟩)
      | .error e => .error (catchStd e) := by
  obtain ⟨l, rest, d, rfl, hd, hn, hx⟩ := fileText_first h
  have key : ∃ k : Nat, (mf ≠ 32 → k = rest.length) ∧ ∀ r n, readPFile mf d ⟨unlines rest ++ r, n + 1⟩ = match fillMap AnySection.mt xs [] with
      | .ok m => .ok (⟨mf, m⟩, ⟨r, n + 1 + (k : Int)⟩)
      | .error e => .error (catchStd e) := ?key
  · obtain ⟨k, hk, key⟩ := key
    refine ⟨k + 1, fun h => by rw [hk h]; simp, fun r n => ?_⟩
    unfold readFileFrom
    simp only [unlines_cons, List.append_assoc, List.cons_append]
    rw [Parser.bind_ok (readDivision_run hd _ _), key, PFile.make]
    cases fillMap AnySection.mt xs [] with
    | error e => rfl
    | ok m => simp; omega
  unfold readPFile
  simp only [if_neg h30]
  split
  · rename_i h8
    obtain ⟨rfl, h8⟩ := h8
    rcases hx with ⟨x, ys, rfl, ht⟩ | ⟨rfl, hd2⟩
    · exact absurd (sectionType?_8 ht) h8
    · obtain ⟨bs, fend, e1, e2, e3⟩ := h
      cases e2
      simp at e1
      obtain ⟨rfl, rfl⟩ := e1
      have h0 : d.tail.mf = 0 := by
        simp only [Division.isFend, Division.isFendPermissive, Bool.and_eq_true, beq_iff_eq] at hd2
        exact hd2.1.2
      refine ⟨0, by simp, fun r n => ?_⟩
      simp only [Parser.mapErr, Parser.bind_run, Parser.get_run]
      rw [skipFile8_succ, if_neg (by omega)]
      simp only [Parser.pure_run, verifyFEND, hd2, liftE, fillMap]
      simp [hd2]
  · obtain ⟨bs, fend, e1, e2, e3⟩ := h
    have hf' := DLine.isFend_iff.mp e3
    simp only [readSections_eq, Parser.mapErr]
    obtain ⟨k, hk, hrd⟩ := itemLoop_rd (item := readAny mf) hf'.1 hf'.2 ((All2.congr fun x b => itemText_section).mpr e2) e1 hd
    refine ⟨k, fun hm => hk fun _ _ => hm, fun r n => ?_⟩
    rw [get_bind_assoc (fun s => itemLoop Division.isFend (readAny mf) (s.rest.length + 1) d)]
    have hlen : xs.length < (unlines rest ++ r).length + 1 := by
      have h1 : xs.length ≤ rest.length := by
        have hb := e2.length
        have : bs.length ≤ bs.flatten.length := by
          have hne : ∀ b ∈ bs, b ≠ [] := by
            intro b hb
            obtain ⟨x, _, ⟨⟨t, ⟨l, rest, d, rfl, _⟩, _⟩, _⟩⟩ := e2.forall.2 b hb
            simp
          clear e2 hb e1
          induction bs with
          | nil => simp
          | cons b bs ih =>
            have h1 : 0 < b.length := List.length_pos_iff.mpr (hne b (by simp))
            have h2 := ih (fun c hc => hne c (by simp [hc]))
            simp at h2 ⊢; omega
        have h3 : rest.length + 1 = bs.flatten.length + 1 := by
          have := congrArg List.length e1
          simpa using this
        omega
      have h2 := length_le_unlines rest
      rw [List.length_append]; omega
    rw [Parser.bind_ok (s' := ⟨r, n + 1 + (k : Int)⟩) (a := xs) (by exact hrd hlen r (n + 1))]
    cases fillMap AnySection.mt xs [] with
    | error e => rfl
    | ok m => rfl

theorem fileText_nl {mf : Int} {xs : List AnySection} {ls : List Text} (h : FileText mf xs ls) : ∀ l ∈ ls, '\n' ∉ l := by
  obtain ⟨l, rest, d, rfl, hd, hn, hx⟩ := fileText_first h
  simp only [List.mem_cons, forall_eq_or_imp]
  exact ⟨hd.1.1, hn⟩

theorem readFile_rd {mf : Int} (h30 : mf ≠ 30) {xs : List AnySection} {ls : List Text} {f : PFile} (h : FileText mf xs ls) (hm : PFile.make mf xs = .ok f) :
    ReadsAs (mf ≠ 32) (readFileFrom mf) f ls := by
  obtain ⟨k, hk, hr⟩ := readFile_run h30 h
  exact ⟨fileText_nl h, k, hk, fun r n => by rw [hr, hm]⟩

/-! ### materials -/

theorem itemText_file {f : PFile} {b : List Text} : ItemText PFile.NoCov Division.isMend fileItem f b ↔ FileBlock f b := by
  constructor
  · rintro ⟨l, rest, d, rfl, h1, h2, h3, k, hk, h4⟩
    have h40 := h4 [] 0
    unfold fileItem at h4 h40
    split at h4
    · rename_i hi
      rw [if_pos hi] at h40
      have := readPFile_mf h40
      exact ⟨⟨d.tail, ⟨l, rest, d, rfl, h2, rfl⟩, this.symm, hi⟩, (readsAs_cons h2 h1).mpr ⟨k, hk, this ▸ h4⟩⟩
    · rename_i hi
      rw [if_neg hi] at h40; cases h40
  · rintro ⟨⟨t, ⟨l, rest, d, rfl, h2, rfl⟩, h5, h6⟩, h7⟩
    have hn : ∀ m ∈ rest, '\n' ∉ m := fun m hm => h7.1 m (by simp [hm])
    obtain ⟨k, hk, h8⟩ := (readsAs_cons h2 hn).mp h7
    refine ⟨l, rest, d, rfl, hn, h2, ?_, k, hk, ?_⟩
    · cases hb : d.isMend with
      | false => rfl
      | true =>
        have : d.tail.mf = 0 := by
          simp only [Division.isMend, Division.isFendPermissive, Bool.and_eq_true, beq_iff_eq] at hb
          exact hb.1.2
        rw [KnownMF, this] at h6
        simp [implementedMF] at h6
    · unfold fileItem
      rw [if_pos (show implementedMF d.tail.mf = true from h6), h5]; exact h8

theorem readMaterial_inv {d : Division} {l : Text} (hd : DivLine d l) {s s' : St} {m : PMaterial} (h : readPMaterial d s = .ok (m, s')) :
    ∃ fs rest, Lines rest s.rest s'.rest ∧ MaterialText fs (l :: rest) ∧ PMaterial.make d.tail.mat fs = .ok m := by
  have h := Parser.mapErr_ok.mp h
  obtain ⟨_, _, h1, h⟩ := Parser.bind_eq_ok.mp h
  cases h1
  obtain ⟨xs, s1, h1, h⟩ := Parser.bind_eq_ok.mp h
  obtain ⟨m, s2, h2, h⟩ := Parser.bind_eq_ok.mp h
  simp only [Parser.pure_run, Except.ok.injEq, Prod.mk.injEq] at h
  obtain ⟨rfl, rfl⟩ := h
  rw [readFiles_eq] at h1
  obtain ⟨rest, k, bs, e, de, a1, _, _, a3, a4, a5, a6⟩ := itemLoop_run fileItem_local h1 hd
  cases hm : fillMap PFile.mf xs [] with
  | error e => rw [hm] at h2; cases h2
  | ok m' =>
    rw [hm] at h2
    simp only [liftE, Except.ok.injEq, Prod.mk.injEq] at h2
    obtain ⟨rfl, rfl⟩ := h2
    refine ⟨xs, rest, a1, ⟨bs, ⟨e, de⟩, a3, (All2.congr fun x b => itemText_file).mp a6, DLine.isMend_iff.mpr ⟨a4, a5⟩⟩, ?_⟩
    simp [PMaterial.make, hm]

/-- Items one after the other, of which the first line is known. -/
theorem blocks_first {α : Type} {R : α → List Text → Prop} (hR : ∀ x b, R x b → ∃ l rest d, b = l :: rest ∧ DivLine d l ∧ ∀ m ∈ rest, '\n' ∉ m)
    {xs : List α} {bs : List (List Text)} (h : All2 R xs bs) {e : Text} {de : Division} (he : DivLine de e) :
    (∃ l rest d, bs.flatten ++ [e] = l :: rest ∧ DivLine d l ∧ ∀ m ∈ rest, '\n' ∉ m) ∧ xs.length ≤ bs.flatten.length := by
  induction h with
  | nil => exact ⟨⟨e, [], de, rfl, he, by simp⟩, by simp⟩
  | cons hx hxs ih =>
    rename_i x b xs bs
    obtain ⟨l, rest, d, rfl, h1, h2⟩ := hR _ _ hx
    obtain ⟨⟨l', rest', d', e1, e2, e3⟩, e4⟩ := ih
    refine ⟨⟨l, rest ++ (bs.flatten ++ [e]), d, by simp, h1, ?_⟩, by simp at e4 ⊢; omega⟩
    intro m hm
    rw [e1] at hm
    simp only [List.mem_append, List.mem_cons] at hm
    rcases hm with hm | rfl | hm
    · exact h2 m hm
    · exact e2.1.1
    · exact e3 m hm

theorem fileBlock_first {f : PFile} {b : List Text} (h : FileBlock f b) : ∃ l rest d, b = l :: rest ∧ DivLine d l ∧ ∀ m ∈ rest, '\n' ∉ m := by
  obtain ⟨⟨t, ⟨l, rest, d, rfl, h1, _⟩, _⟩, h2⟩ := h
  exact ⟨l, rest, d, rfl, h1, fun m hm => h2.1 m (by simp [hm])⟩

theorem materialText_nl {fs : List PFile} {ls : List Text} (h : MaterialText fs ls) : ∀ l ∈ ls, '\n' ∉ l := by
  obtain ⟨bs, mend, rfl, h2, h3⟩ := h
  obtain ⟨⟨l, rest, d, e1, hd, hn⟩, hlen⟩ := blocks_first (fun x b => fileBlock_first) h2 (DLine.isMend_iff.mp h3).1
  rw [e1]
  simp only [List.mem_cons, forall_eq_or_imp]
  exact ⟨hd.1.1, hn⟩

/-- A material is read from such a text as the constructor makes it of the files; it throws if the constructor does. -/
theorem readMaterial_run {fs : List PFile} {ls : List Text} {t : Nums} (h : MaterialText fs ls) (ht : StartsWith ls t) :
    ∃ k : Nat, ((∀ f ∈ fs, f.NoCov) → k = ls.length) ∧ ∀ r n, readMaterialFrom ⟨unlines ls ++ r, n⟩ = match PMaterial.make t.mat fs with
      | .ok m => .ok (m, ⟨r, n + (k : Int)⟩)
      | .error e => .error (catchStd e) := by
  obtain ⟨bs, mend, rfl, h2, h3⟩ := h
  have hf' := DLine.isMend_iff.mp h3
  obtain ⟨⟨l, rest, d, e1, hd, hn⟩, hlen⟩ := blocks_first (fun x b => fileBlock_first) h2 hf'.1
  obtain ⟨l', rest', d', e2, hd', rfl⟩ := ht
  rw [e1] at e2 ⊢
  simp only [List.cons.injEq] at e2
  obtain ⟨rfl, rfl⟩ := e2
  obtain rfl := hd'.unique hd
  obtain ⟨k, hk, hrd⟩ := itemLoop_rd (item := fileItem) hf'.1 hf'.2 ((All2.congr fun x b => itemText_file).mpr h2) e1.symm hd
  refine ⟨k + 1, fun hm => by rw [hk hm]; simp, fun r n => ?_⟩
  unfold readMaterialFrom
  simp only [unlines_cons, List.append_assoc, List.cons_append]
  rw [Parser.bind_ok (readDivision_run hd _ _)]
  unfold readPMaterial
  simp only [readFiles_eq, Parser.mapErr]
  rw [get_bind_assoc (fun s => itemLoop Division.isMend fileItem (s.rest.length + 1) d')]
  have hlen : fs.length < (unlines rest ++ r).length + 1 := by
    have h2 := length_le_unlines rest
    have h3 := congrArg List.length e1
    simp at h3 hlen
    rw [List.length_append]; omega
  rw [Parser.bind_ok (s' := ⟨r, n + 1 + (k : Int)⟩) (a := fs) (by exact hrd hlen r (n + 1)), PMaterial.make]
  cases fillMap PFile.mf fs [] with
  | error e => rfl
  | ok m => simp [liftE, Parser.bind_run]; omega

theorem readMaterial_rd {fs : List PFile} {ls : List Text} {m : PMaterial} {t : Nums} (h : MaterialText fs ls) (ht : StartsWith ls t)
    (hm : PMaterial.make t.mat fs = .ok m) : ReadsAs m.NoCov readMaterialFrom m ls := by
  obtain ⟨k, hk, hr⟩ := readMaterial_run h ht
  exact ⟨materialText_nl h, k, fun hc => hk fun f hf => hc f ((PMaterial.make_mem hm).mpr hf), fun r n => by rw [hr, hm]⟩

theorem readPMaterial_mat {d : Division} {s s' : St} {m : PMaterial} (h : readPMaterial d s = .ok (m, s')) : m.mat = d.tail.mat := by
  have h := Parser.mapErr_ok.mp h
  obtain ⟨_, _, _, h⟩ := Parser.bind_eq_ok.mp h
  obtain ⟨_, _, _, h⟩ := Parser.bind_eq_ok.mp h
  obtain ⟨_, _, _, h⟩ := Parser.bind_eq_ok.mp h
  cases h; rfl

/-! ### tapes -/

theorem itemText_material {m : PMaterial} {b : List Text} : ItemText PMaterial.NoCov (fun d => d.tail.mat == -1) readPMaterial m b ↔ MaterialBlock m b := by
  constructor
  · rintro ⟨l, rest, d, rfl, h1, h2, h3, k, hk, h4⟩
    exact ⟨⟨d.tail, ⟨l, rest, d, rfl, h2, rfl⟩, (readPMaterial_mat (h4 [] 0)).symm, by simpa using h3⟩, (readsAs_cons h2 h1).mpr ⟨k, hk, h4⟩⟩
  · rintro ⟨⟨t, ⟨l, rest, d, rfl, h2, rfl⟩, h5, h6⟩, h7⟩
    have hn : ∀ m ∈ rest, '\n' ∉ m := fun m hm => h7.1 m (by simp [hm])
    exact ⟨l, rest, d, rfl, hn, h2, by simpa using h6, (readsAs_cons h2 hn).mp h7⟩

theorem materialBlock_first {f : PMaterial} {b : List Text} (h : MaterialBlock f b) : ∃ l rest d, b = l :: rest ∧ DivLine d l ∧ ∀ m ∈ rest, '\n' ∉ m := by
  obtain ⟨⟨t, ⟨l, rest, d, rfl, h1, _⟩, _⟩, h2⟩ := h
  exact ⟨l, rest, d, rfl, h1, fun m hm => h2.1 m (by simp [hm])⟩

theorem readTpid_iff {l : Text} (hl : '\n' ∉ l) {p : Tpid} : ((opt (tailOpt (l.drop 66))).bind fun t =>
    if t.mt ≠ 0 then .error .exc else if t.mf ≠ 0 then .error .exc else .ok (⟨padded 66 l, t.mat⟩ : Tpid)) = (.ok p : Except Err Tpid) ↔
    TextLine ⟨p.ntape, 0, 0⟩ l ∧ p.text = padded 66 l := by
  constructor
  · intro h
    cases h2 : tailOpt (l.drop 66) with
    | none => simp [h2, opt, Except.bind] at h
    | some t =>
      simp only [h2, opt, Except.bind] at h
      split at h
      · cases h
      split at h
      · cases h
      rename_i g1 g2
      cases h
      refine ⟨⟨hl, ?_⟩, rfl⟩
      have := tailOpt_iff.mp h2
      have e : t = ⟨t.mat, 0, 0⟩ := by cases t; simp_all
      rw [← e]; exact this
  · rintro ⟨h1, h2⟩
    rw [tailOpt_iff.mpr h1.2]
    cases p
    simp_all [opt, Except.bind]

theorem readTape_inv {s s' : St} {t : PTape} (h : PTape.read s = .ok (t, s')) :
    ∃ id ms ls, Lines ls s.rest s'.rest ∧ TapeText id ms ls ∧ PTape.make id ms = .ok t := by
  have h := Parser.mapErr_ok.mp h
  obtain ⟨id, s1, h1, h⟩ := Parser.bind_eq_ok.mp h
  obtain ⟨d, s2, h2, h⟩ := Parser.bind_eq_ok.mp h
  obtain ⟨_, _, h0, h⟩ := Parser.bind_eq_ok.mp h
  cases h0
  obtain ⟨ms, s3, h3, h⟩ := Parser.bind_eq_ok.mp h
  obtain ⟨l0, a1, a2, a3⟩ := readTpid_line.inv h1
  obtain ⟨l1, b1, b2, b3⟩ := readDivision_inv h2
  rw [readMaterials_eq] at h3
  obtain ⟨rest, k, bs, e, de, c1, _, _, c3, c4, c5, c6⟩ := itemLoop_run readPMaterial_local h3 b2
  cases hm : PTape.make id ms with
  | error e => rw [hm] at h; cases h
  | ok t' =>
    rw [hm] at h
    simp only [liftE, Except.ok.injEq, Prod.mk.injEq] at h
    obtain ⟨rfl, rfl⟩ := h
    have hp := (readTpid_iff a1.1).mp a2
    refine ⟨id, ms, l0 :: l1 :: rest, a1.lines.trans (b1.lines.trans c1),
      ⟨l0, bs, e, de, by simp [c3], hp.1, hp.2, (All2.congr fun x b => itemText_material).mp c6, c4, by simpa using c5⟩, hm⟩

theorem tapeText_nl {id : Tpid} {ms : List PMaterial} {ls : List Text} (h : TapeText id ms ls) : ∀ l ∈ ls, '\n' ∉ l := by
  obtain ⟨tpid, bs, tend, dt, rfl, h1, h2, h3, h4, h5⟩ := h
  obtain ⟨⟨l, rest, d, e1, hd, hn⟩, hlen⟩ := blocks_first (fun x b => materialBlock_first) h3 h4
  rw [List.cons_append, e1]
  simp only [List.mem_cons, forall_eq_or_imp]
  exact ⟨h1.1, hd.1.1, hn⟩

/-- A tape is read from such a text as the constructor makes it of the materials; it throws if the constructor does. -/
theorem readTape_run {id : Tpid} {ms : List PMaterial} {ls : List Text} (h : TapeText id ms ls) :
    ∃ k : Nat, ((∀ m ∈ ms, m.NoCov) → k = ls.length) ∧ ∀ r n, PTape.read ⟨unlines ls ++ r, n⟩ = match PTape.make id ms with
      | .ok t => .ok (t, ⟨r, n + (k : Int)⟩)
      | .error e => .error (catchStd e) := by
  obtain ⟨tpid, bs, tend, dt, rfl, h1, h2, h3, h4, h5⟩ := h
  obtain ⟨⟨l, rest, d, e1, hd, hn⟩, hlen⟩ := blocks_first (fun x b => materialBlock_first) h3 h4
  have e1' : tpid :: bs.flatten ++ [tend] = tpid :: l :: rest := by simp [e1]
  obtain ⟨k, hk, hrd⟩ := itemLoop_rd (stop := fun d => d.tail.mat == -1) (item := readPMaterial) h4 (by simp [h5])
    ((All2.congr fun x b => itemText_material).mpr h3) e1.symm hd
  rw [e1']
  refine ⟨k + 2, fun hm => by rw [hk hm]; simp, fun r n => ?_⟩
  unfold PTape.read
  simp only [Parser.mapErr]
  simp only [unlines_cons, List.append_assoc, List.cons_append]
  have ht : readTpid ⟨tpid ++ '\n' :: (l ++ '\n' :: (unlines rest ++ r)), n⟩ = .ok (id, ⟨l ++ '\n' :: (unlines rest ++ r), n + 1⟩) := by
    rw [readTpid_line.run_nl h1.1, (readTpid_iff h1.1).mpr ⟨h1, h2⟩]
  rw [Parser.bind_ok ht, Parser.bind_ok (readDivision_run hd _ _)]
  simp only [readMaterials_eq]
  rw [get_bind_assoc (fun s => itemLoop (fun d => d.tail.mat == -1) readPMaterial (s.rest.length + 1) d)]
  have hlen : ms.length < (unlines rest ++ r).length + 1 := by
    have h2 := length_le_unlines rest
    have h3 := congrArg List.length e1
    simp at h3 hlen
    rw [List.length_append]; omega
  rw [Parser.bind_ok (s' := ⟨r, n + 1 + 1 + (k : Int)⟩) (a := ms) (by exact hrd hlen r (n + 1 + 1))]
  cases PTape.make id ms with
  | error e => rfl
  | ok m => simp [liftE]; omega

theorem readTape_rd {id : Tpid} {ms : List PMaterial} {ls : List Text} {t : PTape} (h : TapeText id ms ls) (hm : PTape.make id ms = .ok t) :
    ReadsAs t.NoCov PTape.read t ls := by
  obtain ⟨k, hk, hr⟩ := readTape_run h
  exact ⟨tapeText_nl h, k, fun hc => hk (by rw [PTape.make_eq hm] at hc; exact hc), fun r n => by rw [hr, hm]⟩

end ENDFtk

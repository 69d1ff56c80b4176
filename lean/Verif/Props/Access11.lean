import Verif.Props.Access10
/-
  C62, part 11: the getters of section 32/151, for what was read: the lines of the text that the values come from.
-/
set_option linter.unusedVariables false
set_option linter.unusedSectionVars false
set_option linter.unusedSimpArgs false
namespace ENDFtk.Props
variable [Disco] [CorrOps]

/-! ### specification -/

/-- Components one after the other, `P k x e` saying that `x` is on the lines from `k` on and that line `e` is the one after it. -/
def InOrder {α : Type} (P : Nat → α → Nat → Prop) : Nat → List α → Nat → Prop
  | k, [], e => e = k
  | k, x :: xs, e => ∃ m, P k x m ∧ InOrder P m xs e

/-- LIST records one after the other. -/
def ListsTo (s : St) (k : Nat) (ls : List LIST) (e : Nat) : Prop := ListsAt s k ls ∧ e = k + listsLines ls

/-- The uncertainty of the scattering radius is C2 of line `k`, if there is one. -/
def DapAt (s : St) (k : Nat) (x : Option Dbl) (e : Nat) : Prop := match x with
  | none => e = k
  | some d => (∃ c, LineShows k s c ∧ d = c.c2) ∧ e = k + 1

/-- Reich-Moore: the LIST record with the uncertainties of the scattering radii. -/
def DapListAt (s : St) (k : Nat) (x : Option LIST) (e : Nat) : Prop := match x with
  | none => e = k
  | some l => ListAt s k l ∧ e = k + recLines (.list l)

/-- Line `k`: SPI, AP, NLS, ISR; then the uncertainty of the scattering radius and the l values. -/
def LimitedAt (s : St) (k : Nat) (b : (Dbl × Dbl) × Option Dbl × List LIST) (e : Nat) : Prop :=
  (∃ c, LineShows k s c ∧ Get.Limited32.SPI b = c.c1 ∧ Get.Limited32.AP b = c.c2 ∧ Get.Limited32.NLS b = toInt32 c.n1 ∧ (Get.Limited32.ISR b = true ↔ c.n2 ≠ 0)) ∧
  ∃ m, DapAt s (k + 1) (Get.Limited32.DAP b) m ∧ ListsTo s m (Get.Limited32.lValues b) e

/-- Line `k`: SPI, AP, NLS, ISR; then the uncertainty of the scattering radius; a line with AWRI, NSRS, NLRS; the blocks. -/
def GeneralAt {δ α : Type} (D : Nat → Option δ → Nat → Prop) (S : Nat → α → Nat → Prop) (s : St) (k : Nat) (b : (Dbl × Dbl × Int) × Option δ × Dbl × List α × List LIST)
    (e : Nat) : Prop :=
  (∃ c, LineShows k s c ∧ Get.General32.SPI b = c.c1 ∧ Get.General32.AP b = c.c2 ∧ Get.General32.NLS b = toUInt32 c.n1 ∧ (Get.General32.ISR b = true ↔ c.n2 ≠ 0)) ∧
  ∃ m n, D (k + 1) (Get.General32.DAP b) m ∧
    (∃ c, LineShows m s c ∧ Get.General32.AWRI b = c.c1 ∧ Get.General32.NSRS b = toInt32 c.n1 ∧ Get.General32.NLRS b = toInt32 c.n2) ∧
    InOrder S (m + 1) (Get.General32.shortRangeBlocks b) n ∧ ListsTo s n (Get.General32.longRangeBlocks b) e

/-- Line `k` is the first one of this LIST record. -/
def ListTo (s : St) (k : Nat) (l : LIST) (e : Nat) : Prop := ListAt s k l ∧ e = k + recLines (.list l)

/-- A block of the R-matrix limited formalism: NJSX is L1 of line `k`; the parameters and the matrix follow. -/
def ShortRmlAt (s : St) (k : Nat) (b : Unit × List LIST × LIST) (e : Nat) : Prop :=
  (∃ c, LineShows k s c ∧ Get.ShortRml32.NJSX b = toInt32 c.l1) ∧ ∃ m, ListsTo s (k + 1) (Get.ShortRml32.resonanceParameters b) m ∧ ListTo s m (Get.ShortRml32.covarianceMatrix b) e

/-- Line `k`: SPI, AP, L1, N1, ISR; then the uncertainty of the scattering radius, the parameters with their uncertainties, the correlations. -/
def CompactAt {δ α : Type} (D : Nat → Option δ → Nat → Prop) (U : Nat → α → Nat → Prop) (s : St) (k : Nat) (b : (Dbl × Dbl × Int × Int) × Option δ × α × CorrMatrix)
    (e : Nat) : Prop :=
  (∃ c, LineShows k s c ∧ Get.Compact32.SPI b = c.c1 ∧ Get.Compact32.AP b = c.c2 ∧ (Get.Compact32.LAD b = true ↔ c.l1 ≠ 0) ∧ (Get.Compact32.IFG b = true ↔ c.l1 ≠ 0) ∧
    Get.Compact32.NJS b = toUInt32 c.n1 ∧ (Get.Compact32.ISR b = true ↔ c.n2 ≠ 0)) ∧
  ∃ m n, D (k + 1) (Get.Compact32.DAP b) m ∧ U m (Get.Compact32.uncertainties b) n ∧ MatrixAt s n (Get.Compact32.correlationMatrix b) e

/-- The particle pairs are on line `k`, NJSX is its L2; then the channels (AJ is C1 of their first line, PJ is C2) and the parameters (NRSA is L2 of their first line) of each
    spin group. -/
def CompactRmlAt (s : St) (k : Nat) (b : LIST × List (LIST × LIST)) (e : Nat) : Prop :=
  ListAt s k (Get.CompactRml32.particlePairs b) ∧ Get.CompactRml32.NJSX b = toInt32 (Get.CompactRml32.particlePairs b).l2 ∧
  InOrder (fun k g e => ListAt s k (Get.CompactSpin32.channels g) ∧ ListAt s (k + recLines (.list (Get.CompactSpin32.channels g))) (Get.CompactSpin32.parameters g) ∧
    (∃ c, LineShows k s c ∧ Get.CompactSpin32.AJ g = c.c1 ∧ Get.CompactSpin32.PJ g = c.c2) ∧
    (∃ c, LineShows (k + recLines (.list (Get.CompactSpin32.channels g))) s c ∧ Get.CompactSpin32.NRSA g = c.l2) ∧
    e = k + recLines (.list (Get.CompactSpin32.channels g)) + recLines (.list (Get.CompactSpin32.parameters g)))
    (k + recLines (.list (Get.CompactRml32.particlePairs b))) (Get.CompactRml32.spinGroups b) e

/-- Line `k`: SPI, AP, NLS; then the l values and the matrix. -/
def Unresolved32At (s : St) (k : Nat) (b : (Dbl × Dbl) × List LIST × LIST) (e : Nat) : Prop :=
  (∃ c, LineShows k s c ∧ Get.Unresolved32.SPI b = c.c1 ∧ Get.Unresolved32.AP b = c.c2 ∧ Get.Unresolved32.NLS b = toInt32 c.n1) ∧
  ∃ m, ListsTo s (k + 1) (Get.Unresolved32.lValues b) m ∧ ListTo s m (Get.Unresolved32.covarianceMatrix b) e

/-- The parameters begin on line `k`.  (There is no uncertainty of the scattering radius for the R-matrix limited formalism.) -/
def CovParamsAt (s : St) (k : Nat) (x : CovParams) (e : Nat) : Prop := match x with
  | ⟨.limitedSLBW, b⟩ | ⟨.limitedMLBW, b⟩ => LimitedAt s k b e
  | ⟨.generalSLBW, b⟩ | ⟨.generalMLBW, b⟩ => GeneralAt (DapAt s) (ListTo s) s k b e
  | ⟨.generalRM, b⟩ => GeneralAt (DapListAt s) (ListTo s) s k b e
  | ⟨.generalRML, b⟩ => GeneralAt (fun k d e => d = none ∧ e = k) (ShortRmlAt s) s k b e
  | ⟨.compactSLBW, b⟩ | ⟨.compactMLBW, b⟩ => CompactAt (DapAt s) (ListTo s) s k b e
  | ⟨.compactRM, b⟩ => CompactAt (DapListAt s) (ListTo s) s k b e
  | ⟨.compactRML, b⟩ => CompactAt (fun k d e => d = none ∧ e = k) (CompactRmlAt s) s k b e
  | ⟨.unresolved, b⟩ => Unresolved32At s k b e

/-- The covariances of the scattering radius: NI is N2 of line `k`. -/
def Radius32At (s : St) (k : Nat) (x : Option (Unit × List LIST)) (e : Nat) : Prop := match x with
  | none => e = k
  | some b => (∃ c, LineShows k s c ∧ Get.Radius32.NI b = toInt32 c.n2) ∧ ListsTo s (k + 1) (Get.Radius32.data b) e

/-- Line `k` is the CONT record of this range: EL, EH, LRU, LRF, NRO, NAPS; then come the covariances of the scattering radius, if there are any, then the parameters, LCOMP
    being L2 of their first line.  For unresolved resonances `LRF()` is 1, whatever the text says. -/
def CovRangeAt (s : St) (k : Nat) (x : CovRange) (e : Nat) : Prop :=
  (∃ c, LineShows k s c ∧ Get.Range32.EL x = c.c1 ∧ Get.Range32.EH x = c.c2 ∧ Get.Range32.LRU x = toInt32 c.l1 ∧
    (Get.Range32.LRU x = 1 → Get.Range32.LRF x = toInt32 c.l2) ∧ (Get.Range32.LRU x = 2 → Get.Range32.LRF x = 1) ∧ (Get.Range32.LRU x = 1 ∨ Get.Range32.LRU x = 2) ∧
    (Get.Range32.NRO x = true ↔ toInt32 c.n1 ≠ 0) ∧ Get.Range32.NAPS x = toInt32 c.n2) ∧
  ∃ m, Radius32At s (k + 1) (Get.Range32.scatteringRadius x) m ∧ CovParamsAt s m (Get.Range32.parameters x) e ∧
    ∃ c, LineShows m s c ∧ (Get.Range32.LRU x = 1 → (Get.Range32.parameters x).type.lcomp = toInt32 c.l2)

/-- Line `k` is the CONT record of this isotope: ZAI, ABN, LFW and NER; the ranges follow. -/
def CovIsotopeAt (s : St) (k : Nat) (x : CovIsotope) (e : Nat) : Prop :=
  (∃ c, LineShows k s c ∧ Get.Isotope32.ZAI x = c.c1 ∧ Get.Isotope32.ABN x = c.c2 ∧ (Get.Isotope32.LFW x = 1 ↔ c.l2 ≠ 0) ∧ Get.Isotope32.NER x = toInt32 c.n1) ∧
  InOrder (CovRangeAt s) (k + 1) (Get.Isotope32.resonanceRanges x) e

/-! ### lemmas -/

/-- The records `rs` are on the lines from `k` on, and line `e` comes after them. -/
def From32 (s : St) : List Rec32 → Nat → Nat → Prop
  | [], k, e => e = k
  | .plain r :: rs, k, e => (∀ c, recLine r = some c → LineShows k s c) ∧ From32 s rs (k + recLines r) e
  | .look c :: rs, k, e => LineShows k s c ∧ From32 s rs k e
  | .matrix m :: rs, k, e => ∃ k', MatrixAt s k m k' ∧ From32 s rs k' e

theorem pos_shows {s s0 : St} {k : Nat} {c : Cont} (hp : Pos s k s0) (h : LineShows 0 s0 c) : LineShows k s c := by
  have : lineAt 0 s0.rest = lineAt k s.rest := pos_line hp 0
  unfold LineShows at h ⊢
  rwa [this] at h

theorem recs_from {t : Nums} {s : St} {rs : List Rec32} {s0 s1 : St} (h : Recs32 t rs s0 s1) {k : Nat} (hp : Pos s k s0) : ∃ e, From32 s rs k e ∧ Pos s e s1 := by
  induction h generalizing k with
  | nil => exact ⟨k, rfl, hp⟩
  | @cons r rs a b d h1 h2 ih =>
    cases r with
    | plain r =>
      obtain ⟨q1, q2⟩ := rec_at h1
      obtain ⟨e, i1, i2⟩ := ih (k := k + recLines r) (hp.trans q2)
      exact ⟨e, ⟨fun c hc => pos_shows hp (q1 c hc), i1⟩, i2⟩
    | look c =>
      obtain ⟨s2, hc, rfl⟩ := h1
      obtain ⟨e, i1, i2⟩ := ih (k := k) hp
      exact ⟨e, ⟨pos_shows hp (cont_line hc).1, i1⟩, i2⟩
    | matrix m =>
      obtain ⟨k', m1, m2⟩ := matrix_at hp h1
      obtain ⟨e, i1, i2⟩ := ih m2
      exact ⟨e, ⟨k', m1, i1⟩, i2⟩

theorem from_append {s : St} {a b : List Rec32} {k e : Nat} : From32 s (a ++ b) k e ↔ ∃ m, From32 s a k m ∧ From32 s b m e := by
  induction a generalizing k with
  | nil => exact ⟨fun h => ⟨k, rfl, h⟩, fun ⟨m, h1, h2⟩ => by cases h1; exact h2⟩
  | cons r a ih =>
    cases r with
    | plain r =>
      simp only [List.cons_append, From32, ih]
      exact ⟨fun ⟨h1, m, h2, h3⟩ => ⟨m, ⟨h1, h2⟩, h3⟩, fun ⟨m, ⟨h1, h2⟩, h3⟩ => ⟨h1, m, h2, h3⟩⟩
    | look c =>
      simp only [List.cons_append, From32, ih]
      exact ⟨fun ⟨h1, m, h2, h3⟩ => ⟨m, ⟨h1, h2⟩, h3⟩, fun ⟨m, ⟨h1, h2⟩, h3⟩ => ⟨h1, m, h2, h3⟩⟩
    | matrix x =>
      simp only [List.cons_append, From32, ih]
      exact ⟨fun ⟨k', h1, m, h2, h3⟩ => ⟨m, ⟨k', h1, h2⟩, h3⟩, fun ⟨m, ⟨k', h1, h2⟩, h3⟩ => ⟨k', h1, m, h2, h3⟩⟩

theorem from_plain {s : St} {rs : List Rec} {k e : Nat} (h : From32 s (rs.map .plain) k e) : RecsFrom s k rs ∧ e = k + (rs.map recLines).sum := by
  induction rs generalizing k with
  | nil => exact ⟨fun pre r post c h => by simp at h, h⟩
  | cons r rs ih =>
    obtain ⟨h1, h2⟩ := h
    obtain ⟨i1, i2⟩ := ih h2
    refine ⟨?_, by rw [i2]; simp; omega⟩
    intro pre a post c hs hc
    cases pre with
    | nil => simp at hs; obtain ⟨rfl, rfl⟩ := hs; simpa using h1 c hc
    | cons p pre =>
      simp at hs
      obtain ⟨rfl, rfl⟩ := hs
      have := i1 pre a post c rfl hc
      simpa [Nat.add_assoc] using this

/-- Records from line `k` to line `e`. -/
def Span (s : St) (k : Nat) (rs : List Rec) (e : Nat) : Prop := RecsFrom s k rs ∧ e = k + (rs.map recLines).sum

theorem span_append {s : St} {a b : List Rec} {k e : Nat} (h : Span s k (a ++ b) e) : ∃ m, Span s k a m ∧ Span s m b e := by
  obtain ⟨h1, h2⟩ := h
  refine ⟨k + (a.map recLines).sum, ⟨?_, rfl⟩, ?_, by rw [h2]; simp; omega⟩
  · have := from_mid (a := []) (b := a) (c := b) (s := s) (k := k) (by simpa using h1)
    simpa using this
  · exact from_mid (a := a) (b := b) (c := []) (by simpa using h1)

theorem span_cons {s : St} {a : Rec} {b : List Rec} {k e : Nat} (h : Span s k (a :: b) e) :
    (∀ c, recLine a = some c → LineShows k s c) ∧ Span s (k + recLines a) b e := by
  obtain ⟨h1, h2⟩ := h
  exact ⟨fun c hc => from_head h1 hc, from_tail h1, by rw [h2]; simp; omega⟩

theorem span_lists {s : St} {l : List LIST} {k e : Nat} (h : Span s k (l.map .list) e) : ListsTo s k l e := ⟨lists_at h.1, by rw [h.2, lists_sum]⟩

theorem span_list {s : St} {l : LIST} {k e : Nat} (h : Span s k [.list l] e) : ListTo s k l e := ⟨from_head h.1 rfl, by rw [h.2]; simp⟩

theorem span_many {α : Type} {P : α → List Rec → Prop} {Q : Nat → α → Nat → Prop} {s : St} (hq : ∀ k x r e, P x r → Span s k r e → Q k x e) {l : List α} {rs : List Rec}
    (hm : Many P l rs) {k e : Nat} (h : Span s k rs e) : InOrder Q k l e := by
  induction hm generalizing k with
  | nil => exact h.2
  | cons h1 _ ih =>
    obtain ⟨m, a, b⟩ := span_append h
    exact ⟨m, hq _ _ _ _ h1 a, ih b⟩

theorem from_many32 {α : Type} {P : α → List Rec32 → Prop} {Q : Nat → α → Nat → Prop} {s : St} (hq : ∀ k x r e, P x r → From32 s r k e → Q k x e) {l : List α}
    {rs : List Rec32} (hm : Many P l rs) {k e : Nat} (h : From32 s rs k e) : InOrder Q k l e := by
  induction hm generalizing k with
  | nil => exact h
  | cons h1 _ ih =>
    obtain ⟨m, a, b⟩ := from_append.mp h
    exact ⟨m, hq _ _ _ _ h1 a, ih b⟩

theorem optional_isr {δ : Type} {isr : Int} {G : δ → List Rec → Prop} {x : Option δ} {rs : List Rec} (h : Fmt32.optional isr G x rs) : x.isSome = true ↔ isr ≠ 0 := by
  cases x with
  | none => simp [Fmt32.optional] at h; simp [h.1]
  | some d => simp [Fmt32.optional] at h; simp [h.1]

theorem dap_at {s : St} {isr : Int} {x : Option Dbl} {rs : List Rec} {k e : Nat} (h : Fmt32.optional isr Fmt32.dap x rs) (hs : Span s k rs e) : DapAt s k x e := by
  cases x with
  | none => obtain ⟨-, rfl⟩ := h; exact hs.2
  | some d =>
    obtain ⟨-, c, rfl, hc⟩ := h
    exact ⟨⟨c, from_head hs.1 rfl, hc⟩, by rw [hs.2]; rfl⟩

theorem dapList_at {s : St} {isr : Int} {x : Option LIST} {rs : List Rec} {k e : Nat} (h : Fmt32.optional isr Fmt32.dapList x rs) (hs : Span s k rs e) : DapListAt s k x e := by
  cases x with
  | none => obtain ⟨-, rfl⟩ := h; exact hs.2
  | some d =>
    obtain ⟨-, rfl⟩ := h
    exact span_list hs

theorem dapNone_at {s : St} {isr : Int} {x : Option LIST} {rs : List Rec} {k e : Nat} (h : Fmt32.optional isr Fmt32.dapNone x rs) (hs : Span s k rs e) : x = none ∧ e = k := by
  cases x with
  | none => obtain ⟨-, rfl⟩ := h; exact ⟨rfl, hs.2⟩
  | some d => exact h.2.elim

theorem list_to {s : St} {P : LIST → Prop} (k : Nat) (x : LIST) (r : List Rec) (e : Nat) (h : Fmt32.list P x r) (hs : Span s k r e) : ListTo s k x e := by
  obtain ⟨rfl, -⟩ := h; exact span_list hs

theorem limited_at {s : St} {b : (Dbl × Dbl) × Option Dbl × List LIST} {rs : List Rec} {k e : Nat} (h : Fmt32.limited b rs) (hs : Span s k rs e) : LimitedAt s k b e := by
  obtain ⟨c, r, rfl, h1, h2, h3, -⟩ := h
  obtain ⟨l1, hs⟩ := span_cons (a := .cont c) (b := r ++ b.2.2.map .list) hs
  obtain ⟨m, a, d⟩ := span_append hs
  refine ⟨⟨c, l1 _ rfl, ?_, ?_, asInt_of h3, optional_isr h2⟩, m, dap_at h2 a, span_lists d⟩
  · rw [Get.Limited32.SPI, h1]
  · rw [Get.Limited32.AP, h1]

theorem general_at {δ α : Type} {D : δ → List Rec → Prop} {S : α → List Rec → Prop} {s : St} {D' : Nat → Option δ → Nat → Prop} {S' : Nat → α → Nat → Prop}
    (hd : ∀ {isr x rs k e}, Fmt32.optional isr D x rs → Span s k rs e → D' k x e) (hS : ∀ k x r e, S x r → Span s k r e → S' k x e)
    {b : (Dbl × Dbl × Int) × Option δ × Dbl × List α × List LIST} {rs : List Rec} {k e : Nat} (h : Fmt32.general D S b rs) (hs : Span s k rs e) :
    GeneralAt D' S' s k b e := by
  obtain ⟨c, r, q, r', rfl, h1, h2, h3, h4, h5, h6, h7, h8, -⟩ := h
  obtain ⟨n, hs, hl⟩ := span_append hs
  obtain ⟨m, hs, hr⟩ := span_append hs
  obtain ⟨l1, hs⟩ := span_cons hs
  obtain ⟨l2, hr⟩ := span_cons hr
  exact ⟨⟨c, l1 _ rfl, h1, h2, h3, optional_isr h4⟩, m, n, hd h4 hs, ⟨q, l2 _ rfl, h5, asInt_of h6, asInt_of h8⟩, span_many hS h7 hr, span_lists hl⟩

theorem shortRml_at {s : St} (k : Nat) (b : Unit × List LIST × LIST) (rs : List Rec) (e : Nat) (h : Fmt32.shortRml b rs) (hs : Span s k rs e) : ShortRmlAt s k b e := by
  obtain ⟨c, rfl, h1, -⟩ := h
  obtain ⟨m, hs, hl⟩ := span_append hs
  obtain ⟨l1, hs⟩ := span_cons hs
  exact ⟨⟨c, l1 _ rfl, asInt_of h1⟩, m, span_lists hs, span_list hl⟩

theorem unresolved_at32 {s : St} {b : (Dbl × Dbl) × List LIST × LIST} {rs : List Rec} {k e : Nat} (h : Fmt32.unresolved b rs) (hs : Span s k rs e) : Unresolved32At s k b e := by
  obtain ⟨c, rfl, h1, h2, -⟩ := h
  obtain ⟨m, hs, hl⟩ := span_append hs
  obtain ⟨l1, hs⟩ := span_cons hs
  refine ⟨⟨c, l1 _ rfl, ?_, ?_, asInt_of h2⟩, m, span_lists hs, span_list hl⟩
  · rw [Get.Unresolved32.SPI, h1]
  · rw [Get.Unresolved32.AP, h1]

theorem toUInt32_len {n : Nat} {k : Int} (h : toInt32 k = n) : toUInt32 n = toInt32 k := by
  have := isInt32_toInt32 k
  unfold IsInt32 at this
  rw [h]; exact toUInt32_of ⟨by omega, by omega⟩

theorem compactRml_at {s : St} (k : Nat) (b : LIST × List (LIST × LIST)) (rs : List Rec) (e : Nat) (h : Fmt32.compactRml b rs) (hs : Span s k rs e) : CompactRmlAt s k b e := by
  obtain ⟨rfl, -, -, h1, -⟩ := h
  obtain ⟨l1, hs⟩ := span_cons hs
  refine ⟨l1 _ rfl, toUInt32_len h1, ?_⟩
  have hm : ∀ gs : List (LIST × LIST), Many (fun g r => r = [Rec.list g.1, Rec.list g.2]) gs (gs.flatMap (fun g => [Rec.list g.1, Rec.list g.2])) := by
    intro gs
    induction gs with
    | nil => exact .nil
    | cons g gs ih => exact .cons rfl ih
  refine span_many (fun k g r e hg hs => ?_) (hm b.2) hs
  subst hg
  obtain ⟨a1, hs⟩ := span_cons hs
  obtain ⟨a2, hs⟩ := span_cons hs
  exact ⟨a1 _ rfl, a2 _ rfl, ⟨_, a1 _ rfl, rfl, rfl⟩, ⟨_, a2 _ rfl, rfl⟩, hs.2⟩

theorem compact_at {δ α : Type} {D : δ → List Rec → Prop} {U : α → List Rec → Prop} {s : St} {D' : Nat → Option δ → Nat → Prop} {U' : Nat → α → Nat → Prop}
    (hd : ∀ {isr x rs k e}, Fmt32.optional isr D x rs → Span s k rs e → D' k x e) (hu : ∀ k x r e, U x r → Span s k r e → U' k x e)
    {b : (Dbl × Dbl × Int × Int) × Option δ × α × CorrMatrix} {rs : List Rec32} {k e : Nat} (h : Fmt32.compact D U b rs) (hs : From32 s rs k e) :
    CompactAt D' U' s k b e := by
  obtain ⟨c, r, r', rfl, h1, h2, h3⟩ := h
  obtain ⟨n, hs, hm⟩ := from_append.mp hs
  obtain ⟨e', hm, he⟩ := hm
  cases he
  obtain ⟨l1, hs⟩ := span_cons (from_plain hs)
  obtain ⟨m, hs, hr⟩ := span_append hs
  have e1 : b.1.1 = c.c1 := by rw [h1]
  have e2 : b.1.2.1 = c.c2 := by rw [h1]
  have e3 : b.1.2.2.1 = c.l1 := by rw [h1]
  have e4 : b.1.2.2.2 = c.n1 := by rw [h1]
  refine ⟨⟨c, l1 _ rfl, e1, e2, ?_, ?_, ?_, optional_isr h2⟩, m, n, hd h2 hs, hu _ _ _ _ h3 hr, hm⟩
  · simp [Get.Compact32.LAD, Get.Compact32.L1, e3]
  · simp [Get.Compact32.IFG, Get.Compact32.L1, e3]
  · rw [Get.Compact32.NJS, Get.Compact32.N1, e4]

theorem covParams_at {s : St} {x : CovParams} {rs : List Rec32} {k e : Nat} (h : Fmt32.params x.type x.data rs) (hs : From32 s rs k e) : CovParamsAt s k x e := by
  obtain ⟨ty, b⟩ := x
  cases ty with
  | limitedSLBW => obtain ⟨r, rfl, h⟩ := h; exact limited_at h (from_plain hs)
  | limitedMLBW => obtain ⟨r, rfl, h⟩ := h; exact limited_at h (from_plain hs)
  | generalSLBW => obtain ⟨r, rfl, h⟩ := h; exact general_at dap_at list_to h (from_plain hs)
  | generalMLBW => obtain ⟨r, rfl, h⟩ := h; exact general_at dap_at list_to h (from_plain hs)
  | generalRM => obtain ⟨r, rfl, h⟩ := h; exact general_at dapList_at list_to h (from_plain hs)
  | generalRML => obtain ⟨r, rfl, h⟩ := h; exact general_at dapNone_at shortRml_at h (from_plain hs)
  | compactSLBW => exact compact_at dap_at list_to h hs
  | compactMLBW => exact compact_at dap_at list_to h hs
  | compactRM => exact compact_at dapList_at list_to h hs
  | compactRML => exact compact_at dapNone_at compactRml_at h hs
  | unresolved => obtain ⟨r, rfl, h⟩ := h; exact unresolved_at32 h (from_plain hs)

theorem covRange_at {s : St} (k : Nat) (x : CovRange) (rs : List Rec32) (e : Nat) (h : Fmt32.range x rs) (hs : From32 s rs k e) : CovRangeAt s k x e := by
  obtain ⟨c, r, c', r', rfl, h1, h2, h3, ht, hp, h0, hr⟩ := h
  obtain ⟨m, hs, hl, hp'⟩ := from_append.mp hs
  obtain ⟨l1, hs⟩ := span_cons (from_plain hs)
  have ht' : Get.Range32.LRU x = toInt32 c.l1 ∧ (Get.Range32.LRU x = 1 → Get.Range32.LRF x = toInt32 c.l2) ∧ (Get.Range32.LRU x = 2 → Get.Range32.LRF x = 1) ∧
      (Get.Range32.LRU x = 1 ∨ Get.Range32.LRU x = 2) ∧ (Get.Range32.LRU x = 1 → x.parameters.type.lcomp = toInt32 c'.l2) := by
    unfold Get.Range32.LRU Get.Range32.LRF
    generalize x.parameters.type = ty at ht
    cases ty <;> simp only [Fmt32.isType] at ht <;> simp [CovType.lru, CovType.lrf, CovType.lcomp, ht]
  obtain ⟨t1, t2, t3, t4, t5⟩ := ht'
  refine ⟨⟨c, l1 _ rfl, h1, h2, t1, t2, t3, t4, ?_, h3⟩, m, ?_, covParams_at hp hp', c', hl, t5⟩
  · rcases hr with ⟨a, b, -⟩ | ⟨a, ⟨y, b, -⟩, -⟩
    · simp [Get.Range32.NRO, a, b]
    · simp [Get.Range32.NRO, a, b]
  · rcases hr with ⟨a, b, rfl, -⟩ | ⟨a, ⟨y, b, hy⟩, -⟩
    · show Radius32At s (k + 1) x.radius m
      rw [b]; exact hs.2
    · show Radius32At s (k + 1) x.radius m
      rw [b]
      obtain ⟨d, rfl, d1, -⟩ := hy
      obtain ⟨l2, hs⟩ := span_cons hs
      exact ⟨⟨d, l2 _ rfl, asInt_of d1⟩, span_lists hs⟩

theorem covIsotope_at {s : St} (k : Nat) (x : CovIsotope) (rs : List Rec32) (e : Nat) (h : Fmt32.isotope x rs) (hs : From32 s rs k e) : CovIsotopeAt s k x e := by
  obtain ⟨c, r, rfl, h1, h2, h3, h4, hm⟩ := h
  obtain ⟨l1, hs⟩ := hs
  refine ⟨⟨c, l1 _ rfl, h1, h2, ?_, toUInt32_len h4⟩, from_many32 covRange_at hm hs⟩
  rw [← h3]; cases hx : x.lfw <;> simp [Get.Isotope32.LFW, hx]

/-- Section 151 of file 32 that was read: NIS is N1 of the HEAD record, the isotopes are on the lines after it, one after the other. -/
theorem C62_text_mf32mt151 {s s' : St} {x : Sect (List CovIsotope)} (h : mf32mt151.parse s = .ok (x, s')) :
    ∃ a e, LineShows 0 s a ∧ x.ZA = toInt32 (Disco.round a.c1) ∧ x.AWR = a.c2 ∧ x.MT = 151 ∧ Get.MF32MT151.NIS x = toInt32 a.n1 ∧
      InOrder (CovIsotopeAt s) 1 (Get.MF32MT151.isotopes x) e := by
  obtain ⟨head, s0, h0, -, hz, hw, hm, rs, s1, hr, hb, -⟩ := (C58_parse s x s').mp h
  obtain ⟨l0, -, e0⟩ := division_line h0
  have p0 : Pos s 1 s0 := by intro j; rw [e0]; rfl
  obtain ⟨e, hf, -⟩ := recs_from hr p0
  obtain ⟨b1, -, b2⟩ := hb
  exact ⟨head.base, e, l0, hz, hw, hm, toUInt32_len b1, from_many32 covIsotope_at b2 hf⟩

end ENDFtk.Props

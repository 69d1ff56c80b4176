import Verif.Parsed.Round
import Verif.Parsed.ReadValid
import Verif.Tree.ReadLemmas2
/-
  The tree and the parsed layers see the same sections, files and materials in a text.
-/
set_option linter.unusedVariables false
set_option linter.unusedSectionVars false
set_option linter.unusedSimpArgs false
namespace ENDFtk
variable [Disco] [CorrOps]

/-! ### from a parsed section to the tree -/

theorem CanonicalLine.text {t : Nums} {l : Text} (h : CanonicalLine t l) : TextLine t l := by
  refine ⟨h.2.1, h.2.2.1, 0, ?_⟩
  rw [h.2.2.2]
  exact Disco.parseInt_blank 5

theorem unlines_inj {ls ms : List Text} (h1 : ∀ l ∈ ls, '\n' ∉ l) (h2 : ∀ l ∈ ms, '\n' ∉ l) (h : unlines ls = unlines ms) : ls = ms := by
  have hlen : ls.length = ms.length := by
    have a := congrArg (List.count '\n') h
    induction ls generalizing ms with
    | nil => cases ms with
      | nil => rfl
      | cons m ms => simp at a
    | cons l ls ih => cases ms with
      | nil => simp at a
      | cons m ms =>
        have c1 : l.count '\n' = 0 := List.count_eq_zero.mpr (h1 l (by simp))
        have c2 : m.count '\n' = 0 := List.count_eq_zero.mpr (h2 m (by simp))
        simp only [unlines_cons] at h
        have e : l = m ∧ unlines ls = unlines ms := by
          have := At.unique (At.nl (r := unlines ls) (h1 l (by simp))) (h ▸ At.nl (r := unlines ms) (h2 m (by simp)))
          exact this
        simp [ih (fun l hl => h1 l (by simp [hl])) (fun l hl => h2 l (by simp [hl])) e.2 (congrArg _ e.2)]
  have a := unlines_lines h1 []
  have b := unlines_lines h2 []
  rw [h] at a
  exact (a.unique b hlen).1

/-- The SEND line of a section of file 32 has at least 66 columns (the other lines have, because of their MT number). -/
def SecL.Full (S : SecL) : Prop := S.nums.mf = 32 → 66 ≤ S.send.length

theorem HasTail.long {t : Nums} {l : Text} (h : HasTail t l) (hm : t.mt ≠ 0) : 73 ≤ l.length := by
  by_cases hl : 73 ≤ l.length
  · exact hl
  · exfalso
    have e : cols 73 75 l = blanks 0 := by simp [cols, blanks]; omega
    have := h.2.2
    rw [e, Disco.parseInt_blank] at this
    exact hm (Option.some.inj this).symm

/-- The layout of a section that is printed. -/
theorem section_layout {x : AnySection} (hv : x.Valid) (hr : x.Rep) {mat : Int} (h1 : 1 ≤ mat) (h2 : mat ≤ 9999) :
    ∃ S : SecL, S.Valid ∧ S.Full ∧ S.extra = [] ∧ S.nums = ⟨mat, x.mf, x.mt⟩ ∧ x.print mat x.mf = .ok (unlines S.core) ∧ toSectionAny x mat = .ok S.tree ∧
      SectionText x.mf x S.core := by
  obtain ⟨ls, e1, e2, e3⟩ := section_text hv hr h1 h2
  obtain ⟨T, x⟩ := x
  have hf := fits4 h1 h2
  obtain ⟨ms, k1, k2, k3⟩ := SecType.sect_canon hv.1 h1 hf
  have hls : ls = ms ++ [endRecord ⟨mat, T.defn.mf, 0⟩] := by
    have he : unlines ls = unlines (ms ++ [endRecord ⟨mat, T.defn.mf, 0⟩]) := by
      have : AnySection.print ⟨T, x⟩ mat T.defn.mf = T.defn.print x mat T.defn.mf := rfl
      have e1' : T.defn.print x mat T.defn.mf = .ok (unlines ls) := e1
      rw [k1] at e1'
      exact (Except.ok.inj e1').symm
    exact unlines_inj e2.2.1 (by
      intro l hl
      rcases List.mem_append.mp hl with hl | hl
      · exact (k3 l hl).2.1
      · rw [List.mem_singleton.mp hl]; exact (endRecord_canonical ⟨hf, T.mf_fits, fits_zero 2⟩).2.1) he
  subst hls
  obtain ⟨l, rest, d, a1, a2, a3⟩ := e3
  cases ms with
  | nil => simp [SecDef.NC] at k2
  | cons m ms =>
    obtain ⟨rfl, rfl⟩ : m = l ∧ ms ++ [endRecord ⟨mat, T.defn.mf, 0⟩] = rest := by simpa using a1
    have hmt : 1 ≤ x.mt := SecType.mt_pos hv.1
    have hmf := T.mf_pos
    refine ⟨⟨⟨m, d⟩, ms, endRecord ⟨mat, T.defn.mf, 0⟩, []⟩, ⟨⟨a2, ?_⟩, ?_, ?_, by simp⟩, ?_, rfl, a3, e1, ?_, e2⟩
    · simp only [a3, AnySection.mf, AnySection.mt]; omega
    · intro l hl
      exact ⟨_, (k3 l (by simp [hl])).text, by simp only; omega⟩
    · exact ⟨_, (endRecord_canonical ⟨hf, T.mf_fits, fits_zero 2⟩).text, rfl⟩
    · intro _
      exact Nat.le_trans (by omega) (Nat.le_of_eq (endRecord_canonical (t := ⟨mat, T.defn.mf, 0⟩) ⟨hf, T.mf_fits, fits_zero 2⟩).1.symm)
    · have e1' : T.defn.print x mat T.defn.mf = .ok (unlines (m :: ms ++ [endRecord ⟨mat, T.defn.mf, 0⟩])) := e1
      simp only [toSectionAny, toSection, e1', SecL.tree, SecL.nums, a3, SecL.core, AnySection.mf, AnySection.mt]

theorem toSectionAny_nc {x : AnySection} (hv : x.1.defn.WellFormed x.2) {mat : Int} (h1 : 1 ≤ mat) (h2 : mat ≤ 9999) :
    ∃ s, toSectionAny x mat = .ok s ∧ s.mat = mat ∧ s.mf = x.mf ∧ s.mt = x.mt ∧ x.print mat x.mf = .ok s.content ∧ (x.NC < 4294967296 → s.nc = x.NC) := by
  obtain ⟨T, x⟩ := x
  have hf := fits4 h1 h2
  obtain ⟨ms, k1, k2, k3⟩ := SecType.sect_canon hv h1 hf
  refine ⟨⟨mat, T.defn.mf, x.mt, unlines (ms ++ [endRecord ⟨mat, T.defn.mf, 0⟩])⟩, ?_, rfl, rfl, rfl, k1, fun h => ?_⟩
  · simp only [toSectionAny, toSection, k1]
  · have := nc_unlines (s := ⟨mat, T.defn.mf, x.mt, unlines (ms ++ [endRecord ⟨mat, T.defn.mf, 0⟩])⟩) rfl (fun l hl => (k3 l hl).2.1)
      (endRecord_canonical ⟨hf, T.mf_fits, fits_zero 2⟩).2.1 (by rw [k2]; exact h)
    rw [this, k2]; rfl

theorem toSectionAny_err {x : AnySection} {mat : Int} (h : mat < 1) : toSectionAny x mat = .error .exc := by
  simp only [toSectionAny, toSection, SecDef.print, SEND]
  rw [if_pos (by omega)]

/-! ### the shape of the text of a section -/

/-- Lines with an MT number, and one without. -/
def Shape (b : List Text) : Prop :=
  ∃ init send, b = init ++ [send] ∧ init ≠ [] ∧ (∀ l ∈ init, ∃ t, HasTail t l ∧ t.mt ≠ 0) ∧ ∃ t, HasTail t send ∧ t.mt = 0

theorem HasTail.unique {t u : Nums} {l : Text} (h : HasTail t l) (h' : HasTail u l) : t = u := by
  obtain ⟨a1, a2, a3⟩ := h
  obtain ⟨b1, b2, b3⟩ := h'
  rw [a1] at b1; rw [a2] at b2; rw [a3] at b3
  cases t; cases u; simp_all

theorem SecL.Valid.shape {S : SecL} (h : S.Valid) : Shape S.core := by
  obtain ⟨⟨h1, _, _, h2⟩, h3, ⟨t, h4, h5⟩, _⟩ := h
  refine ⟨S.head.text :: S.body, S.send, rfl, by simp, ?_, t, h4.2.1, h5⟩
  intro l hl
  rcases List.mem_cons.mp hl with rfl | hl
  · exact ⟨_, h1.1.2.1, h2⟩
  · obtain ⟨t, a, b⟩ := h3 l hl
    exact ⟨t, a.2.1, b⟩

theorem SectionText.shape_std {mf : Int} {x : AnySection} {b : List Text} (h : SectionText mf x b) (hne : x.1 ≠ .cov) : Shape b := by
  obtain ⟨T, x⟩ := x
  cases T with
  | cov => exact absurd rfl hne
  | std T =>
    obtain ⟨⟨t, ⟨l, rest, d, rfl, hd, rfl⟩, hT⟩, hn, k, hk, hp⟩ := h
    have h0 := hp [] 0
    simp only [List.append_nil] at h0
    obtain ⟨ls, h1, h2, hw, _, hl, rest', hd', mat, mf', mt, e1, e2, e3, _, e5, _, _, e8⟩ := (parse_reads T.lawUb).ok h0
    have hls : ls = l :: rest := by
      have hk' := hk (fun h => by have := (sectionType?_cov hT).mp h; cases this)
      have := h1.unique (by simpa using unlines_lines hn []) (by
        have := h2; simp only [Int.zero_add, Int.natCast_inj] at this; omega)
      exact this.1
    rw [e1] at hls
    obtain ⟨rfl, rfl⟩ := List.cons.inj hls
    obtain ⟨mid, e, rfl, m1, m2, c, m3, m4, m5, m6⟩ := e8
    have hmt : mt = d.tail.mt := by
      have := HasTail.unique e3 hd.1.2.1
      rw [← this]
    have hpos : 1 ≤ x.mt := mt_pos T.lawUb hw
    have hxm : x.mt = mt := by
      cases hf : T.defn.fixedMT with
      | none => exact (e5 hf).symm
      | some m =>
        have h3 := hw.2.2.2.1
        simp only [hf] at h3
        rw [h3, hmt, (sectionType?_iff.mp hT).2 m hf]
    refine ⟨hl :: mid, e, by simp, by simp, ?_, _, m5, rfl⟩
    intro k hk
    rcases List.mem_cons.mp hk with rfl | hk
    · exact ⟨_, e3, by simp only; omega⟩
    · refine ⟨_, m1 k hk, ?_⟩
      simp only; split <;> omega

/-- What was read from lines, and these lines. -/
theorem lines_both {ls ms : List Text} {r s : Text} (hm : ∀ l ∈ ms, '\n' ∉ l) (h : Lines ls (unlines ms ++ r) s) :
    ∃ a b, ls ++ a = ms ++ b := by
  induction ms generalizing ls with
  | nil => exact ⟨[], ls, by simp⟩
  | cons m ms ih =>
    have hmn : '\n' ∉ m := hm m (by simp)
    have e : unlines (m :: ms) ++ r = m ++ '\n' :: (unlines ms ++ r) := by simp
    rw [e] at h
    generalize hx : m ++ '\n' :: (unlines ms ++ r) = x at h
    cases h with
    | nil => exact ⟨m :: ms, [], by simp⟩
    | cons hl hr =>
      rename_i ls l r'
      have a1 : At l (l ++ '\n' :: r') r' := At.nl hl
      have a2 : At m (l ++ '\n' :: r') (unlines ms ++ r) := by rw [← hx]; exact At.nl hmn
      obtain ⟨rfl, rfl⟩ := a1.unique a2
      obtain ⟨a, b, hab⟩ := ih (fun l hl => hm l (by simp [hl])) hr
      exact ⟨a, b, by simp [hab]⟩
    | last hl _ => rw [← hx] at hl; simp at hl

theorem SecL.Valid.core_nl {S : SecL} (hv : S.Valid) : ∀ l ∈ S.core, '\n' ∉ l := by
  intro l hl
  simp only [SecL.core, List.mem_append, List.mem_cons, List.not_mem_nil, or_false] at hl
  rcases hl with (rfl | hl) | rfl
  · exact hv.1.1.1.1
  · obtain ⟨t, h, _⟩ := hv.2.1 l hl; exact h.1
  · obtain ⟨t, h, _⟩ := hv.2.2.1; exact h.1

/-- After the HEAD line of a section of file 32 whose lines are long enough. -/
theorem SecL.Full.lines {S : SecL} (hv : S.Valid) (hf : S.Full) (h32 : S.nums.mf = 32) {t : Nums} (ht : t.mt ≠ 0) (q : Text) :
    FullLines t (unlines (S.body ++ [S.send]) ++ q) := by
  intro ls l r hl ha
  obtain ⟨a, b, hab⟩ := lines_both (fun l hl => hv.core_nl l (by simp only [SecL.core, List.cons_append]; exact List.mem_cons_of_mem _ hl)) hl
  have key : l ∈ S.body ++ [S.send] := by
    rw [List.append_assoc, List.append_assoc] at hab
    rcases List.append_eq_append_iff.mp hab with ⟨c, c1, c2⟩ | ⟨c, c1, c2⟩
    · rw [c1]
      cases c with
      | nil =>
        simp only [List.nil_append, List.cons_append, List.cons.injEq] at c2
        simp [← c2.1]
      | cons y c =>
        simp only [List.cons_append, List.cons.injEq] at c2
        simp [← c2.1]
    · cases c with
      | nil =>
        simp only [List.nil_append, List.cons_append, List.cons.injEq] at c2
        simp [c2.1]
      | cons y c =>
        exfalso
        simp only [List.cons_append, List.nil_append, List.cons.injEq] at c2
        obtain ⟨u, u1, u2⟩ := hv.2.2.1
        have := ha S.send (by rw [c1, c2.1]; simp)
        have := HasTail.unique this u1.2.1
        rw [this] at ht; exact ht u2
  rcases List.mem_append.mp key with hb | hb
  · obtain ⟨u, u1, u2⟩ := hv.2.1 l hb
    have := u1.2.1.long u2
    omega
  · rw [List.mem_singleton.mp hb]; exact hf h32

/-- A section starts with a line that has an MT number. -/
theorem SectionText.head {mf : Int} {x : AnySection} {b : List Text} (h : SectionText mf x b) : ∃ l rest t, b = l :: rest ∧ HasTail t l ∧ t.mt ≠ 0 := by
  obtain ⟨⟨t, ⟨l, rest, d, rfl, hd, rfl⟩, hT⟩, hr⟩ := h
  refine ⟨l, rest, d.tail, rfl, hd.1.2.1, ?_⟩
  obtain ⟨k, hk, h1⟩ := (readsAs_cons (item := fun d => x.1.defn.readSect d d.tail.mat) hd (fun m hm => hr.1 m (by simp [hm]))).mp hr
  have := readSect_mt hd hT (h1 [] 0)
  omega

/-- The text of a section, compared with the lines of a tree section at the same place. -/
theorem SectionText.shape {mf : Int} {x : AnySection} {b : List Text} (h : SectionText mf x b) {S : SecL} (hv : S.Valid) (hf : S.Full) (hS : S.nums.mf = mf)
    {r q : List Text} (he : b ++ r = S.core ++ q) : Shape b := by
  by_cases hne : x.1 = .cov
  · obtain ⟨⟨t, ⟨l, rest, d, rfl, hd, rfl⟩, hT⟩, hr⟩ := h
    obtain ⟨T, x⟩ := x
    cases hne
    have h32 := (sectionType?_cov hT).mpr rfl
    have hn : ∀ m ∈ rest, '\n' ∉ m := fun m hm => hr.1 m (by simp [hm])
    have hL : LocalW (SecType.cov.defn.readSect d d.tail.mat) := SecType.readSect_local .cov d d.tail.mat
    obtain ⟨k, _, h1⟩ := (readsAs_cons (item := fun d => SecType.cov.defn.readSect d d.tail.mat) hd hn (hL := hL)).mp hr
    have h1 := h1 (unlines r ++ ['\n']) 0
    have e2 : rest ++ r = (S.body ++ [S.send]) ++ q := by
      simp only [SecL.core, List.cons_append, List.append_assoc, List.cons.injEq] at he
      simpa using he.2
    have e3 : unlines rest ++ (unlines r ++ ['\n']) = unlines (S.body ++ [S.send]) ++ (unlines q ++ ['\n']) := by
      rw [← List.append_assoc, ← List.append_assoc, ← unlines_append, ← unlines_append, e2]
    have h2 := ResCov.readSect_reads d d.tail.mat ⟨unlines rest ++ (unlines r ++ ['\n']), 0⟩
    rw [show mf32mt151.readSect d d.tail.mat ⟨unlines rest ++ (unlines r ++ ['\n']), 0⟩ = .ok (x, _) from h1] at h2
    obtain ⟨_, _, _, h2⟩ := h2
    obtain ⟨mid, e, m1, _, m3, m4, _⟩ := h2 (.inr (by rw [e3]; exact hf.lines hv (hS.trans h32) (by simp) _))
    have e4 := m1.eq_unlines (by simp)
    simp only at e4
    have e5 : rest = mid ++ [e] := unlines_inj hn m1.nl (List.append_cancel_right e4)
    subst e5
    obtain ⟨c, _, _, m5, _⟩ := m4
    refine ⟨l :: mid, e, by simp, by simp, ?_, _, m5, rfl⟩
    intro m hm
    rcases List.mem_cons.mp hm with rfl | hm
    · refine ⟨_, hd.1.2.1, ?_⟩
      have := (sectionType?_iff.mp hT).2 151 rfl
      omega
    · exact ⟨_, m3 m hm, by simp⟩
  · exact h.shape_std hne

theorem Shape.prefix {a b r q : List Text} (ha : Shape a) (hb : Shape b) (h : a ++ r = b ++ q) : a = b ∧ r = q := by
  obtain ⟨i, s, rfl, _, a2, t, a3, a4⟩ := ha
  obtain ⟨j, u, rfl, _, b2, v, b3, b4⟩ := hb
  have key : i = j ∧ s = u := by
    rename_i n1 n2
    clear n1 n2
    induction i generalizing j with
    | nil =>
      cases j with
      | nil => simp at h; exact ⟨rfl, h.1⟩
      | cons y j =>
        simp only [List.nil_append, List.cons_append, List.cons.injEq] at h
        obtain ⟨w, w1, w2⟩ := b2 y (by simp)
        rw [← h.1] at w1
        rw [← HasTail.unique w1 a3] at a4; exact absurd a4 w2
    | cons x i ih =>
      cases j with
      | nil =>
        simp only [List.nil_append, List.cons_append, List.cons.injEq] at h
        obtain ⟨w, w1, w2⟩ := a2 x (by simp)
        rw [h.1] at w1
        rw [← HasTail.unique w1 b3] at b4; exact absurd b4 w2
      | cons y j =>
        simp only [List.cons_append, List.cons.injEq] at h
        obtain ⟨h1, h2⟩ := ih (fun l hl => a2 l (by simp [hl])) j h.2 (fun l hl => b2 l (by simp [hl]))
        exact ⟨by rw [h.1, h1], h2⟩
  obtain ⟨rfl, rfl⟩ := key
  exact ⟨rfl, List.append_cancel_left h⟩

theorem Shape.head {b : List Text} (h : Shape b) : ∃ l rest t, b = l :: rest ∧ HasTail t l ∧ t.mt ≠ 0 := by
  obtain ⟨i, s, rfl, a1, a2, _⟩ := h
  cases i with
  | nil => exact absurd rfl a1
  | cons x i =>
    obtain ⟨t, h1, h2⟩ := a2 x (by simp)
    exact ⟨x, i ++ [s], t, rfl, h1, h2⟩

/-! ### sections -/

/-- What a tree section parses as is read from a part of its lines. -/
theorem sec_parse_prefix {S : SecL} (hv : S.Valid) {x : AnySection} (h : S.tree.parseAny = .ok x) :
    ∃ ls a b, SectionText S.nums.mf x (S.head.text :: ls) ∧ S.head.text :: ls ++ a = S.core ++ b := by
  have hd := hv.1.1
  unfold TSection.parseAny at h
  simp only [SecL.tree] at h
  cases hT : sectionType? S.nums.mf S.nums.mt with
  | none => simp [hT] at h
  | some T =>
    simp only [hT, TSection.parse] at h
    cases hp : T.defn.parse ⟨unlines S.core, 1⟩ with
    | error e => simp [hp] at h
    | ok y =>
      obtain ⟨y, s'⟩ := y
      simp only [hp, Except.ok.injEq] at h
      subst h
      obtain ⟨d, s1, h1, h2⟩ := Parser.bind_eq_ok.mp hp
      obtain ⟨l, b1, b2, _⟩ := readDivision_inv h1
      have b3 : At S.head.text (unlines S.core) (unlines (S.body ++ [S.send])) := by
        simp only [SecL.core, List.cons_append, unlines_cons]; exact At.nl hd.1.1
      obtain ⟨rfl, e2⟩ := b1.unique b3
      obtain rfl := hd.unique b2
      have h3 : LocalP (fun _ => S.nums.mf ≠ 32) (readAny S.nums.mf S.head.div) := readAny_local _ _
      have h4 : readAny S.nums.mf S.head.div s1 = .ok (⟨T, y⟩, s') := by
        unfold readAny
        simp only [SecL.nums] at hT
        simp only [SecL.nums, hT]
        rw [Parser.bind_ok h2]; rfl
      obtain ⟨ls, k, a1, a2, a4, a3⟩ := h3.run h4
      have a5 := (readAny_rd.mp a3).2
      have hst : SectionText S.nums.mf ⟨T, y⟩ (S.head.text :: ls) :=
        ⟨⟨_, ⟨_, _, _, rfl, hd, rfl⟩, hT⟩, (readsAs_cons (item := fun d => T.defn.readSect d d.tail.mat) hd a1.nl).mpr ⟨k, a4, a5⟩⟩
      have hl : Lines (S.head.text :: ls) (unlines S.core ++ []) s'.rest := by
        simpa using b1.lines.trans a1
      obtain ⟨a, b, hab⟩ := lines_both hv.core_nl hl
      exact ⟨ls, a, b, hst, hab⟩

/-- The tree section parses as `x` exactly if the text of the section is that of `x`. -/
theorem sec_parse {S : SecL} (hv : S.Valid) (hfull : S.Full) {x : AnySection} : S.tree.parseAny = .ok x ↔ SectionText S.nums.mf x S.core := by
  have hd := hv.1.1
  constructor
  · intro h
    obtain ⟨ls, a, b, hst, hab⟩ := sec_parse_prefix hv h
    obtain ⟨h3, _⟩ := (hst.shape hv hfull rfl hab).prefix hv.shape hab
    rw [← h3]; exact hst
  · rintro ⟨⟨t, ⟨l, rest, d, e, hd', rfl⟩, hT⟩, hr⟩
    have hl : S.head.text = l := by simp only [SecL.core, List.cons_append, List.cons.injEq] at e; exact e.1
    rw [← hl] at hd'
    have := hd.unique hd'
    unfold TSection.parseAny
    have hT' : sectionType? S.tree.mf S.tree.mt = some x.1 := by
      have : S.nums = d.tail := by rw [SecL.nums, this]
      simp only [SecL.tree, this] at hT ⊢; exact hT
    rw [hT']
    obtain ⟨k, h1⟩ := hr.run [] 1
    simp only [List.append_nil] at h1
    simp only [TSection.parse, SecL.tree, h1]

theorem sec_parse_mt {S : SecL} (hv : S.Valid) {x : AnySection} (h : S.tree.parseAny = .ok x) :
    x.mt = S.nums.mt ∧ x.mf = S.nums.mf ∧ 1 ≤ S.nums.mat ∧ S.nums.mat ≤ 9999 ∧ sectionType? S.nums.mf S.nums.mt = some x.1 := by
  obtain ⟨ls, _, _, h', _⟩ := sec_parse_prefix hv h
  obtain ⟨h1, _, t, ⟨l, rest, d, e, hd, rfl⟩, h3, h4, h5⟩ := sectionText_info h'
  have hl : S.head.text = l := (List.cons.inj e).1
  rw [← hl] at hd
  have hu := hv.1.1.unique hd
  have : S.nums = d.tail := by rw [SecL.nums, hu]
  refine ⟨by rw [this]; exact h3, h1, by rw [this]; exact h4, by rw [this]; exact h5, ?_⟩
  unfold TSection.parseAny at h
  simp only [SecL.tree] at h
  cases hT : sectionType? S.nums.mf S.nums.mt with
  | none => simp [hT] at h
  | some T =>
    simp only [hT] at h
    split at h
    · cases h; rfl
    · cases h

/-! ### maps -/

/-- Same keys in the same order, related values. -/
def MapRel {α β : Type} (R : α → β → Prop) (m : SMap α) (m' : SMap β) : Prop := All2 (fun e g => e.1 = g.1 ∧ R e.2 g.2) m m'

namespace MapRel
variable {α β : Type} {R : α → β → Prop}

theorem keys {m : SMap α} {m' : SMap β} (h : MapRel R m m') : m'.keys = m.keys := by
  unfold MapRel at h
  induction h with
  | nil => rfl
  | cons h _ ih => simp only [SMap.keys, List.map_cons] at *; rw [ih, h.1]

theorem has {m : SMap α} {m' : SMap β} (h : MapRel R m m') (k : Int) : m'.has k = m.has k := by
  unfold MapRel at h
  induction h with
  | nil => rfl
  | cons h _ ih => simp only [SMap.has, List.any_cons] at *; rw [ih, h.1]

theorem emplaceMulti {m : SMap α} {m' : SMap β} (h : MapRel R m m') {k : Int} {v : α} {w : β} (hv : R v w) :
    MapRel R (SMap.emplaceMulti k v m) (SMap.emplaceMulti k w m') := by
  unfold MapRel at h
  induction h with
  | nil => exact .cons ⟨rfl, hv⟩ .nil
  | cons h hs ih =>
    simp only [SMap.emplaceMulti, h.1]
    split
    · exact .cons ⟨rfl, hv⟩ (.cons h hs)
    · exact .cons h ih

theorem emplace {m : SMap α} {m' : SMap β} (h : MapRel R m m') {k : Int} {v : α} {w : β} (hv : R v w) :
    MapRel R (m.emplace k v) (m'.emplace k w) := by
  unfold SMap.emplace
  rw [h.has]
  split
  · exact h
  · exact h.emplaceMulti hv

theorem foldl {γ δ : Type} {ka : γ → Int} {va : γ → α} {kb : δ → Int} {vb : δ → β} {as : List γ} {bs : List δ}
    (h : All2 (fun a b => ka a = kb b ∧ R (va a) (vb b)) as bs) : ∀ {m : SMap α} {m' : SMap β}, MapRel R m m' →
    MapRel R (as.foldl (fun m a => m.emplace (ka a) (va a)) m) (bs.foldl (fun m b => m.emplace (kb b) (vb b)) m') := by
  induction h with
  | nil => intro m m' h; exact h
  | cons h _ ih =>
    intro m m' hm
    simp only [List.foldl_cons]
    apply ih
    rw [h.1]
    exact hm.emplace h.2

theorem get? {m : SMap α} {m' : SMap β} (h : MapRel R m m') {k : Int} {v : α} (hv : m.get? k = some v) : ∃ w, m'.get? k = some w ∧ R v w := by
  unfold MapRel at h
  induction h with
  | nil => simp [SMap.get?] at hv
  | cons h _ ih =>
    rw [SMap.get?_cons] at *
    rw [← h.1]
    split at hv
    · rename_i hk
      rw [if_pos hk]
      cases hv
      exact ⟨_, rfl, h.2⟩
    · rename_i hk
      rw [if_neg hk]
      exact ih hv

theorem func (hR : ∀ a b c, R a b → R a c → b = c) {m : SMap α} {n p : SMap β} (h1 : MapRel R m n) (h2 : MapRel R m p) : n = p := by
  unfold MapRel at h1 h2
  induction h1 generalizing p with
  | nil => cases h2; rfl
  | cons h hs ih =>
    cases h2 with
    | cons h' hs' =>
      rename_i e g _ _ _ g' _
      rw [ih hs']
      congr 1
      exact Prod.ext (by rw [← h.1, ← h'.1]) (hR _ _ _ h.2 h'.2)

theorem of_get? {m : SMap α} {m' : SMap β} (hs : m.Sorted) (hk : m'.keys = m.keys)
    (h : ∀ k v, m.get? k = some v → ∃ w, m'.get? k = some w ∧ R v w) : MapRel R m m' := by
  induction m generalizing m' with
  | nil =>
    cases m' with
    | nil => exact .nil
    | cons => simp [SMap.keys] at hk
  | cons e m ih =>
    cases m' with
    | nil => simp [SMap.keys] at hk
    | cons g m' =>
      simp only [SMap.keys, List.map_cons, List.cons.injEq] at hk
      have hs' := List.pairwise_cons.mp hs
      refine .cons ⟨hk.1.symm, ?_⟩ (ih hs'.2 hk.2 ?_)
      · obtain ⟨w, h1, h2⟩ := h e.1 e.2 (by rw [SMap.get?_cons, if_pos rfl])
        rw [SMap.get?_cons, if_pos hk.1] at h1
        cases h1; exact h2
      · intro k v hv
        have hlt := hs'.1 _ (SMap.mem_of_get? hv)
        simp only at hlt
        obtain ⟨w, h1, h2⟩ := h k v (by rw [SMap.get?_cons, if_neg (by omega)]; exact hv)
        rw [SMap.get?_cons, if_neg (by omega)] at h1
        exact ⟨w, h1, h2⟩

theorem mono {S : α → β → Prop} (hRS : ∀ a b, R a b → S a b) {m : SMap α} {m' : SMap β} (h : MapRel R m m') : MapRel S m m' :=
  All2.mono (fun _ _ h => ⟨h.1, hRS _ _ h.2⟩) h

end MapRel

/-! ### files -/

/-- The sections of the parsed file are what the sections of the tree file parse as. -/
def FAgrees (t : TFile) (f : PFile) : Prop := f.mf = t.mf ∧ MapRel (fun s x => s.parseAny = .ok x) t.sections f.sections

theorem FAgrees.func {t : TFile} {f g : PFile} (h1 : FAgrees t f) (h2 : FAgrees t g) : f = g := by
  cases f; cases g
  obtain ⟨a1, a2⟩ := h1
  obtain ⟨b1, b2⟩ := h2
  simp only at a1 a2 b1 b2
  rw [a2.func (fun a b c h h' => by rw [h] at h'; exact Except.ok.inj h') b2, a1, b1]

/-- A file that is read by reading its sections. -/
def FileL.Read (F : FileL) : Prop :=
  F.mf ≠ 30 ∧ (F.mf = 8 → ∀ S ∈ F.secs, S.nums.mt = 454 ∨ S.nums.mt = 457 ∨ S.nums.mt = 459) ∧ ∀ S ∈ F.secs, S.Full

theorem file_make {F : FileL} (hv : F.Valid) {f : PFile} :
    (∃ xs, All2 (fun (S : SecL) x => S.tree.parseAny = .ok x) F.secs xs ∧ PFile.make F.mf xs = .ok f) ↔ FAgrees F.tree f := by
  have key : ∀ xs, All2 (fun (S : SecL) x => S.tree.parseAny = .ok x) F.secs xs → ∃ f, PFile.make F.mf xs = .ok f ∧ FAgrees F.tree f := by
    intro xs h
    have h' : All2 (fun (S : SecL) (x : AnySection) => S.nums.mt = x.mt ∧ S.tree.parseAny = .ok x) F.secs xs :=
      All2.mono (fun S x h => ⟨(sec_parse_mt h.2.1 h.1).1.symm, h.1⟩) (all2_with (P := fun S => S.Valid ∧ S.nums.mf = F.mf) hv.1 h)
    have hmap : xs.map AnySection.mt = F.secs.map (fun S => S.nums.mt) := by
      clear h hv
      generalize F.secs = Ss at h'
      induction h' with
      | nil => rfl
      | cons h _ ih => simp only [List.map_cons, ih, h.1]
    have hnd : (xs.map AnySection.mt).Nodup := by rw [hmap]; exact hv.2.1
    refine ⟨⟨F.mf, xs.foldl (fun m b => m.emplace b.mt b) []⟩, ?_, rfl, ?_⟩
    · rw [PFile.make, fillMap_nil, if_pos hnd]
    · exact MapRel.foldl (ka := fun S : SecL => S.nums.mt) (va := SecL.tree) (kb := AnySection.mt) (vb := id) h' .nil
  constructor
  · rintro ⟨xs, h1, h2⟩
    obtain ⟨f', h3, h4⟩ := key xs h1
    rw [h2] at h3; cases h3; exact h4
  · intro h
    obtain ⟨b1, b2⟩ := SMap.build (α := TSection) (fun S : SecL => S.nums.mt) SecL.tree hv.2.1
    obtain ⟨xs, hxs⟩ : ∃ xs, All2 (fun (S : SecL) x => S.tree.parseAny = .ok x) F.secs xs := by
      refine exists_all2 fun S hS => ?_
      obtain ⟨w, _, hw⟩ := h.2.get? ((b2 S.nums.mt S.tree).mpr ⟨S, hS, rfl, rfl⟩)
      exact ⟨w, hw⟩
    obtain ⟨f', h3, h4⟩ := key xs hxs
    rw [h.func h4]
    exact ⟨xs, hxs, h3⟩

theorem FileL.Plain.lines {F : FileL} (h : F.Plain) (hv : F.Valid) : ∃ fend : DLine, fend.IsFend ∧ F.lines = (F.secs.map SecL.core).flatten ++ [fend.text] := by
  obtain ⟨h1, h2⟩ := h
  obtain ⟨fend, hf⟩ := List.length_eq_one_iff.mp h2
  refine ⟨fend, hv.2.2 fend (by simp [hf]), ?_⟩
  rw [FileL.lines, hf]
  congr 1
  rw [List.flatMap_def]
  congr 1
  exact List.map_congr_left fun S hS => by simp [SecL.lines, h1 S hS]

theorem FileL.lines_nl {F : FileL} (h : F.Plain) (hv : F.Valid) : ∀ l ∈ F.lines, '\n' ∉ l := by
  obtain ⟨fend, hf, e⟩ := h.lines hv
  rw [e]
  intro l hl
  rcases List.mem_append.mp hl with hl | hl
  · obtain ⟨b, hb, hl⟩ := List.mem_flatten.mp hl
    obtain ⟨S, hS, rfl⟩ := List.mem_map.mp hb
    have hSv := (hv.1 S hS).1
    simp only [SecL.core, List.mem_append, List.mem_cons, List.not_mem_nil, or_false] at hl
    rcases hl with (rfl | hl) | rfl
    · exact hSv.1.1.1.1
    · obtain ⟨t, h, _⟩ := hSv.2.1 l hl; exact h.1
    · obtain ⟨t, h, _⟩ := hSv.2.2.1; exact h.1
  · rw [List.mem_singleton.mp hl]; exact hf.1.1.1

theorem secs_blocks {mf : Int} {f f' : DLine} (hf : f.IsFend) (hf' : f'.IsFend) {xs : List AnySection} {bs : List (List Text)} (h : All2 (SectionText mf) xs bs)
    {Ss : List SecL} (hS : ∀ S ∈ Ss, (S.Valid ∧ S.nums.mf = mf) ∧ S.Full) {r q : List Text}
    (e : (bs.flatten ++ [f.text]) ++ r = ((Ss.map SecL.core).flatten ++ [f'.text]) ++ q) : bs = Ss.map SecL.core ∧ r = q := by
  induction h generalizing Ss with
  | nil =>
    cases Ss with
    | nil => simp at e; exact ⟨rfl, e.2⟩
    | cons S Ss =>
      exfalso
      obtain ⟨l, rest, t, h1, h2, h3⟩ := (hS S (by simp)).1.1.shape.head
      simp only [List.flatten_nil, List.nil_append, List.map_cons, List.flatten_cons, h1, List.cons_append, List.cons.injEq] at e
      have := HasTail.unique h2 (e.1 ▸ hf.1.1.2.1)
      rw [this] at h3
      exact h3 hf.2.2.2.2
  | cons hx hs ih =>
    rename_i x b xs bs
    cases Ss with
    | nil =>
      exfalso
      obtain ⟨l, rest, t, h1, h2, h3⟩ := hx.head
      simp only [List.flatten_nil, List.nil_append, List.map_nil, List.flatten_cons, h1, List.cons_append, List.cons.injEq] at e
      have := HasTail.unique h2 (e.1 ▸ hf'.1.1.2.1)
      rw [this] at h3
      exact h3 hf'.2.2.2.2
    | cons S Ss =>
      simp only [List.map_cons, List.flatten_cons, List.append_assoc] at e
      obtain ⟨h1, h2⟩ := (hx.shape (hS S (by simp)).1.1 (hS S (by simp)).2 (hS S (by simp)).1.2 e).prefix (hS S (by simp)).1.1.shape e
      obtain ⟨h3, h4⟩ := ih (Ss := Ss) (fun S hS' => hS S (by simp [hS'])) (by simpa using h2)
      exact ⟨by rw [h1, h3]; rfl, h4⟩

theorem all2_swap {α β : Type} {R : α → β → Prop} {as : List α} {bs : List β} (h : All2 R as bs) : All2 (fun b a => R a b) bs as := by
  induction h with
  | nil => exact .nil
  | cons h _ ih => exact .cons h ih

theorem all2_map_left {α β γ : Type} {R : β → γ → Prop} {f : α → β} {as : List α} {cs : List γ} : All2 R (as.map f) cs ↔ All2 (fun a c => R (f a) c) as cs := by
  constructor
  · intro h
    induction as generalizing cs with
    | nil => cases h; exact .nil
    | cons a as ih =>
      rw [List.map_cons] at h
      cases h with
      | cons h1 h2 => exact .cons h1 (ih h2)
  · exact all2_map

/-- The text of a file whose sections parse is read, all of it. -/
theorem file_reads {F : FileL} (hv : F.Valid) (hp : F.Plain) (hr : F.Read) {f : PFile} (h : FAgrees F.tree f) :
    ReadsAs (F.mf ≠ 32) (readFileFrom F.mf) f F.lines := by
  obtain ⟨fend, hf, e⟩ := hp.lines hv
  have hall : ∀ S ∈ F.secs, (S.Valid ∧ S.nums.mf = F.mf) ∧ S.Full := fun S hS => ⟨hv.1 S hS, hr.2.2 S hS⟩
  obtain ⟨xs, h1, h2⟩ := (file_make hv).mpr h
  have hft : FileText F.mf xs F.lines := by
    refine ⟨F.secs.map SecL.core, fend, e, ?_, hf⟩
    refine all2_swap (all2_map_left.mpr ?_)
    exact All2.mono (fun S x h => by rw [← h.2.1.2]; exact (sec_parse h.2.1.1 h.2.2).mp h.1) (all2_with hall h1)
  obtain ⟨k, hk, h4⟩ := readFile_run hr.1 hft
  rw [h2] at h4
  exact ⟨FileL.lines_nl hp hv, k, hk, h4⟩


/-- Reading the text of a file: the same as parsing the sections the tree has found. -/
theorem file_read {F : FileL} (hv : F.Valid) (hp : F.Plain) (hr : F.Read) {f : PFile} {r : Text} {n : Int} {s' : St}
    (h : readFileFrom F.mf ⟨unlines F.lines ++ r, n⟩ = .ok (f, s')) : FAgrees F.tree f ∧ s'.rest = r ∧ (F.mf ≠ 32 → s'.line = n + (F.lines.length : Int)) := by
  have hnl := FileL.lines_nl hp hv
  obtain ⟨fend, hf, e⟩ := hp.lines hv
  have hall : ∀ S ∈ F.secs, (S.Valid ∧ S.nums.mf = F.mf) ∧ S.Full := fun S hS => ⟨hv.1 S hS, hr.2.2 S hS⟩
  have key : FAgrees F.tree f := by
    rw [← file_make hv]
    obtain ⟨d, s1, h1, h2⟩ := Parser.bind_eq_ok.mp h
    obtain ⟨l, a1, a2, a3⟩ := readDivision_inv h1
    have hhead : At F.first.head.text (unlines F.lines ++ r) (unlines (F.lines.drop 1) ++ r) := by
      have : F.lines = F.first.head.text :: F.lines.drop 1 := by simp [FileL.lines, FileL.secs, SecL.lines, SecL.core]
      rw [this]
      simp only [unlines_cons, List.append_assoc, List.cons_append, List.drop_succ_cons, List.drop_zero]
      exact At.nl hv.isHead.1.1.1
    obtain ⟨rfl, e3⟩ := a1.unique hhead
    have hd := hv.isHead.1.unique a2
    have h8 : Plain8 F.mf d.tail.mt := by
      intro h8
      have := hr.2.1 h8 F.first (by simp [FileL.secs])
      rw [SecL.nums, show F.first.head.div = d from hd] at this
      exact this
    obtain ⟨xs, rest, b1, ⟨bs, f', c1, c2, c3⟩, b4⟩ := readFile_inv hr.1 a2 h8 h2
    obtain ⟨a, b, hab⟩ := lines_both hnl (show Lines (F.first.head.text :: rest) (unlines F.lines ++ r) s'.rest from a1.lines.trans b1)
    rw [c1, e] at hab
    obtain ⟨h3, _⟩ := secs_blocks c3 hf c2 hall hab
    have hxs : All2 (fun (S : SecL) x => S.tree.parseAny = .ok x) F.secs xs := by
      rw [h3] at c2
      refine All2.mono (fun S x h => ?_) (all2_with hall (all2_map_left.mp (all2_swap c2)))
      have := h.1
      rw [← h.2.1.2] at this
      exact (sec_parse h.2.1.1 h.2.2).mpr this
    exact ⟨xs, hxs, b4⟩
  obtain ⟨_, k, hk, h1⟩ := file_reads hv hp hr key
  rw [h1] at h
  cases h
  exact ⟨key, rfl, fun h => by rw [hk h]⟩

end ENDFtk

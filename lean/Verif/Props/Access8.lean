import Verif.Props.Access7
/-
  C62, part 8: the getters of file 2, for what was read: the lines of the text that the values come from.
-/
set_option linter.unusedVariables false
set_option linter.unusedSectionVars false
set_option linter.unusedSimpArgs false
namespace ENDFtk.Props
variable [Disco]

/-! ### specification: the number of lines -/

/-- Number of lines of LIST records. -/
def listsLines (l : List LIST) : Nat := (l.map (fun r => recLines (.list r))).sum

def backgroundLines : Background → Nat
  | .none => 1
  | .tabulated a b => 1 + recLines (.tab1 a) + recLines (.tab1 b)
  | .sammy _ _ v | .frohner _ _ v => 2 + (v.length + 5) / 6

/-- The two LIST records of a spin group and the background R-matrices of its channels. -/
def spinLines (g : SpinGroup) : Nat := recLines (.list g.1.1) + recLines (.list g.1.2) + (g.2.map (fun o => o.elim 0 backgroundLines)).sum

def lvalueLines (l : LValueC) : Nat := 1 + listsLines l.2.2

def paramsLines : ResParams → Nat
  | .special _ _ => 1
  | .slbw b | .mlbw b | .reichMoore b => 1 + listsLines b.2.2
  | .rml b => 1 + recLines (.list b.2.1) + (b.2.2.map spinLines).sum
  | .caseA b => 1 + listsLines b.2.2
  | .caseB b => recLines (.list b.1) + (b.2.map lvalueLines).sum
  | .caseC b => 1 + (b.2.2.map lvalueLines).sum

def radiusLines (r : Option TAB1) : Nat := r.elim 0 (fun t => recLines (.tab1 t))

def rangeLines (x : ResRange) : Nat := 1 + radiusLines x.radius + paramsLines x.parameters

def isotopeLines (x : Isotope) : Nat := 1 + (x.ranges.map rangeLines).sum

/-! ### specification: what the lines say -/

/-- Line `k` is the first one of this LIST record. -/
def ListAt (s : St) (k : Nat) (l : LIST) : Prop := LineShows k s ⟨l.c1, l.c2, l.l1, l.l2, l.npl, l.n2⟩

/-- LIST records one after the other from line `k` on. -/
def ListsAt (s : St) (k : Nat) (ls : List LIST) : Prop := ∀ i l, ls[i]? = some l → ListAt s (k + listsLines (ls.take i)) l

/-- Line `k` is the CONT record of this l value: AWRI is C1, L is L1, NJS is N1; its LIST records follow. -/
def LValueAt (s : St) (k : Nat) (l : LValueC) : Prop :=
  (∃ c, LineShows k s c ∧ Get.LValue.AWRI l = c.c1 ∧ Get.LValue.L l = toInt32 c.l1 ∧ Get.LValue.NJS l = toInt32 c.n1) ∧ ListsAt s (k + 1) (Get.LValue.jValues l)

/-- l values one after the other from line `k` on. -/
def LValuesAt (s : St) (k : Nat) (ls : List LValueC) : Prop := ∀ i l, ls[i]? = some l → LValueAt s (k + ((ls.take i).map lvalueLines).sum) l

/-- Line `k` is a CONT record with the spin, the scattering radius, LAD, NLS and NLSC; the l values follow. -/
def BreitWignerAt (s : St) (k : Nat) (b : BwHeader × Unit × List LIST) : Prop :=
  (∃ c, LineShows k s c ∧ Get.BreitWigner.SPI b = c.c1 ∧ Get.BreitWigner.AP b = c.c2 ∧ (Get.BreitWigner.LAD b = true ↔ c.l1 ≠ 0) ∧
    Get.BreitWigner.NLS b = toInt32 c.n1 ∧ Get.BreitWigner.NLSC b = toInt32 c.n2) ∧ ListsAt s (k + 1) (Get.BreitWigner.lValues b)

/-- The parameters begin on line `k`. -/
def ParamsAt (s : St) (k : Nat) : ResParams → Prop
  | .special spi ap => ∃ c, LineShows k s c ∧ spi = c.c1 ∧ ap = c.c2
  | .slbw b | .mlbw b | .reichMoore b => BreitWignerAt s k b
  | .rml b => (∃ c, LineShows k s c ∧ (Get.RMatrix.IFG b = true ↔ c.l1 ≠ 0) ∧ Get.RMatrix.KRM b = toInt32 c.l2 ∧ Get.RMatrix.NJS b = toInt32 c.n1 ∧
      (Get.RMatrix.KRL b = true ↔ c.n2 ≠ 0)) ∧ ListAt s (k + 1) (Get.RMatrix.particlePairs b) ∧
      ∀ i g, (Get.RMatrix.spinGroups b)[i]? = some g →
        ListAt s (k + 1 + recLines (.list (Get.RMatrix.particlePairs b)) + (((Get.RMatrix.spinGroups b).take i).map spinLines).sum) (Get.Spin.channels g) ∧
        ListAt s (k + 1 + recLines (.list (Get.RMatrix.particlePairs b)) + (((Get.RMatrix.spinGroups b).take i).map spinLines).sum + recLines (.list (Get.Spin.channels g)))
          (Get.Spin.parameters g)
  | .caseA b => (∃ c, LineShows k s c ∧ Get.CaseA.SPI b = c.c1 ∧ Get.CaseA.AP b = c.c2 ∧ (Get.CaseA.LSSF b = true ↔ c.l1 ≠ 0) ∧ Get.CaseA.NLS b = toInt32 c.n1) ∧
      ListsAt s (k + 1) (Get.CaseA.lValues b)
  | .caseB b => (∃ c, LineShows k s c ∧ Get.CaseB.SPI b = c.c1 ∧ Get.CaseB.AP b = c.c2 ∧ (Get.CaseB.LSSF b = true ↔ c.l1 ≠ 0) ∧ (Get.CaseB.ES b).length = c.n1 ∧
      Get.CaseB.NLS b = toInt32 c.n2) ∧ LValuesAt s (k + recLines (.list b.1)) (Get.CaseB.lValues b)
  | .caseC b => (∃ c, LineShows k s c ∧ Get.CaseC.SPI b = c.c1 ∧ Get.CaseC.AP b = c.c2 ∧ (Get.CaseC.LSSF b = true ↔ c.l1 ≠ 0) ∧ Get.CaseC.NLS b = toInt32 c.n1) ∧
      LValuesAt s (k + 1) (Get.CaseC.lValues b)

/-- Line `k` is the CONT record of this range: EL, EH, LRU, LRF, NRO, NAPS; then comes the scattering radius, if there is one, then the parameters. -/
def RangeAt (s : St) (k : Nat) (x : ResRange) : Prop :=
  (∃ c, LineShows k s c ∧ Get.Range.EL x = c.c1 ∧ Get.Range.EH x = c.c2 ∧ Get.Range.LRU x = toInt32 c.l1 ∧
    (Get.Range.LRU x ≠ 0 → Get.Range.LRF x = toInt32 c.l2) ∧ (Get.Range.NRO x = true ↔ toInt32 c.n1 ≠ 0) ∧ Get.Range.NAPS x = toInt32 c.n2) ∧
  (∀ r, Get.Range.scatteringRadius x = some r → ∃ c, LineShows (k + 1) s c ∧ r.NR = c.n1 ∧ r.NP = c.n2) ∧
  ParamsAt s (k + 1 + radiusLines x.radius) (Get.Range.parameters x)

/-- Line `k` is the CONT record of this isotope: ZAI (rounded), ABN, LFW and NER; the ranges follow. -/
def IsotopeAt (s : St) (k : Nat) (x : Isotope) : Prop :=
  (∃ c, LineShows k s c ∧ Get.Isotope2.ZAI x = toInt32 (Disco.round c.c1) ∧ Get.Isotope2.ABN x = c.c2 ∧ (Get.Isotope2.LFW x = 1 ↔ c.l2 ≠ 0) ∧
    Get.Isotope2.NER x = toInt32 c.n1) ∧
  ∀ i r, (Get.Isotope2.resonanceRanges x)[i]? = some r → RangeAt s (k + 1 + (((Get.Isotope2.resonanceRanges x).take i).map rangeLines).sum) r

/-! ### the number of lines of the records -/

theorem lists_sum (l : List LIST) : ((l.map Rec.list).map recLines).sum = listsLines l := by rw [List.map_map]; rfl

theorem background_lines (x : Int × Background) (rs : List Rec) (h : Fmt.background x rs) : (rs.map recLines).sum = backgroundLines x.2 := by
  obtain ⟨k, b⟩ := x
  obtain ⟨c, r, rfl, -, h⟩ := h
  cases b with
  | none => obtain ⟨-, rfl⟩ := h; rfl
  | tabulated a b => obtain ⟨-, rfl, -⟩ := h; simp [backgroundLines, recLines]; omega
  | sammy ed eu v => obtain ⟨-, l, rfl, -, -, rfl, -⟩ := h; simp [backgroundLines, recLines]; omega
  | frohner ed eu v => obtain ⟨-, l, rfl, -, -, rfl, -⟩ := h; simp [backgroundLines, recLines]; omega

theorem present_sum (f : Background → Nat) (bs : List (Option Background)) (i : Nat) :
    ((presentFrom i bs).map (fun x => f x.2)).sum = (bs.map (fun o => o.elim 0 f)).sum := by
  induction bs generalizing i with
  | nil => rfl
  | cons b bs ih => cases b <;> simp [presentFrom, ih]

theorem spin_lines (x : SpinGroup) (rs : List Rec) (h : Fmt.spinGroup x rs) : (rs.map recLines).sum = spinLines x := by
  obtain ⟨r, items, rfl, -, -, -, -, hm, -, -, h1, h2, h3⟩ := h
  have e := many_sum (f := fun y => backgroundLines y.2) background_lines hm
  have hp := present_perm h2 (fun y hy => (h1 y hy).1) h3
  have e2 := (hp.map (fun y => backgroundLines y.2)).sum_nat
  rw [present_sum] at e2
  simp only [List.map_cons, List.sum_cons, e, e2, spinLines]
  omega

theorem lvalue_lines {P : LIST → Prop} (x : LValueC) (rs : List Rec) (h : Fmt.lvalue P x rs) : (rs.map recLines).sum = lvalueLines x := by
  obtain ⟨c, rfl, -⟩ := h
  simp only [List.map_cons, List.sum_cons, lists_sum, lvalueLines]; rfl

theorem bw_lines (x : BwHeader × Unit × List LIST) (rs : List Rec) (h : Fmt.breitWigner x rs) : (rs.map recLines).sum = 1 + listsLines x.2.2 := by
  obtain ⟨c, rfl, -⟩ := h
  simp only [List.map_cons, List.sum_cons, lists_sum]; rfl

theorem params_lines {lru lrf lfw : Int} (x : ResParams) (rs : List Rec) (h : Fmt.resParams lru lrf lfw x rs) : (rs.map recLines).sum = paramsLines x := by
  cases x with
  | special => obtain ⟨-, c, rfl, -⟩ := h; rfl
  | slbw b => exact bw_lines b rs h.2.2
  | mlbw b => exact bw_lines b rs h.2.2
  | reichMoore b => exact bw_lines b rs h.2.2.1
  | rml b =>
    obtain ⟨-, -, c, r, rfl, -, -, -, -, -, -, -, hm⟩ := h
    simp only [List.map_cons, List.sum_cons, many_sum spin_lines hm, paramsLines]
    rw [Nat.add_assoc]; rfl
  | caseA b =>
    obtain ⟨-, -, -, c, rfl, -⟩ := h
    simp only [List.map_cons, List.sum_cons, lists_sum, paramsLines]; rfl
  | caseB b =>
    obtain ⟨-, -, -, r, rfl, -, -, hm⟩ := h
    simp only [List.map_cons, List.sum_cons, many_sum lvalue_lines hm, paramsLines]
  | caseC b =>
    obtain ⟨-, -, c, r, rfl, -, -, -, -, -, hm⟩ := h
    simp only [List.map_cons, List.sum_cons, many_sum lvalue_lines hm, paramsLines]; rfl

theorem radius_lines (o : Option TAB1) : ((o.toList.map Rec.tab1).map recLines).sum = radiusLines o := by cases o <;> simp [radiusLines]

theorem range_lines {lfw : Int} (x : ResRange) (rs : List Rec) (h : Fmt.resRange lfw x rs) : (rs.map recLines).sum = rangeLines x := by
  obtain ⟨c, r, rfl, -, -, -, hp, -⟩ := h
  simp only [List.cons_append, List.map_cons, List.map_append, List.sum_cons, List.sum_append, radius_lines, params_lines _ _ hp, rangeLines]
  rw [← Nat.add_assoc]; rfl

theorem isotope_lines (x : Isotope) (rs : List Rec) (h : Fmt.isotope x rs) : (rs.map recLines).sum = isotopeLines x := by
  obtain ⟨c, r, rfl, -, -, -, -, hm⟩ := h
  simp only [List.map_cons, List.sum_cons, many_sum range_lines hm, isotopeLines]; rfl

/-! ### the lines of the records -/

/-- The records `rs` begin on line `k`. -/
def RecsFrom (s : St) (k : Nat) (rs : List Rec) : Prop := ∀ pre r post c, rs = pre ++ r :: post → recLine r = some c → LineShows (k + (pre.map recLines).sum) s c

theorem from_mid {s : St} {k : Nat} {a b c : List Rec} (h : RecsFrom s k (a ++ b ++ c)) : RecsFrom s (k + (a.map recLines).sum) b := by
  rintro pre r post d rfl hd
  have := h (a ++ pre) r (post ++ c) d (by simp) hd
  simpa [Nat.add_assoc] using this

theorem from_tail {s : St} {k : Nat} {a : Rec} {b : List Rec} (h : RecsFrom s k (a :: b)) : RecsFrom s (k + recLines a) b := by
  have := from_mid (a := [a]) (b := b) (c := []) (by simpa using h)
  simpa using this

theorem from_head {s : St} {k : Nat} {a : Rec} {b : List Rec} (h : RecsFrom s k (a :: b)) {c : Cont} (hc : recLine a = some c) : LineShows k s c := by
  simpa using h [] a b c rfl hc

theorem from_many {α : Type} {P : α → List Rec → Prop} {f : α → Nat} {Q : Nat → α → Prop} {s : St} (hf : ∀ x r, P x r → (r.map recLines).sum = f x)
    (hq : ∀ k x r, P x r → RecsFrom s k r → Q k x) {l : List α} {rs : List Rec} (hm : Many P l rs) {k : Nat} (h : RecsFrom s k rs) :
    ∀ i x, l[i]? = some x → Q (k + ((l.take i).map f).sum) x := by
  intro i x hi
  obtain ⟨pre, ri, post, rfl, h1, h2⟩ := many_at hf hm hi
  rw [← h2]
  exact hq _ _ _ h1 (from_mid h)

theorem lists_at {s : St} {k : Nat} {ls : List LIST} (h : RecsFrom s k (ls.map .list)) : ListsAt s k ls := by
  intro i l hi
  have hl : ls = ls.take i ++ l :: ls.drop (i + 1) := by
    obtain ⟨h1, h2⟩ := List.getElem?_eq_some_iff.mp hi
    rw [← h2, List.getElem_cons_drop, List.take_append_drop]
  have := h ((ls.take i).map .list) (.list l) ((ls.drop (i + 1)).map .list) _ (by
    conv => lhs; rw [hl]
    simp) rfl
  rw [lists_sum] at this
  exact this

theorem lvalue_at {P : LIST → Prop} {s : St} (k : Nat) (x : LValueC) (rs : List Rec) (h : Fmt.lvalue P x rs) (hr : RecsFrom s k rs) : LValueAt s k x := by
  obtain ⟨c, rfl, h1, h2, h3, -⟩ := h
  exact ⟨⟨c, from_head hr rfl, h1, h2, asInt_of h3⟩, lists_at (from_tail hr)⟩

theorem bw_at {s : St} {k : Nat} {b : BwHeader × Unit × List LIST} {rs : List Rec} (h : Fmt.breitWigner b rs) (hr : RecsFrom s k rs) : BreitWignerAt s k b := by
  obtain ⟨c, rfl, h1, h2, h3, h4, h5, -⟩ := h
  exact ⟨⟨c, from_head hr rfl, h1, h2, h3, asInt_of h5, h4⟩, lists_at (from_tail hr)⟩

theorem list_at {s : St} {k : Nat} {l : LIST} {rs : List Rec} (hr : RecsFrom s k (.list l :: rs)) : ListAt s k l := from_head hr rfl

theorem params_at {s : St} {k : Nat} {lru lrf lfw : Int} {x : ResParams} {rs : List Rec} (h : Fmt.resParams lru lrf lfw x rs) (hr : RecsFrom s k rs) :
    ParamsAt s k x := by
  cases x with
  | special => obtain ⟨-, c, rfl, h1, h2⟩ := h; exact ⟨c, from_head hr rfl, h1, h2⟩
  | slbw b => exact bw_at h.2.2 hr
  | mlbw b => exact bw_at h.2.2 hr
  | reichMoore b => exact bw_at h.2.2.1 hr
  | rml b =>
    obtain ⟨-, -, c, r, rfl, h1, h2, h3, -, -, h4, -, hm⟩ := h
    have hu : Get.RMatrix.NJS b = toInt32 c.n1 := by
      have := isInt32_toInt32 c.n1
      unfold IsInt32 at this
      rw [Get.RMatrix.NJS, h4]; exact toUInt32_of ⟨by omega, by omega⟩
    have hr1 := from_tail hr
    have hr2 := from_tail hr1
    refine ⟨⟨c, from_head hr rfl, h1, h2, hu, h3⟩, list_at hr1, ?_⟩
    intro i g hi
    exact from_many (f := spinLines) (Q := fun k g => ListAt s k (Get.Spin.channels g) ∧ ListAt s (k + recLines (.list (Get.Spin.channels g))) (Get.Spin.parameters g))
      spin_lines (fun k g r hg hk => by
        obtain ⟨r, items, rfl, -⟩ := hg
        exact ⟨list_at hk, list_at (from_tail hk)⟩) hm hr2 i g hi
  | caseA b =>
    obtain ⟨-, -, -, c, rfl, h1, h2, h3, h4, -⟩ := h
    exact ⟨⟨c, from_head hr rfl, h1, h2, h3, asInt_of h4⟩, lists_at (from_tail hr)⟩
  | caseB b =>
    obtain ⟨-, -, -, r, rfl, h1, -, hm⟩ := h
    refine ⟨⟨_, from_head hr rfl, rfl, rfl, ?_, rfl, asInt_of h1⟩, from_many lvalue_lines lvalue_at hm (from_tail hr)⟩
    simp [Get.CaseB.LSSF]
  | caseC b =>
    obtain ⟨-, -, c, r, rfl, h1, h2, h3, h4, -, hm⟩ := h
    exact ⟨⟨c, from_head hr rfl, h1, h2, h3, asInt_of h4⟩, from_many lvalue_lines lvalue_at hm (from_tail hr)⟩

theorem params_lru {lru lrf lfw : Int} {x : ResParams} {rs : List Rec} (h : Fmt.resParams lru lrf lfw x rs) : x.lru = lru ∧ (x.lru ≠ 0 → x.lrf = lrf) := by
  cases x with
  | special => exact ⟨h.1.symm, fun h => absurd rfl h⟩
  | _ => exact ⟨h.1.symm, fun _ => h.2.1.symm⟩

theorem range_at {lfw : Int} {s : St} (k : Nat) (x : ResRange) (rs : List Rec) (h : Fmt.resRange lfw x rs) (hr : RecsFrom s k rs) : RangeAt s k x := by
  obtain ⟨c, r, rfl, h1, h2, h3, hp, -, h4⟩ := h
  obtain ⟨p1, p2⟩ := params_lru hp
  rw [List.cons_append] at hr
  refine ⟨⟨c, from_head hr rfl, h1, h2, p1, p2, ?_, h3⟩, ?_, ?_⟩
  · rcases h4 with ⟨a, b, -⟩ | ⟨a, b, -⟩
    · simp [Get.Range.NRO, a, b]
    · simp only [Get.Range.NRO, a, Option.isSome_iff_ne_none]; simpa using b
  · intro t ht
    have ht : x.radius = some t := ht
    have := from_tail hr
    rw [ht] at this
    exact ⟨_, from_head (a := .tab1 t) this rfl, rfl, rfl⟩
  · have := from_mid (a := x.radius.toList.map Rec.tab1) (b := r) (c := []) (k := k + 1) (s := s) (by rw [List.append_nil]; exact from_tail hr)
    rw [radius_lines] at this
    exact params_at hp this

theorem isotope_at {s : St} (k : Nat) (x : Isotope) (rs : List Rec) (h : Fmt.isotope x rs) (hr : RecsFrom s k rs) : IsotopeAt s k x := by
  obtain ⟨c, r, rfl, h1, h2, h3, h4, hm⟩ := h
  refine ⟨⟨c, from_head hr rfl, h1, h2, ?_, ?_⟩, from_many range_lines range_at hm (from_tail hr)⟩
  · rw [← h3]; cases hx : x.lfw <;> simp [Get.Isotope2.LFW, hx]
  · have := isInt32_toInt32 c.n1
    unfold IsInt32 at this
    rw [Get.Isotope2.NER, h4]; exact toUInt32_of ⟨by omega, by omega⟩

/-- NIS is N1 of the HEAD record; isotope i begins on the line after the isotopes before it. -/
theorem C62_text_mf2mt151 {s s' : St} {x : Sect (List Isotope)} (h : (SectionType.mf2mt151).defn.parse s = .ok (x, s')) :
    ∃ a, LineShows 0 s a ∧ Get.MF2MT151.NIS x = toInt32 a.n1 ∧
      ∀ i y, (Get.MF2MT151.isotopes x)[i]? = some y → IsotopeAt s (1 + (((Get.MF2MT151.isotopes x).take i).map isotopeLines).sum) y := by
  obtain ⟨a, mt, rs, l0, hb, hr⟩ := C62_records .mf2mt151 h
  obtain ⟨b1, -, b2⟩ := hb
  refine ⟨a, l0, ?_, from_many isotope_lines isotope_at b2 hr⟩
  have := isInt32_toInt32 a.n1
  unfold IsInt32 at this
  rw [Get.MF2MT151.NIS, b1]; exact toUInt32_of ⟨by omega, by omega⟩

/-- LSSF is L1 of the HEAD record, INT its N2; the temperature is C1, NREAC, NSIGZ, NW and NUNR are L1, L2, N1, N2 of the next line. -/
theorem C62_text_mf2mt152 {s s' : St} {x : Sect Dilution} (h : (SectionType.mf2mt152).defn.parse s = .ok (x, s')) :
    ∃ a c, LineShows 0 s a ∧ LineShows 1 s c ∧ (Get.MF2MT152.LSSF x = true ↔ a.l1 ≠ 0) ∧ Get.MF2MT152.interpolation x = toInt32 a.n2 ∧
      Get.MF2MT152.TEMZ x = c.c1 ∧ Get.MF2MT152.NREAC x = toInt32 c.l1 ∧ Get.MF2MT152.NSIGZ x = toInt32 c.l2 ∧ Get.MF2MT152.NW x = toInt32 c.n1 ∧
      Get.MF2MT152.NUNR x = toInt32 c.n2 ∧
      Get.MF2MT152.NW x = Get.MF2MT152.NSIGZ x + Get.MF2MT152.NUNR x * (1 + Get.MF2MT152.NREAC x * Get.MF2MT152.NSIGZ x) := by
  obtain ⟨a, mt, rs, l0, hb, hr⟩ := C62_records .mf2mt152 h
  obtain ⟨b1, b2, rfl, b3⟩ := hb
  exact ⟨a, _, l0, hr [] _ _ _ rfl rfl, b1, b2, rfl, rfl, rfl, rfl, rfl, b3.1⟩

/-- `EUNR()` counts five reactions for each energy, whatever NREAC is: for a table with one reaction, one dilution and two energies it is missing an energy. -/
theorem C62_energies_five_reactions (t s e1 x1 e2 x2 z : Dbl) :
    let l : LIST := ⟨t, z, 1, 1, 2, [s, e1, x1, e2, x2]⟩
    dilutionC.Valid l ∧ DilutionTables.numberReactions l = 1 ∧ DilutionTables.numberEnergies l = 2 ∧ DilutionTables.energies l = .ok [e1] := by
  have e1 : toInt32 1 = 1 := toInt32_of (by decide)
  have e2 : toInt32 2 = 2 := toInt32_of (by decide)
  have e5 : toInt32 5 = 5 := toInt32_of (by decide)
  refine ⟨⟨?_, ?_⟩, e1, e2, ?_⟩
  · exact ⟨(by decide : fits 11 1), (by decide : fits 11 1), (by decide : fits 11 5), (by decide : fits 11 2)⟩
  · simp [dilutionSizeOk, dilutionOv, Over, LIST.npl, e1, e2, e5]
  · simp only [DilutionTables.energies, e1]
    simp [dropE, strideE, Except.bind, strideL]

end ENDFtk.Props

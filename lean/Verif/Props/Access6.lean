import Verif.Props.Access5
/-
  C62, part 6: the getters of files 31, 33, 34, 35 and 40.
-/
set_option linter.unusedVariables false
set_option linter.unusedSectionVars false
set_option linter.unusedSimpArgs false
namespace ENDFtk.Props
variable [Disco]

/-! ### specification: where a block is -/

/-- The number of lines of a reaction block: its CONT record, the derived covariances (a CONT and a LIST record each), the explicit ones. -/
def reactionLines (b : ReactionBlock) : Nat :=
  1 + (b.derived.map (fun d => 1 + recLines (.list d.list))).sum + (b.explicit.map (fun l => recLines (.list l))).sum

/-- The number of lines of a Legendre block: its CONT record and the explicit covariances. -/
def legendreLines (b : LegendreBlock) : Nat := 1 + (b.data.map (fun l => recLines (.list l))).sum

def reactionLines34 (b : ReactionBlock34) : Nat := 1 + (b.blocks.map legendreLines).sum
def levelLines (b : LevelBlock) : Nat := 1 + (b.reactions.map reactionLines).sum

/-- Line `k` is the CONT record of this reaction block. -/
def ReactionAt (s : St) (k : Nat) (b : ReactionBlock) : Prop := ∃ c, LineShows k s c ∧
  Get.Reaction33.XMF1 b = toInt32 (Disco.round c.c1) ∧ Get.Reaction33.XLFS1 b = toInt32 (Disco.round c.c2) ∧ Get.Reaction33.MAT1 b = toInt32 c.l1 ∧
  Get.Reaction33.MT1 b = toInt32 c.l2 ∧ (0 ≤ toInt32 c.n1 → Get.Reaction33.NK b = toInt32 c.n1) ∧ Get.Reaction33.NI b = toInt32 c.n2

/-! ### records of blocks -/

theorem many_at {α : Type} {P : α → List Rec → Prop} {f : α → Nat} (hf : ∀ x r, P x r → (r.map recLines).sum = f x) {l : List α} {rs : List Rec}
    (hm : Many P l rs) : ∀ {i : Nat} {x : α}, l[i]? = some x →
    ∃ pre ri post, rs = pre ++ ri ++ post ∧ P x ri ∧ (pre.map recLines).sum = ((l.take i).map f).sum := by
  induction l generalizing rs with
  | nil => intro i x hi; simp at hi
  | cons y l ih =>
    intro i x hi
    obtain ⟨u, v, rfl, hu, hv⟩ := many_cons.mp hm
    cases i with
    | zero => cases hi; exact ⟨[], u, v, rfl, hu, rfl⟩
    | succ i =>
      obtain ⟨pre, ri, post, rfl, h1, h2⟩ := ih hv (by simpa using hi)
      exact ⟨u ++ pre, ri, post, by simp, h1, by simp [h2, hf _ _ hu]⟩

theorem many_sum {α : Type} {P : α → List Rec → Prop} {f : α → Nat} (hf : ∀ x r, P x r → (r.map recLines).sum = f x) {l : List α} {rs : List Rec}
    (hm : Many P l rs) : (rs.map recLines).sum = (l.map f).sum := by
  induction l generalizing rs with
  | nil => cases hm; rfl
  | cons y l ih =>
    obtain ⟨u, v, rfl, hu, hv⟩ := many_cons.mp hm
    simp [hf _ _ hu, ih hv]

theorem derived_lines (x : Derived) (rs : List Rec) (h : Fmt.derived x rs) : (rs.map recLines).sum = 1 + recLines (.list x.list) := by
  obtain ⟨c, h⟩ := h
  cases x with
  | redundant l => obtain ⟨-, rfl⟩ := h; simp [recLines, Derived.list]
  | ratio y l => obtain ⟨-, -, rfl⟩ := h; simp [recLines, Derived.list]

theorem reaction_lines (x : ReactionBlock) (rs : List Rec) (h : Fmt.reactionBlock x rs) : (rs.map recLines).sum = reactionLines x := by
  obtain ⟨c, r, rfl, -, -, -, -, -, -, hm, -⟩ := h
  have := many_sum derived_lines hm
  simp only [List.map_append, List.map_cons, List.sum_append, List.sum_cons, List.map_map, this, reactionLines, Function.comp_def]
  rfl

theorem legendre_lines (x : LegendreBlock) (rs : List Rec) (h : Fmt.legendreBlock x rs) : (rs.map recLines).sum = legendreLines x := by
  obtain ⟨c, rfl, -⟩ := h
  simp only [List.map_cons, List.sum_cons, List.map_map, legendreLines, Function.comp_def]
  rfl

theorem reaction_lines34 (mt : Int) (x : ReactionBlock34) (rs : List Rec) (h : Fmt.reactionBlock34 mt x rs) : (rs.map recLines).sum = reactionLines34 x := by
  obtain ⟨c, r, rfl, -, -, -, -, -, hm⟩ := h
  have := many_sum legendre_lines hm
  simp only [List.map_cons, List.sum_cons, this, reactionLines34]
  rfl

theorem level_lines (x : LevelBlock) (rs : List Rec) (h : Fmt.levelBlock x rs) : (rs.map recLines).sum = levelLines x := by
  obtain ⟨c, r, rfl, -, -, -, -, -, hm⟩ := h
  have := many_sum reaction_lines hm
  simp only [List.map_cons, List.sum_cons, this, levelLines]
  rfl

theorem reaction_at {s : St} {k : Nat} {b : ReactionBlock} {ri : List Rec} (h : Fmt.reactionBlock b ri)
    (hr : ∀ r post c, ri = r :: post → recLine r = some c → LineShows k s c) : ReactionAt s k b := by
  obtain ⟨c, r, rfl, h1, h2, h3, h4, h5, h6, -⟩ := h
  refine ⟨c, hr _ _ _ rfl rfl, h1, h2, h3, h4, fun h0 => ?_, asInt_of h6⟩
  have := toInt32_range c.n1
  rw [Get.Reaction33.NK, asInt_lt (by omega)]; omega

/-! ### reaction blocks made by the constructor -/

theorem C62_made_reactionBlock (xmf1 xlfs1 mat1 mt1 : Int) (nc : List Derived) (ni : List LIST) (hn : (nc.length : Int) < 2147483648)
    (hi : (ni.length : Int) < 2147483648) :
    let b := Make.reactionBlock xmf1 xlfs1 mat1 mt1 nc ni
    Get.Reaction33.XMF1 b = xmf1 ∧ Get.Reaction33.XLFS1 b = xlfs1 ∧ Get.Reaction33.MAT1 b = mat1 ∧ Get.Reaction33.MT1 b = mt1 ∧
    Get.Reaction33.NK b = nc.length ∧ Get.Reaction33.NI b = ni.length ∧ b.derived = nc ∧ b.explicit = ni :=
  ⟨rfl, rfl, rfl, rfl, asInt_lt hn, asInt_lt hi, rfl, rfl⟩

/-! ### MF31 and MF33 -/

theorem C62_made_mf31 {mt za : Int} {awr : Dbl} {reactions : List ReactionBlock} {x : Sect (List ReactionBlock)} (h : Make.mf31 mt za awr reactions = .ok x)
    (hn : (reactions.length : Int) < 2147483648) : x.ZA = za ∧ x.AWR = awr ∧ x.MT = mt ∧ Get.MF31.NL x = reactions.length ∧ x.data = reactions := by
  have e := build_eq h
  subst e
  exact ⟨rfl, rfl, rfl, asInt_lt hn, rfl⟩

/-- NL is N2 of the HEAD record; reaction block i is on the line after the blocks before it. -/
theorem C62_text_mf31 {s s' : St} {x : Sect (List ReactionBlock)} (h : (SectionType.mf31).defn.parse s = .ok (x, s')) :
    ∃ a, LineShows 0 s a ∧ Get.MF31.NL x = toInt32 a.n2 ∧
      ∀ i b, x.data[i]? = some b → ReactionAt s (1 + ((x.data.take i).map reactionLines).sum) b := by
  obtain ⟨a, mt, rs, l0, hb, hr⟩ := C62_records .mf31 h
  obtain ⟨b1, b2⟩ := hb
  refine ⟨a, l0, asInt_of b1, fun i b hi => ?_⟩
  obtain ⟨pre, ri, post, rfl, h1, h2⟩ := many_at reaction_lines b2 hi
  rw [← h2]
  exact reaction_at h1 fun r p c e hc => hr pre r (p ++ post) c (by rw [e]; simp) hc

theorem C62_made_mf33 {mt za : Int} {awr : Dbl} {reactions : List ReactionBlock} {x : Sect (Int × List ReactionBlock)} (h : Make.mf33 mt za awr reactions = .ok x)
    (hn : (reactions.length : Int) < 2147483648) :
    x.ZA = za ∧ x.AWR = awr ∧ x.MT = mt ∧ Get.MF33.MTL x = 0 ∧ Get.MF33.NL x = reactions.length ∧ x.data.2 = reactions := by
  have e := build_eq h
  subst e
  exact ⟨rfl, rfl, rfl, rfl, asInt_lt hn, rfl⟩

/-- A reaction that is part of the lumped reaction MTL. -/
theorem C62_made_mf33_lumped {mt za : Int} {awr : Dbl} {mtl : Int} {x : Sect (Int × List ReactionBlock)} (h : Make.mf33Lumped mt za awr mtl = .ok x) :
    x.ZA = za ∧ x.AWR = awr ∧ x.MT = mt ∧ Get.MF33.MTL x = mtl ∧ Get.MF33.NL x = 0 ∧ x.data.2 = [] := by
  have e := build_eq h
  subst e
  exact ⟨rfl, rfl, rfl, rfl, asInt_lt (by simp), rfl⟩

/-- MTL is L2 of the HEAD record, NL its N2. -/
theorem C62_text_mf33 {s s' : St} {x : Sect (Int × List ReactionBlock)} (h : (SectionType.mf33).defn.parse s = .ok (x, s')) :
    ∃ a, LineShows 0 s a ∧ Get.MF33.MTL x = toInt32 a.l2 ∧ Get.MF33.NL x = toInt32 a.n2 ∧
      ∀ i b, x.data.2[i]? = some b → ReactionAt s (1 + ((x.data.2.take i).map reactionLines).sum) b := by
  obtain ⟨a, mt, rs, l0, hb, hr⟩ := C62_records .mf33 h
  obtain ⟨b0, b1, b2⟩ := hb
  refine ⟨a, l0, b0, asInt_of b1, fun i b hi => ?_⟩
  obtain ⟨pre, ri, post, rfl, h1, h2⟩ := many_at reaction_lines b2 hi
  rw [← h2]
  exact reaction_at h1 fun r p c e hc => hr pre r (p ++ post) c (by rw [e]; simp) hc

/-! ### MF34 -/

theorem C62_made_legendreBlock (order order1 lct : Int) (data : List LIST) (hn : (data.length : Int) < 2147483648) :
    let b := Make.legendreBlock order order1 lct data
    Get.Legendre34.L b = order ∧ Get.Legendre34.L1 b = order1 ∧ Get.Legendre34.LCT b = lct ∧ Get.Legendre34.NI b = data.length ∧ b.data = data :=
  ⟨rfl, rfl, rfl, asInt_lt hn, rfl⟩

theorem C62_made_reactionBlock34 {mt mt1 nl nl1 : Int} {blocks : List LegendreBlock} {b : ReactionBlock34} (h : Make.reactionBlock34 mt mt1 nl nl1 blocks = .ok b)
    (hn : (blocks.length : Int) < 2147483648) :
    Get.Reaction34.MT1 b = mt1 ∧ Get.Reaction34.NL b = nl ∧ Get.Reaction34.NL1 b = nl1 ∧ Get.Reaction34.NSS b = blocks.length ∧ b.blocks = blocks := by
  unfold Make.reactionBlock34 at h
  split at h
  · cases h; exact ⟨rfl, rfl, rfl, asInt_lt hn, rfl⟩
  · cases h

theorem C62_made_mf34 {mt za : Int} {awr : Dbl} {ltt : Int} {reactions : List ReactionBlock34} {x : Sect (Int × List ReactionBlock34)}
    (h : Make.mf34 mt za awr ltt reactions = .ok x) (hn : (reactions.length : Int) < 2147483648) :
    x.ZA = za ∧ x.AWR = awr ∧ x.MT = mt ∧ Get.MF34.LTT x = ltt ∧ Get.MF34.NMT1 x = reactions.length ∧ x.data.2 = reactions := by
  have e := build_eq h
  subst e
  exact ⟨rfl, rfl, rfl, rfl, asInt_lt hn, rfl⟩

/-- Line `k` is the CONT record of this Legendre block. -/
def LegendreAt (s : St) (k : Nat) (b : LegendreBlock) : Prop := ∃ c, LineShows k s c ∧
  Get.Legendre34.L b = toInt32 c.l1 ∧ Get.Legendre34.L1 b = toInt32 c.l2 ∧ Get.Legendre34.LCT b = toInt32 c.n1 ∧ Get.Legendre34.NI b = toInt32 c.n2

/-- LTT is L2 of the HEAD record, NMT1 its N2.  Reaction block i is on the line after the blocks before it: MT1 is L2, NL is N1, NL1 is N2; Legendre block j of
    it is on the line after the Legendre blocks before that. -/
theorem C62_text_mf34 {s s' : St} {x : Sect (Int × List ReactionBlock34)} (h : (SectionType.mf34).defn.parse s = .ok (x, s')) :
    ∃ a, LineShows 0 s a ∧ Get.MF34.LTT x = toInt32 a.l2 ∧ Get.MF34.NMT1 x = toInt32 a.n2 ∧
      ∀ i b, x.data.2[i]? = some b →
        (∃ c, LineShows (1 + ((x.data.2.take i).map reactionLines34).sum) s c ∧
          Get.Reaction34.MT1 b = toInt32 c.l2 ∧ Get.Reaction34.NL b = toInt32 c.n1 ∧ Get.Reaction34.NL1 b = toInt32 c.n2) ∧
        ∀ j d, b.blocks[j]? = some d → LegendreAt s (1 + ((x.data.2.take i).map reactionLines34).sum + 1 + ((b.blocks.take j).map legendreLines).sum) d := by
  obtain ⟨a, mt, rs, l0, hb, hr⟩ := C62_records .mf34 h
  obtain ⟨b0, b1, b2⟩ := hb
  refine ⟨a, l0, b0, asInt_of b1, fun i b hi => ?_⟩
  obtain ⟨pre, ri, post, rfl, h1, h2⟩ := many_at (reaction_lines34 mt) b2 hi
  obtain ⟨c, r, rfl, e1, e2, e3, -, -, hm⟩ := h1
  rw [← h2]
  refine ⟨⟨c, hr pre (.cont c) (r ++ post) c (by simp) rfl, e1, e2, e3⟩, fun j d hj => ?_⟩
  obtain ⟨pre', ri', post', rfl, k1, k2⟩ := many_at legendre_lines hm hj
  obtain ⟨c', rfl, f1, f2, f3, f4, -⟩ := k1
  have := hr (pre ++ .cont c :: pre') (.cont c') (d.data.map .list ++ post' ++ post) c' (by simp) rfl
  refine ⟨c', ?_, f1, f2, f3, asInt_of f4⟩
  simp only [List.map_append, List.map_cons, List.sum_append, List.sum_cons, k2] at this
  rw [show 1 + (List.map recLines pre).sum + 1 + ((b.blocks.take j).map legendreLines).sum =
    1 + ((List.map recLines pre).sum + (1 + ((b.blocks.take j).map legendreLines).sum)) from by omega]
  exact this

/-! ### MF35 and MF40 -/

theorem C62_made_mf35 {mt za : Int} {awr : Dbl} {blocks : List LIST} {x : Sect (List LIST)} (h : Make.mf35 mt za awr blocks = .ok x)
    (hn : (blocks.length : Int) < 2147483648) : x.ZA = za ∧ x.AWR = awr ∧ x.MT = mt ∧ Get.MF35.NK x = blocks.length ∧ x.data = blocks := by
  have e := build_eq h
  subst e
  exact ⟨rfl, rfl, rfl, asInt_lt hn, rfl⟩

/-- NK is N1 of the HEAD record; block i is on the line after the blocks before it: E1 and E2 are C1 and C2, LS is L1, LB is L2, NT is N1, NE is N2. -/
theorem C62_text_mf35 {s s' : St} {x : Sect (List LIST)} (h : (SectionType.mf35).defn.parse s = .ok (x, s')) :
    ∃ a, LineShows 0 s a ∧ Get.MF35.NK x = toInt32 a.n1 ∧
      ∀ i l, x.data[i]? = some l → ∃ c, LineShows (1 + linesBefore .list x.data i) s c ∧ l.c1 = c.c1 ∧ l.c2 = c.c2 ∧ l.l1 = c.l1 ∧ l.l2 = c.l2 ∧
        (l.npl : Int) = c.n1 ∧ l.n2 = c.n2 := by
  obtain ⟨a, mt, rs, l0, hb, hr⟩ := C62_records .mf35 h
  obtain ⟨b1, b2, -⟩ := hb
  refine ⟨a, l0, asInt_of b1, fun i l hi => ?_⟩
  have := nth_line (f := Rec.list) (pre := []) (post := []) (l := x.data) hr (by rw [b2]; simp) hi rfl
  exact ⟨_, this, rfl, rfl, rfl, rfl, rfl, rfl⟩

theorem C62_made_levelBlock (qm qi : Dbl) (izap lfs : Int) (reactions : List ReactionBlock) (hn : (reactions.length : Int) < 2147483648) :
    let b := Make.levelBlock qm qi izap lfs reactions
    Get.Level40.QM b = qm ∧ Get.Level40.QI b = qi ∧ Get.Level40.IZAP b = izap ∧ Get.Level40.LFS b = lfs ∧ Get.Level40.NL b = reactions.length ∧
    b.reactions = reactions := ⟨rfl, rfl, rfl, rfl, asInt_lt hn, rfl⟩

theorem C62_made_mf40 {mt za : Int} {awr : Dbl} {lis : Int} {blocks : List LevelBlock} {x : Sect (Int × List LevelBlock)}
    (h : Make.mf40 mt za awr lis blocks = .ok x) (hn : (blocks.length : Int) < 2147483648) :
    x.ZA = za ∧ x.AWR = awr ∧ x.MT = mt ∧ Get.MF40.LIS x = lis ∧ Get.MF40.NS x = blocks.length ∧ x.data.2 = blocks := by
  have e := build_eq h
  subst e
  exact ⟨rfl, rfl, rfl, rfl, asInt_lt hn, rfl⟩

/-- LIS is L1 of the HEAD record, NS its N1.  Level block i is on the line after the blocks before it; reaction block j of it on the line after the reaction blocks
    before that. -/
theorem C62_text_mf40 {s s' : St} {x : Sect (Int × List LevelBlock)} (h : (SectionType.mf40).defn.parse s = .ok (x, s')) :
    ∃ a, LineShows 0 s a ∧ Get.MF40.LIS x = toInt32 a.l1 ∧ Get.MF40.NS x = toInt32 a.n1 ∧
      ∀ i b, x.data.2[i]? = some b →
        (∃ c, LineShows (1 + ((x.data.2.take i).map levelLines).sum) s c ∧ Get.Level40.QM b = c.c1 ∧ Get.Level40.QI b = c.c2 ∧
          Get.Level40.IZAP b = toInt32 c.l1 ∧ Get.Level40.LFS b = toInt32 c.l2 ∧ Get.Level40.NL b = toInt32 c.n2) ∧
        ∀ j d, b.reactions[j]? = some d → ReactionAt s (1 + ((x.data.2.take i).map levelLines).sum + 1 + ((b.reactions.take j).map reactionLines).sum) d := by
  obtain ⟨a, mt, rs, l0, hb, hr⟩ := C62_records .mf40 h
  obtain ⟨b0, b1, b2⟩ := hb
  refine ⟨a, l0, b0, asInt_of b1, fun i b hi => ?_⟩
  obtain ⟨pre, ri, post, rfl, h1, h2⟩ := many_at level_lines b2 hi
  obtain ⟨c, r, rfl, e1, e2, e3, e4, e5, hm⟩ := h1
  rw [← h2]
  refine ⟨⟨c, hr pre (.cont c) (r ++ post) c (by simp) rfl, e1, e2, e3, e4, asInt_of e5⟩, fun j d hj => ?_⟩
  obtain ⟨pre', ri', post', rfl, k1, k2⟩ := many_at reaction_lines hm hj
  refine reaction_at k1 fun r p c' e hc => ?_
  have := hr (pre ++ .cont c :: pre') r (p ++ post' ++ post) c' (by rw [e]; simp) hc
  simp only [List.map_append, List.map_cons, List.sum_append, List.sum_cons, k2] at this
  rw [show 1 + (List.map recLines pre).sum + 1 + ((b.reactions.take j).map reactionLines).sum =
    1 + ((List.map recLines pre).sum + (1 + ((b.reactions.take j).map reactionLines).sum)) from by omega]
  exact this

end ENDFtk.Props

import Verif.Section.Build
import Verif.Props.Sections
import Verif.Props.Getters9
/-
  C61: what the constructors make from data can be written and read back.  Part 1: files 1, 3, 4, 23 and 27.
-/
set_option linter.unusedVariables false
set_option linter.unusedSectionVars false
set_option linter.unusedSimpArgs false
namespace ENDFtk
namespace Props
variable [Disco]

/-- If its reals survive being written in 11 columns, the section can be written (for a valid MAT number) and parsing what is written gives the same
    section, whatever follows. -/
def ReadsBack (T : SectionType) (s : Sect T.Data) : Prop :=
  Reps (T.defn.realsSect s) → ∀ mat : Int, 1 ≤ mat → mat ≤ 9999 →
    ∃ txt, T.defn.print s mat T.defn.mf = .ok txt ∧ ∀ r n, ∃ k, T.defn.parse ⟨txt ++ r, n⟩ = .ok (s, ⟨r, k⟩)

/-! ### records -/

theorem list_fits {r : LIST} (h : r.Ints) : r.Fits := by
  obtain ⟨h1, h2, h3, h4⟩ := h
  exact ⟨h1, h2, fits_of_int32 ⟨by simp only [LIST.meta', LIST.npl]; omega, by simpa only [LIST.meta', LIST.npl] using h4⟩, h3⟩

theorem tab2_fits {r : TAB2} (hv : r.Valid) (h : r.Ints) : r.Fits := by
  obtain ⟨h1, h2, h3, h4, h5⟩ := h
  have hb : ∀ b ∈ r.bounds, IsInt32 b := fun b hb => ⟨by have := (h4 b hb).1; omega, (h4 b hb).2⟩
  have hl : r.n2 ∈ r.bounds := by
    have := hv.1
    unfold TAB2.n2
    rw [List.getLastD_eq_getLast?, List.getLast?_eq_some_getLast this]
    exact List.getLast_mem this
  refine ⟨hv, (h4 _ hl).1, ⟨h1, h2, fits_of_int32 ⟨by simp only [TAB2.meta', TAB2.nr]; omega, by simpa only [TAB2.meta', TAB2.nr] using h3⟩, fits_of_int32 (hb _ hl)⟩, ?_, h5⟩
  exact fun b h => fits_of_int32 (hb b h)

theorem tab2_n2 {r : TAB2} (hv : r.Valid) (h : r.Ints) : 0 ≤ r.n2 ∧ r.n2 < 2147483648 := by
  have hl : r.n2 ∈ r.bounds := by
    have := hv.1
    unfold TAB2.n2
    rw [List.getLastD_eq_getLast?, List.getLast?_eq_some_getLast this]
    exact List.getLast_mem this
  exact h.2.2.2.1 _ hl

theorem tab1_make {c1 c2 : Dbl} {l1 l2 : Int} {b i : List Int} {x y : List Dbl} {r : TAB1} (h : TAB1.make c1 c2 l1 l2 b i x y = .ok r) :
    r = ⟨⟨c1, c2, l1, l2, b, i⟩, x, y⟩ ∧ r.base.Valid ∧ x.length = y.length ∧ isSorted Disco.ltD x = true ∧ TAB1.npDiffer r.base.n2 x.length = false := by
  unfold TAB1.make at h
  split at h
  · cases h
  rename_i base hb
  obtain ⟨rfl, hv⟩ := TAB2.make_ok.mp hb
  split at h
  · cases h
  split at h
  · cases h
  split at h
  · cases h
  cases h
  rename_i h1 h2 h3
  exact ⟨rfl, hv, by simpa using h2, by simpa using h1, by simpa using h3⟩

theorem tab1_fits {c1 c2 : Dbl} {l1 l2 : Int} {b i : List Int} {x y : List Dbl} {r : TAB1} (h : TAB1.make c1 c2 l1 l2 b i x y = .ok r) (hi : r.Ints) : r.Fits := by
  obtain ⟨e, hv, hl, hs, hn⟩ := tab1_make h
  obtain ⟨n0, n1⟩ := tab2_n2 hv hi.1
  have hx := hi.2
  subst e
  refine ⟨⟨hv, hl, hs, ?_⟩, tab2_fits hv hi.1⟩
  simp only [TAB1.npDiffer, bne_eq_false_iff_eq] at hn
  simp only at hx n0 n1 hn ⊢
  omega

theorem iseq_make {α : Type} {tab2 : TAB2} {seq : List α} {r : ISeq α} (h : ISeq.make tab2 seq = .ok r) :
    r = ⟨tab2, seq⟩ ∧ (seq.length : Int) % 4294967296 ≠ 0 ∧ TAB1.npDiffer tab2.n2 seq.length = false := by
  unfold ISeq.make at h
  split at h
  · cases h
  split at h
  · cases h
  cases h
  rename_i h1 h2
  exact ⟨rfl, h1, by simpa using h2⟩

/-- A sequence made from a TAB2 record and components. -/
theorem iseq_valid {α : Type} {c : Comp α} {I : α → Prop} {c1 c2 : Dbl} {l1 l2 : Int} {b i : List Int} {tab2 : TAB2} {seq : List α} {r : ISeq α}
    (ht : TAB2.make c1 c2 l1 l2 b i = .ok tab2) (h : ISeq.make tab2 seq = .ok r) (hi : r.Ints I) (hc : ∀ x ∈ r.seq, I x → c.Valid x) :
    (iseqC c).Valid r ∧ r.tab2.n2 = r.seq.length := by
  obtain ⟨rfl, h1, h2⟩ := iseq_make h
  obtain ⟨i1, i2, i3⟩ := hi
  have hv : tab2.Valid := by
    obtain ⟨rfl, hv⟩ := TAB2.make_ok.mp ht
    exact hv
  have hn := tab2_n2 hv i1
  simp only [TAB1.npDiffer, bne_eq_false_iff_eq] at h2
  have e : tab2.n2 = seq.length := by simp only at i2; omega
  refine ⟨⟨tab2_fits hv i1, ?_, ?_, fun x hx => hc x hx (i3 x hx)⟩, e⟩
  · intro h0
    simp only at h0
    rw [h0] at h1; simp at h1
  · show toInt32 tab2.n2 = _
    rw [e]; exact toInt32_of ⟨by omega, i2⟩

theorem iseqD_valid {α : Type} {c : TAB2 → Comp α} {I : α → Prop} {c1 c2 : Dbl} {l1 l2 : Int} {b i : List Int} {tab2 : TAB2} {seq : List α} {r : ISeq α}
    (ht : TAB2.make c1 c2 l1 l2 b i = .ok tab2) (h : ISeq.make tab2 seq = .ok r) (hi : r.Ints I) (hc : ∀ x ∈ r.seq, I x → (c r.tab2).Valid x) :
    (iseqD c).Valid r := by
  obtain ⟨rfl, h1, h2⟩ := iseq_make h
  obtain ⟨i1, i2, i3⟩ := hi
  have hv : tab2.Valid := by
    obtain ⟨rfl, hv⟩ := TAB2.make_ok.mp ht
    exact hv
  have hn := tab2_n2 hv i1
  simp only [TAB1.npDiffer, bne_eq_false_iff_eq] at h2
  have e : tab2.n2 = seq.length := by simp only at i2; omega
  exact ⟨tab2_fits hv i1, h1, e, fun x hx => hc x hx (i3 x hx)⟩

/-! ### sections -/

theorem build_ok {β : Type} {D : SecDef β} {mt za : Int} {awr : Dbl} {data : Except Err β} {s : Sect β} (h : D.build mt za awr data = .ok s) :
    data = .ok s.data ∧ s.za = za ∧ s.awr = awr ∧ s.mt = D.fixedMT.getD mt ∧ 1 ≤ za ∧ Disco.ltD awr Disco.zero = false ∧ (D.fixedMT = none → 1 ≤ mt) := by
  unfold SecDef.build at h
  split at h
  · cases h
  rename_i hb
  unfold checkBase at hb
  split at hb
  · cases hb
  split at hb
  · cases hb
  rename_i h1 h2
  split at h
  · cases h
  cases h
  refine ⟨rfl, rfl, rfl, rfl, by omega, by simpa using h2, ?_⟩
  intro hf
  rw [hf] at hb
  simp at hb
  omega

theorem build_accepts {β : Type} {D : SecDef β} {mt za : Int} {awr : Dbl} {b : β}
    (h : 1 ≤ za ∧ Disco.ltD awr Disco.zero = false ∧ (D.fixedMT = none → 1 ≤ mt)) : D.build mt za awr (.ok b) = .ok ⟨za, awr, D.fixedMT.getD mt, b⟩ := by
  obtain ⟨h1, h2, h3⟩ := h
  unfold SecDef.build checkBase
  rw [if_neg (by omega), if_neg (by simp [h2])]
  cases hf : D.fixedMT with
  | some m => simp
  | none =>
    have := h3 hf
    have : ¬mt < 1 := by omega
    simp [this]

theorem build_rejects {β : Type} {D : SecDef β} {mt za : Int} {awr : Dbl} {data : Except Err β}
    (h : ¬(1 ≤ za ∧ Disco.ltD awr Disco.zero = false ∧ (D.fixedMT = none → 1 ≤ mt))) : D.build mt za awr data = .error .exc := by
  unfold SecDef.build checkBase
  by_cases h1 : za < 1
  · simp [h1]
  · rw [if_neg h1]
    cases h2 : Disco.ltD awr Disco.zero with
    | true => simp
    | false =>
      cases hf : D.fixedMT with
      | some m => exact absurd ⟨by omega, h2, fun h => by rw [hf] at h; cases h⟩ h
      | none =>
        have : mt < 1 := by
          apply Decidable.byContradiction; intro hm
          exact h ⟨by omega, h2, fun _ => by omega⟩
        simp [this]

theorem built_valid {T : SectionType} {mt za : Int} {awr : Dbl} {data : Except Err T.Data} {s : Sect T.Data} (h : T.defn.build mt za awr data = .ok s)
    (hz : IsInt32 za) (hm : mt ≤ 999) (hv : T.defn.Valid s.data) : T.defn.WellFormed s := by
  obtain ⟨_, e1, e2, e3, h1, h2, h3⟩ := build_ok h
  refine ⟨by omega, by rw [e1]; exact hz, by rw [e2]; exact h2, ?_, ?_, hv⟩
  · split
    · rename_i m hf; rw [e3, hf]; rfl
    · rename_i hf; rw [e3, hf]; exact h3 hf
  · cases hf : T.defn.fixedMT with
    | some m => rw [e3, hf]; exact (T.lawUb.mt_fits m hf).2
    | none => rw [e3, hf]; have := h3 hf; simp [fits]; omega

theorem built_round {T : SectionType} {mt za : Int} {awr : Dbl} {data : Except Err T.Data} {s : Sect T.Data} (h : T.defn.build mt za awr data = .ok s)
    (hz : IsInt32 za) (hm : mt ≤ 999) (hv : T.defn.Valid s.data) (hk : T.defn.mtOk s.mt s.data) : ReadsBack T s :=
  fun hr _ h1 h2 => C41_valid_round_trip T ⟨built_valid h hz hm hv, hk⟩ hr h1 h2

/-- The constructor of every section type throws for a ZA below 1, a negative AWR and (for the types that store it) an MT below 1, whatever the data are;
    otherwise it keeps these numbers. -/
theorem C61_numbers (T : SectionType) {mt za : Int} {awr : Dbl} {data : Except Err T.Data} :
    (∀ s, T.defn.build mt za awr data = .ok s → s.za = za ∧ s.awr = awr ∧ s.mt = T.defn.fixedMT.getD mt ∧ data = .ok s.data) ∧
    (za < 1 ∨ Disco.ltD awr Disco.zero = true ∨ (T.defn.fixedMT = none ∧ mt < 1) → T.defn.build mt za awr data = .error .exc) := by
  constructor
  · intro s h
    obtain ⟨e, e1, e2, e3, _⟩ := build_ok h
    exact ⟨e1, e2, e3, e⟩
  · intro h
    refine build_rejects ?_
    rintro ⟨h1, h2, h3⟩
    rcases h with h | h | h
    · omega
    · rw [h2] at h; cases h
    · have := h3 h.1; omega

theorem build_eq {β : Type} {D : SecDef β} {mt za : Int} {awr : Dbl} {b : β} {s : Sect β} (h : D.build mt za awr (.ok b) = .ok s) :
    s = ⟨za, awr, D.fixedMT.getD mt, b⟩ := by
  obtain ⟨e, e1, e2, e3, _⟩ := build_ok h
  cases s
  simp only at e e1 e2 e3
  cases e
  subst e1 e2 e3; rfl

/-! ### MF3, MF23, MF27 -/

/-- Cross sections (MF3): the section has the Q values, the flag, the interpolation ranges, the energies and the cross sections that were given, and it can be
    written and read back. -/
theorem C61_mf3 {mt za : Int} {awr qm qi : Dbl} {lr : Int} {bounds ints : List Int} {energies xs : List Dbl} {s : Sect TAB1}
    (h : Make.mf3 mt za awr qm qi lr bounds ints energies xs = .ok s) :
    s = ⟨za, awr, mt, ⟨⟨qm, qi, 0, lr, bounds, ints⟩, energies, xs⟩⟩ ∧ (IsInt32 za → mt ≤ 999 → s.data.Ints → ReadsBack .mf3 s) := by
  obtain ⟨e, e1, e2, e3, _⟩ := build_ok h
  refine ⟨?_, fun hz hm hi => built_round (T := .mf3) h hz hm (tab1_fits e hi) trivial⟩
  rw [← (tab1_make e).1]
  cases s
  simp only at e1 e2 e3
  simp only [mf3, Option.getD] at e3
  subst e1 e2 e3; rfl

/-- The constructor with one interpolation range. -/
theorem C61_mf3_short {mt za : Int} {awr qm qi : Dbl} {energies xs : List Dbl} {interpolant lr : Int} {s : Sect TAB1}
    (h : Make.mf3Short mt za awr qm qi energies xs interpolant lr = .ok s) :
    s = ⟨za, awr, mt, ⟨⟨qm, qi, 0, lr, [(energies.length : Int)], [interpolant]⟩, energies, xs⟩⟩ ∧
    (IsInt32 za → mt ≤ 999 → fits 11 lr → fits 11 interpolant → (energies.length : Int) < 2147483648 → ReadsBack .mf3 s) := by
  obtain ⟨e, hr⟩ := C61_mf3 h
  refine ⟨e, fun hz hm h1 h2 h3 => hr hz hm ?_⟩
  subst e
  refine ⟨⟨fits0, h1, by simp, ?_, by simpa using h2⟩, h3⟩
  intro b hb
  simp only [List.mem_singleton] at hb
  subst hb
  exact ⟨by omega, h3⟩

/-- Photo-atomic cross sections (MF23). -/
theorem C61_mf23 {mt za : Int} {awr epe efl : Dbl} {bounds ints : List Int} {energies xs : List Dbl} {s : Sect TAB1}
    (h : Make.mf23 mt za awr epe efl bounds ints energies xs = .ok s) :
    s = ⟨za, awr, mt, ⟨⟨epe, efl, 0, 0, bounds, ints⟩, energies, xs⟩⟩ ∧ (IsInt32 za → mt ≤ 999 → s.data.Ints → ReadsBack .mf23 s) := by
  obtain ⟨e, e1, e2, e3, _⟩ := build_ok h
  refine ⟨?_, fun hz hm hi => built_round (T := .mf23) h hz hm (tab1_fits e hi) trivial⟩
  rw [← (tab1_make e).1]
  cases s
  simp only [mf23, mfTable, Option.getD] at e1 e2 e3
  subst e1 e2 e3; rfl

/-- Form factors (MF27): the second real is the charge number Z of ZA. -/
theorem C61_mf27 {mt za : Int} {awr : Dbl} {bounds ints : List Int} {energies xs : List Dbl} {s : Sect TAB1}
    (h : Make.mf27 mt za awr bounds ints energies xs = .ok s) :
    s = ⟨za, awr, mt, ⟨⟨Disco.zero, Disco.ofInt (za / 1000), 0, 0, bounds, ints⟩, energies, xs⟩⟩ ∧ (IsInt32 za → mt ≤ 999 → s.data.Ints → ReadsBack .mf27 s) := by
  obtain ⟨e, e1, e2, e3, h1, _⟩ := build_ok h
  refine ⟨?_, fun hz hm hi => built_round (T := .mf27) h hz hm (tab1_fits e hi) trivial⟩
  have := (tab1_make e).1
  rw [Int.tdiv_eq_ediv_of_nonneg (by omega)] at this
  rw [← this]
  cases s
  simp only [mf27, mfTable, Option.getD] at e1 e2 e3
  subst e1 e2 e3; rfl

/-! ### MF1 MT451 -/

/-- The section with the texts of its description as they are read: blanks up to 66 columns. -/
def padDesc (s : Sect Info451) : Sect Info451 := { s with data := { s.data with desc := s.data.desc.map (padded 66) } }

omit [Disco] in
theorem pieces_nl (d : Text) : ∀ x ∈ Make.pieces d, '\n' ∉ x := by
  induction d with
  | nil => simp [Make.pieces]
  | cons c d ih =>
    intro x hx
    unfold Make.pieces at hx
    split at hx
    · rename_i hc
      rcases List.mem_cons.mp hx with rfl | hx
      · simp
      · exact ih x hx
    · rename_i hc
      split at hx
      · simp only [List.mem_singleton] at hx; subst hx; simpa using fun h => hc h.symm
      · rename_i l ls hl
        rcases List.mem_cons.mp hx with rfl | hx
        · have := ih l (by rw [hl]; simp)
          simp only [List.mem_cons, not_or]; exact ⟨fun h => hc h.symm, this⟩
        · exact ih x (by rw [hl]; simp [hx])

omit [Disco] in
/-- The pieces, each followed by a newline: the string itself, if it ends with a newline. -/
theorem pieces_unlines (d : Text) : (Make.pieces (d ++ ['\n'])).flatMap (· ++ ['\n']) = d ++ ['\n'] := by
  induction d with
  | nil => rfl
  | cons c d ih =>
    rw [List.cons_append]
    unfold Make.pieces
    split
    · rename_i hc; subst hc; simp only [List.flatMap_cons, ih]; simp
    · split
      · rename_i hc hn; rw [hn] at ih; simp at ih
      · rename_i l ls hl
        rw [hl] at ih
        simp only [List.flatMap_cons, List.cons_append] at ih ⊢
        rw [ih]

omit [Disco] in
theorem intersperse_unlines {ls : List Text} (h : ls ≠ []) : (ls.intersperse ['\n']).flatten ++ ['\n'] = ls.flatMap (· ++ ['\n']) := by
  induction ls with
  | nil => exact absurd rfl h
  | cons l ls ih =>
    cases ls with
    | nil => simp
    | cons m ls =>
      have := ih (by simp)
      simp only [List.intersperse_cons_cons, List.flatten_cons, List.append_assoc, List.flatMap_cons] at this ⊢
      rw [this]

theorem printText_padded {x : Text} (h : x.length ≤ 66) (t : Nums) : printText (padded 66 x) t = printText x t := by
  unfold printText writeChars padded
  rw [List.take_of_length_le h]
  simp [blanks]
  omega

theorem body_padded {s : Sect Info451} (h : ∀ x ∈ s.data.desc, x.length ≤ 66) (mat mf : Int) : mf1mt451.print (padDesc s) mat mf = mf1mt451.print s mat mf := by
  have : ∀ t : Nums, (s.data.desc.map (padded 66)).flatMap (fun x => printText x t) = s.data.desc.flatMap (fun x => printText x t) := by
    intro t
    rw [List.flatMap_map]
    exact flatMap_congr' fun x hx => printText_padded (h x hx) t
  unfold SecDef.print SecDef.lines
  simp only [padDesc, mf1mt451, SecDef.headCont, Info451.print, this]

section
variable {za : Int} {awr : Dbl} {lrp lfi nlib nmod : Int} {elis sta : Dbl} {lis liso nfor : Int} {awi emax : Dbl} {lrel nsub nver : Int}
    {temp : Dbl} {ldrv : Int} {description : Text} {index : List Dir} {rtol : Dbl} {s : Sect Info451}

theorem mf1mt451_made (h : Make.mf1mt451 za awr lrp lfi nlib nmod elis sta lis liso nfor awi emax lrel nsub nver temp ldrv description index rtol = .ok s) :
    s = ⟨za, awr, 451, ⟨lrp, lfi, nlib, nmod, ⟨elis, sta, lis, liso, 0, nfor⟩, ⟨awi, emax, lrel, 0, nsub, nver⟩,
      ⟨temp, rtol, ldrv, 0, asInt (Make.pieces description).length, asInt index.length⟩, Make.pieces description, index⟩⟩ := by
  obtain ⟨e, e1, e2, e3, _⟩ := build_ok h
  cases s
  simp only [mf1mt451, Option.getD] at e1 e2 e3
  cases e
  subst e1 e2 e3; rfl

/-- General information (MF1 MT451): NWD is the number of lines of the description, NXC the number of directory records, and the getters return what was given;
    `description()` returns the description (if it ends with a newline). -/
theorem C61_mf1mt451_fields (h : Make.mf1mt451 za awr lrp lfi nlib nmod elis sta lis liso nfor awi emax lrel nsub nver temp ldrv description index rtol = .ok s) :
    s.za = za ∧ s.awr = awr ∧ s.mt = 451 ∧ s.data.lrp = lrp ∧ s.data.lfi = lfi ∧ s.data.nlib = nlib ∧ s.data.nmod = nmod ∧
    s.data.p0 = ⟨elis, sta, lis, liso, 0, nfor⟩ ∧ s.data.p1 = ⟨awi, emax, lrel, 0, nsub, nver⟩ ∧ s.data.p2.c1 = temp ∧ s.data.p2.c2 = rtol ∧ s.data.p2.l1 = ldrv ∧
    s.data.index = index ∧ s.data.p2.n1 = s.data.nwd ∧ s.data.p2.n2 = s.data.nxc ∧
    ∀ d, description = d ++ ['\n'] → Make.description s.data = description := by
  have e := mf1mt451_made h
  subst e
  refine ⟨rfl, rfl, rfl, rfl, rfl, rfl, rfl, rfl, rfl, rfl, rfl, rfl, rfl, rfl, rfl, ?_⟩
  rintro d rfl
  unfold Make.description
  rw [intersperse_unlines, pieces_unlines]
  intro h0
  have := pieces_unlines d
  simp only at h0
  rw [h0] at this
  simp at this

/-- If the directory is not empty and no line of the description has more than 66 columns, the section can be written and is read back with blanks added to
    the lines of the description. -/
theorem C61_mf1mt451_partial (h : Make.mf1mt451 za awr lrp lfi nlib nmod elis sta lis liso nfor awi emax lrel nsub nver temp ldrv description index rtol = .ok s)
    (hz : IsInt32 za) (hi : Make.Info451Ints s.data) (hx : index ≠ []) (hd : ∀ x ∈ Make.pieces description, x.length ≤ 66)
    (hr : Reps (mf1mt451.realsSect s)) {mat : Int} (h1 : 1 ≤ mat) (h2 : mat ≤ 9999) :
    ∃ txt, mf1mt451.print s mat 1 = .ok txt ∧ ∀ r n, ∃ k, mf1mt451.parse ⟨txt ++ r, n⟩ = .ok (padDesc s, ⟨r, k⟩) := by
  have e := mf1mt451_made h
  have hw := built_valid (T := .mf1mt451) (s := padDesc s) (mt := 451) (za := za) (awr := awr) (data := .ok (padDesc s).data) ?_ hz (by omega) ?_
  · obtain ⟨txt, e1, e2⟩ := C41_valid_round_trip .mf1mt451 ⟨hw, trivial⟩ (show Reps (mf1mt451.realsSect (padDesc s)) from hr) h1 h2
    refine ⟨txt, ?_, e2⟩
    have e1 : mf1mt451.print (padDesc s) mat 1 = .ok txt := e1
    rw [body_padded] at e1
    · exact e1
    · subst e; exact hd
  · obtain ⟨_, _, _, _, b1, b2, b3⟩ := build_ok h
    have := build_accepts (D := mf1mt451) (mt := 451) (b := (padDesc s).data) ⟨b1, b2, b3⟩
    subst e
    exact this
  · obtain ⟨i1, i2, i3, i4, i5, i6, i7, i8, i9, i10⟩ := hi
    subst e
    simp only at i8 i9
    have hl : 0 < index.length := List.length_pos_iff.mpr hx
    have a1 : asInt (Make.pieces description).length = (Make.pieces description).length := toInt32_of ⟨by omega, i8⟩
    have a2 : asInt index.length = index.length := toInt32_of ⟨by omega, i9⟩
    refine ⟨i1, i2, i3, i4, i5, i6, ⟨i7, fits0, fits_toInt32 _, fits_toInt32 _⟩, ?_, ?_, ?_, ?_, ?_, i10⟩
    · simp only [padDesc, a1]; omega
    · simp only [padDesc, a2]; omega
    · simp only [padDesc, a1, List.length_map]; exact toInt32_of ⟨by omega, i8⟩
    · simp only [padDesc, a2]; exact toInt32_of ⟨by omega, i9⟩
    · intro x hx
      simp only [padDesc, List.mem_map] at hx
      obtain ⟨y, hy, rfl⟩ := hx
      exact ⟨padded_length 66 y, padded_nl 66 (pieces_nl description y hy)⟩

/-- If all lines of the description have 66 columns it is the same section. -/
theorem C61_mf1mt451_full (h : Make.mf1mt451 za awr lrp lfi nlib nmod elis sta lis liso nfor awi emax lrel nsub nver temp ldrv description index rtol = .ok s)
    (hz : IsInt32 za) (hi : Make.Info451Ints s.data) (hx : index ≠ []) (hd : ∀ x ∈ Make.pieces description, x.length = 66) : ReadsBack .mf1mt451 s := by
  intro hr mat h1 h2
  have := C61_mf1mt451_partial h hz hi hx (fun x hx => by have := hd x hx; omega) hr h1 h2
  have e : padDesc s = s := by
    have e := mf1mt451_made h
    subst e
    have : (Make.pieces description).map (padded 66) = Make.pieces description := by
      conv => rhs; rw [← List.map_id (Make.pieces description)]
      refine List.map_congr_left fun x hx => ?_
      have := hd x hx
      simp [padded, List.take_of_length_le (Nat.le_of_eq this), this, blanks]
    simp only [padDesc, this]
  rw [e] at this
  exact this

end

/-! ### MF1 MT452, MT455, MT456 -/

theorem nubar_valid {b : Nubar} (h : Make.NubarBuilt b) (hi : Make.NubarInts b) : b.Valid := by
  cases h with
  | poly c => exact list_fits hi
  | tab h => exact tab1_fits h hi

/-- Total neutron multiplicity (MF1 MT452). -/
theorem C61_mf1mt452 {za : Int} {awr : Dbl} {nubar : Nubar} {s : Sect Nubar} (hb : Make.NubarBuilt nubar) (h : Make.mf1mt452 za awr nubar = .ok s) :
    s = ⟨za, awr, 452, nubar⟩ ∧ (IsInt32 za → Make.NubarInts nubar → ReadsBack .mf1mt452 s) := by
  have e : s = ⟨za, awr, 452, nubar⟩ := build_eq h
  refine ⟨e, fun hz hi => built_round (T := .mf1mt452) h hz (by omega) ?_ trivial⟩
  subst e; exact nubar_valid hb hi

/-- Prompt neutron multiplicity (MF1 MT456). -/
theorem C61_mf1mt456 {za : Int} {awr : Dbl} {nubar : Nubar} {s : Sect Nubar} (hb : Make.NubarBuilt nubar) (h : Make.mf1mt456 za awr nubar = .ok s) :
    s = ⟨za, awr, 456, nubar⟩ ∧ (IsInt32 za → Make.NubarInts nubar → ReadsBack .mf1mt456 s) := by
  have e : s = ⟨za, awr, 456, nubar⟩ := build_eq h
  refine ⟨e, fun hz hi => built_round (T := .mf1mt456) h hz (by omega) ?_ trivial⟩
  subst e; exact nubar_valid hb hi

theorem bind_eq {α β : Type} {x : Except Err α} {f : α → Except Err β} {b : β} (h : x.bind f = .ok b) : ∃ a, x = .ok a ∧ f a = .ok b := by
  cases x with
  | error e => cases h
  | ok a => exact ⟨a, rfl, h⟩

theorem decayConstants_valid {e : Dbl} {lam alp : List Dbl} {l : LIST} (h : DecayConstants.make e lam alp = .ok l) (hi : l.Ints) : decayC.Valid l := by
  refine ⟨list_fits hi, ?_⟩
  obtain ⟨_, _, _, hs⟩ := hi
  have : asInt l.data.length = l.data.length := toInt32_of ⟨by omega, hs⟩
  rw [this]
  unfold DecayConstants.make at h
  split at h
  · cases h
  split at h
  · cases h
  cases h
  rename_i h0 h1
  have : (rows lam.length [lam, alp]).length = lam.length * 2 := rows_length _ _
  simp only [this]
  omega

theorem decay_valid {b : Decay} (h : Make.DecayBuilt b) (hi : Make.DecayInts b) : b.Valid := by
  cases h with
  | indep c => exact list_fits hi
  | dep hc h =>
    obtain ⟨tab2, h1, h⟩ := bind_eq h
    obtain ⟨r, h2, h⟩ := bind_eq h
    split at h
    · cases h
      rename_i hn
      refine ⟨(iseq_valid h1 h2 hi fun x hx hI => ?_).1, hn⟩
      obtain ⟨rfl, _⟩ := iseq_make h2
      obtain ⟨e, lam, alp, hx⟩ := hc x hx
      exact decayConstants_valid hx hI
    · cases h

/-- Delayed neutron data (MF1 MT455). -/
theorem C61_mf1mt455 {za : Int} {awr : Dbl} {constants : Decay} {nubar : Nubar} {s : Sect Delayed} (hc : Make.DecayBuilt constants) (hb : Make.NubarBuilt nubar)
    (h : Make.mf1mt455 za awr constants nubar = .ok s) :
    s = ⟨za, awr, 455, ⟨constants, nubar⟩⟩ ∧ (IsInt32 za → Make.DecayInts constants → Make.NubarInts nubar → ReadsBack .mf1mt455 s) := by
  have e : s = ⟨za, awr, 455, ⟨constants, nubar⟩⟩ := build_eq h
  refine ⟨e, fun hz hi hj => built_round (T := .mf1mt455) h hz (by omega) ?_ trivial⟩
  subst e; exact ⟨decay_valid hc hi, nubar_valid hb hj⟩

/-! ### MF1 MT458 -/

theorem thermal_made {efr enp end' egp egd eb enu er et : Dbl × Dbl} {l : LIST} (h : Make.thermalPointComponents efr enp end' egp egd eb enu er et = .ok l) :
    l = ⟨Disco.zero, Disco.zero, 0, 0, 9,
      [efr.1, efr.2, enp.1, enp.2, end'.1, end'.2, egp.1, egp.2, egd.1, egd.2, eb.1, eb.2, enu.1, enu.2, er.1, er.2, et.1, et.2]⟩ :=
  (verified_require h).1

/-- Thermal point components: the constructor never throws and the nine getters return the nine pairs. -/
theorem C61_thermalPointComponents (efr enp end' egp egd eb enu er et : Dbl × Dbl) :
    ∃ l, Make.thermalPointComponents efr enp end' egp egd eb enu er et = .ok l ∧
      ∀ i (p : Dbl × Dbl), [efr, enp, end', egp, egd, eb, enu, er, et][i]? = some p → Make.thermalComponent i l = .ok [p.1, p.2] := by
  have h : Make.thermalPointComponents efr enp end' egp egd eb enu er et = .ok _ :=
    verified_of_ok (if_pos (toInt32_of (show IsInt32 18 by decide)))
  refine ⟨_, h, ?_⟩
  intro i p hp
  have hi : i < 9 := by
    have := (List.getElem?_eq_some_iff.mp hp).1
    simpa using this
  have : i = 0 ∨ i = 1 ∨ i = 2 ∨ i = 3 ∨ i = 4 ∨ i = 5 ∨ i = 6 ∨ i = 7 ∨ i = 8 := by omega
  rcases this with rfl | rfl | rfl | rfl | rfl | rfl | rfl | rfl | rfl <;> (simp at hp; subst hp; simp [Make.thermalComponent, chunkE, chunkL, Except.bind, atE])

theorem thermal_valid {efr enp end' egp egd eb enu er et : Dbl × Dbl} {l : LIST} (h : Make.thermalPointComponents efr enp end' egp egd eb enu er et = .ok l)
    (hi : l.Ints) : thermalC.Valid l := by
  have e := thermal_made h
  exact ⟨list_fits hi, by subst e; exact toInt32_of (show IsInt32 18 by decide)⟩

theorem release_valid {ldrv : Bool} {ifc : Int} {bounds ints : List Int} {energies qvalues : List Dbl} {r : TAB1}
    (h : Make.energyReleaseComponent ldrv ifc bounds ints energies qvalues = .ok r) (hi : r.Ints) : releaseC.Valid r := by
  obtain ⟨a, h1, h⟩ := bind_eq h
  split at h
  · cases h; rename_i hc; exact ⟨tab1_fits h1 hi, hc⟩
  · cases h

/-- What the loop that places the tables does. -/
theorem or_shuffle (A B C D : Prop) : ((A ∨ C ∨ B) ∨ D ↔ (A ∨ B) ∨ C ∨ D) := by grind

theorem placeTables_ok : (tables : List TAB1) → (recs cs : List (Option TAB1)) → Make.placeTables tables recs = .ok cs → recs.length = 9 →
    (∀ (i : Nat) r, recs[i]? = some (some r) → ifc r = i + 1) →
    cs.length = 9 ∧ (∀ (i : Nat) r, cs[i]? = some (some r) → ifc r = i + 1) ∧ (cs.filter Option.isSome).length = (recs.filter Option.isSome).length + tables.length ∧
    ∀ r, some r ∈ cs ↔ some r ∈ recs ∨ r ∈ tables
  | [], recs, cs, h, hl, hp => by
    cases h
    exact ⟨hl, hp, rfl, by simp⟩
  | t :: ts, recs, cs, h, hl, hp => by
    unfold Make.placeTables at h
    split at h
    · rename_i hr
      split at h
      · rename_i hn
        have hk : (ifc t - 1).toNat < 9 := by omega
        have hget : recs[(ifc t - 1).toNat]? = some none := by
          rw [List.getElem?_eq_getElem (by omega)] at hn ⊢
          simpa using hn
        obtain ⟨q1, q2, q3, q4⟩ := placeTables_ok ts _ cs h (by simpa using hl) (by
          intro i r hi
          rw [List.getElem?_set] at hi
          split at hi
          · rename_i he
            split at hi
            · simp only [Option.some.injEq] at hi; subst hi; omega
            · cases hi
          · exact hp i r hi)
        have hsplit : recs = recs.take (ifc t - 1).toNat ++ none :: recs.drop ((ifc t - 1).toNat + 1) := by
          conv => lhs; rw [← List.take_append_drop (ifc t - 1).toNat recs]
          rw [List.drop_eq_getElem_cons (by omega)]
          rw [List.getElem?_eq_getElem (by omega)] at hget
          simp only [Option.some.injEq] at hget
          rw [hget]
        have hset : recs.set (ifc t - 1).toNat (some t) = recs.take (ifc t - 1).toNat ++ some t :: recs.drop ((ifc t - 1).toNat + 1) := by
          rw [List.set_eq_take_append_cons_drop, if_pos (by omega)]
        refine ⟨q1, q2, ?_, ?_⟩
        · rw [q3, hset]
          conv => rhs; rw [hsplit]
          simp; omega
        · intro r
          rw [q4, hset]
          conv => rhs; rw [hsplit]
          simp only [List.mem_append, List.mem_cons, Option.some.injEq, reduceCtorEq, false_or]
          exact or_shuffle _ _ _ _
      · cases h
    · cases h

theorem placeTables_distinct : (tables : List TAB1) → (recs cs : List (Option TAB1)) → Make.placeTables tables recs = .ok cs → recs.length = 9 →
    tables.Pairwise (fun a c => ifc a ≠ ifc c) ∧ ∀ t ∈ tables, 1 ≤ ifc t ∧ ifc t ≤ 9 ∧ recs[(ifc t - 1).toNat]? = some none
  | [], recs, cs, h, hl => by simp
  | t :: ts, recs, cs, h, hl => by
    unfold Make.placeTables at h
    split at h
    · rename_i hr
      split at h
      · rename_i hn
        have hget : recs[(ifc t - 1).toNat]? = some none := by
          rw [List.getElem?_eq_getElem (by omega)] at hn ⊢
          simpa using hn
        obtain ⟨q1, q2⟩ := placeTables_distinct ts _ cs h (by simpa using hl)
        have q3 : ∀ u ∈ ts, ifc t ≠ ifc u ∧ recs[(ifc u - 1).toNat]? = some none := by
          intro u hu
          obtain ⟨u1, u2, u3⟩ := q2 u hu
          rw [List.getElem?_set] at u3
          split at u3
          · rename_i he
            rw [if_pos (by omega)] at u3; cases u3
          · rename_i he
            exact ⟨fun h => he (by rw [h]), u3⟩
        refine ⟨List.pairwise_cons.mpr ⟨fun u hu => (q3 u hu).1, q1⟩, ?_⟩
        intro u hu
        rcases List.mem_cons.mp hu with rfl | hu
        · exact ⟨by omega, by omega, hget⟩
        · exact ⟨(q2 u hu).1, (q2 u hu).2.1, (q3 u hu).2⟩
      · cases h
    · cases h

theorem placeTables_accepts : (tables : List TAB1) → (recs : List (Option TAB1)) → recs.length = 9 → tables.Pairwise (fun a c => ifc a ≠ ifc c) →
    (∀ t ∈ tables, 1 ≤ ifc t ∧ ifc t ≤ 9 ∧ recs[(ifc t - 1).toNat]? = some none) → ∃ cs, Make.placeTables tables recs = .ok cs
  | [], recs, hl, hp, ht => ⟨recs, rfl⟩
  | t :: ts, recs, hl, hp, ht => by
    obtain ⟨t1, t2, t3⟩ := ht t (by simp)
    obtain ⟨p1, p2⟩ := List.pairwise_cons.mp hp
    obtain ⟨cs, hc⟩ := placeTables_accepts ts (recs.set (ifc t - 1).toNat (some t)) (by simpa using hl) p2 (by
      intro u hu
      obtain ⟨u1, u2, u3⟩ := ht u (by simp [hu])
      refine ⟨u1, u2, ?_⟩
      have := p1 u hu
      rw [List.getElem?_set, if_neg (by omega)]; exact u3)
    refine ⟨cs, ?_⟩
    unfold Make.placeTables
    rw [if_pos (by omega), t3]
    exact hc

theorem placeTables_error : (tables : List TAB1) → (recs : List (Option TAB1)) → (∃ cs, Make.placeTables tables recs = .ok cs) ∨ Make.placeTables tables recs = .error .exc
  | [], recs => .inl ⟨recs, rfl⟩
  | t :: ts, recs => by
    unfold Make.placeTables
    split
    · split
      · exact placeTables_error ts _
      · exact .inr rfl
    · exact .inr rfl

/-- Tabulated components: the tables are placed according to their IFC, nothing is lost, NFC is their number; duplicates and an empty array are rejected. -/
theorem C61_tabulatedComponents {thermal : LIST} {tables : List TAB1} {b : TabComp} (h : Make.tabulatedComponents thermal tables = .ok b) :
    b.values = thermal ∧ b.nfc = tables.length ∧ b.comps.length = 9 ∧ (∀ (i : Nat) r, b.comps[i]? = some (some r) ↔ r ∈ tables ∧ ifc r = i + 1) ∧
    tables ≠ [] ∧ tables.Pairwise (fun a c => ifc a ≠ ifc c) := by
  unfold Make.tabulatedComponents at h
  split at h
  · cases h
  rename_i hne
  obtain ⟨cs, h1, h⟩ := bind_eq h
  cases h
  obtain ⟨q1, q2, q3, q4⟩ := placeTables_ok _ _ _ h1 (by simp) (by
    intro i r hi
    rw [List.getElem?_replicate] at hi
    split at hi <;> cases hi)
  have hle := List.length_filter_le Option.isSome cs
  have hlen : tables.length ≤ 9 := by simp at q3; omega
  refine ⟨rfl, toInt32_of ⟨by omega, by omega⟩, q1, ?_, hne, ?_⟩
  · intro i r
    constructor
    · intro hi
      refine ⟨?_, q2 i r hi⟩
      have := (q4 r).mp (List.mem_of_getElem? hi)
      simpa using this
    · rintro ⟨hr, hi⟩
      obtain ⟨j, hj⟩ := List.getElem?_of_mem ((q4 r).mpr (.inr hr))
      have := q2 j r hj
      have : j = i := by omega
      subst this; exact hj
  · exact (placeTables_distinct _ _ _ h1 (by simp)).1

/-- Exactly the arrays of tables that are not empty, with IFC between 1 and 9 and no IFC twice, are accepted; the others are rejected with an exception. -/
theorem C61_tabulatedComponents_accepts {thermal : LIST} {tables : List TAB1} :
    (tables ≠ [] ∧ tables.Pairwise (fun a c => ifc a ≠ ifc c) ∧ (∀ t ∈ tables, 1 ≤ ifc t ∧ ifc t ≤ 9) → ∃ b, Make.tabulatedComponents thermal tables = .ok b) ∧
    (¬(tables ≠ [] ∧ tables.Pairwise (fun a c => ifc a ≠ ifc c) ∧ (∀ t ∈ tables, 1 ≤ ifc t ∧ ifc t ≤ 9)) → Make.tabulatedComponents thermal tables = .error .exc) := by
  constructor
  · rintro ⟨h1, h2, h3⟩
    obtain ⟨cs, hc⟩ := placeTables_accepts tables (List.replicate 9 none) (by simp) h2 (by
      intro t ht
      have := h3 t ht
      refine ⟨this.1, this.2, ?_⟩
      rw [List.getElem?_replicate, if_pos (by omega)])
    exact ⟨_, by unfold Make.tabulatedComponents; rw [if_neg h1, hc]; rfl⟩
  · intro h
    unfold Make.tabulatedComponents
    split
    · rfl
    · rename_i hn
      rcases placeTables_error tables (List.replicate 9 none) with ⟨cs, hc⟩ | hc
      · obtain ⟨q1, q2⟩ := placeTables_distinct _ _ _ hc (by simp)
        exact absurd ⟨hn, q1, fun t ht => ⟨(q2 t ht).1, (q2 t ht).2.1⟩⟩ h
      · rw [hc]; rfl

/-- Polynomial components do not have exactly one coefficient per component: these data are read back as thermal point components. -/
def NotOrderZero : Release → Prop
  | .poly r => r.l2 ≠ 0
  | _ => True

theorem releaseData_valid {b : Release} (h : Make.ReleaseBuilt b) (hi : Make.ReleaseInts b) (ho : NotOrderZero b) : Release.Valid b := by
  cases h with
  | thermal h =>
    have e := thermal_made h
    refine ⟨list_fits hi, ?_, ?_⟩ <;> subst e <;> rfl
  | poly h =>
    have hI : LIST.Ints _ := hi
    have hL := list_fits hI
    obtain ⟨i1, i2, i3, i4⟩ := hI
    unfold PolynomialComponents.make at h
    simp only at h
    split at h
    · cases h
    cases h
    rename_i efr enp end' egp egd eb enu er et hn
    have hl : (rows efr.length ([efr, enp, end', egp, egd, eb, enu, er, et].flatMap PolynomialComponents.pairCols)).length = efr.length * 18 := by
      rw [rows_length]; rfl
    simp only [NotOrderZero, hl] at ho
    simp only [hl] at i4
    have e : efr.length * 18 / 18 = efr.length := by omega
    rw [e] at ho
    refine ⟨hL, ?_, ?_, ?_⟩
    · simp only [LIST.npl, hl, e]; omega
    · simp only [LIST.npl, hl, e]
      rw [toInt32_of ⟨by omega, i4⟩, toInt32_of ⟨by omega, by omega⟩]; omega
    · simp only [hl, e]; omega
  | tab hl ht h =>
    obtain ⟨e1, e2, e3, e4, _, _⟩ := C61_tabulatedComponents h
    obtain ⟨i1, i2⟩ := hi
    rw [e1] at i1
    refine ⟨?_, e3, ?_, ?_⟩
    · rw [e1]; exact thermal_valid hl i1
    · rw [e2]
      unfold Make.tabulatedComponents at h
      split at h
      · cases h
      obtain ⟨cs, h1, h⟩ := bind_eq h
      cases h
      obtain ⟨_, _, q3, _⟩ := placeTables_ok _ _ _ h1 (by simp) (by
        intro i r hi
        rw [List.getElem?_replicate] at hi
        split at hi <;> cases hi)
      simp at q3
      simp only [q3]
    · intro i r hr
      obtain ⟨m1, m2⟩ := (e4 i r).mp hr
      obtain ⟨_, _, _, _, _, _, hx⟩ := ht r m1
      exact ⟨release_valid hx (i2 r (List.mem_of_getElem? hr)), m2⟩

/-- Energy release data (MF1 MT458). -/
theorem C61_mf1mt458_partial {za : Int} {awr : Dbl} {data : Release} {s : Sect Release} (hb : Make.ReleaseBuilt data) (h : Make.mf1mt458 za awr data = .ok s) :
    s = ⟨za, awr, 458, data⟩ ∧ (IsInt32 za → Make.ReleaseInts data → NotOrderZero data → ReadsBack .mf1mt458 s) := by
  have e : s = ⟨za, awr, 458, data⟩ := build_eq h
  refine ⟨e, fun hz hi ho => built_round (T := .mf1mt458) h hz (by omega) ?_ trivial⟩
  subst e; exact releaseData_valid hb hi ho

/-! ### MF1 MT460 -/

theorem photons_valid {b : Photons} (h : Make.PhotonsBuilt b) (hi : Make.PhotonsInts b) : b.Valid := by
  cases h with
  | discrete hp h =>
    unfold Make.discretePhotons at h
    split at h
    · cases h
    cases h
    rename_i h0
    obtain ⟨i1, i2⟩ := hi
    refine ⟨fun r hr => ?_, by omega, (toInt32_of ⟨by omega, i1⟩).symm⟩
    obtain ⟨_, _, _, _, _, _, hx⟩ := hp r hr
    exact tab1_fits hx (i2 r hr)
  | continuous h =>
    unfold Make.continuousPhotons at h
    split at h
    · cases h
    cases h
    rename_i h0
    exact ⟨list_fits hi, by simp only; omega⟩

/-- Delayed photon data (MF1 MT460). -/
theorem C61_mf1mt460 {za : Int} {awr : Dbl} {data : Photons} {s : Sect Photons} (hb : Make.PhotonsBuilt data) (h : Make.mf1mt460 za awr data = .ok s) :
    s = ⟨za, awr, 460, data⟩ ∧ (IsInt32 za → Make.PhotonsInts data → ReadsBack .mf1mt460 s) := by
  have e : s = ⟨za, awr, 460, data⟩ := build_eq h
  refine ⟨e, fun hz hi => built_round (T := .mf1mt460) h hz (by omega) ?_ trivial⟩
  subst e; exact photons_valid hb hi

/-! ### MF4 -/

/-- Angular distributions: the arguments are exchanged twice, so that the boundaries given are the boundaries of the record. -/
theorem C61_distributions {α : Type} {boundaries interpolants : List Int} {seq : List α} {r : ISeq α} (h : Make.distributions boundaries interpolants seq = .ok r) :
    r = ⟨⟨Disco.zero, Disco.zero, 0, 0, boundaries, interpolants⟩, seq⟩ := by
  obtain ⟨tab2, h1, h2⟩ := bind_eq h
  obtain ⟨rfl, _⟩ := TAB2.make_ok.mp h1
  exact (iseq_make h2).1

theorem legendre_valid {r : ISeq LIST} (h : Make.LegendreBuilt r) (hi : r.Ints LIST.Ints) : legendreC.Valid r := by
  obtain ⟨b, i, seq, hs, h⟩ := h
  obtain ⟨tab2, h1, h2⟩ := bind_eq h
  exact (iseq_valid h1 h2 hi fun x hx hI => list_fits hI).1

theorem tabulated_valid {r : ISeq TAB1} (h : Make.TabulatedBuilt r) (hi : r.Ints TAB1.Ints) : tabulatedC.Valid r := by
  obtain ⟨b, i, seq, hs, h⟩ := h
  obtain ⟨tab2, h1, h2⟩ := bind_eq h
  refine (iseq_valid h1 h2 hi fun x hx hI => ?_).1
  obtain ⟨rfl, _⟩ := iseq_make h2
  obtain ⟨_, _, _, _, _, h⟩ := hs x hx
  exact tab1_fits h hI

theorem angular_valid {b : Angular} (h : Make.AngularBuilt b) (hi : Make.AngularInts b) : b.Valid := by
  cases h with
  | isotropic => trivial
  | legendre h => exact legendre_valid h hi
  | tabulated h => exact tabulated_valid h hi
  | mixed hl hr h =>
    unfold Make.mixedDistributions at h
    split at h
    · cases h
      rename_i hb
      exact ⟨legendre_valid hl hi.1, tabulated_valid hr hi.2, hb⟩
    · cases h

/-- Angular distributions (MF4). -/
theorem C61_mf4 {mt za : Int} {awr : Dbl} {lct : Int} {dist : Angular} {s : Sect MF4Data} (hb : Make.AngularBuilt dist) (h : Make.mf4 mt za awr lct dist = .ok s) :
    s.za = za ∧ s.awr = awr ∧ s.mt = mt ∧ s.data.dist = dist ∧ (IsInt32 lct → s.data.lct = lct) ∧
    (IsInt32 za → mt ≤ 999 → Make.AngularInts dist → ReadsBack .mf4 s) := by
  have e : s = ⟨za, awr, mt, ⟨toInt32 lct, dist⟩⟩ := build_eq h
  refine ⟨by rw [e], by rw [e], by rw [e], by rw [e], fun hl => by rw [e]; exact toInt32_of hl, fun hz hm hi => built_round (T := .mf4) h hz hm ?_ trivial⟩
  subst e; exact ⟨isInt32_toInt32 _, angular_valid hb hi⟩


end Props
end ENDFtk

import Verif.Tree.UpdateLemmas
/-
  The effect of updateDirectory on a material.
-/
set_option linter.unusedVariables false
set_option linter.unusedSectionVars false
set_option linter.unusedSimpArgs false
namespace ENDFtk

/-- All sections of a material in iteration order (files in order, sections in order). -/
def TMaterial.all (m : TMaterial) : List TSection := m.files'.flatMap TFile.sections'

/-- Files and sections are stored under their own numbers, in ascending order; the files have the MAT number of the material. -/
def Keyed (m : TMaterial) : Prop :=
  m.fileNumbers.Pairwise (· < ·) ∧
  ∀ e ∈ m.files, e.2.mf = e.1 ∧ e.2.mat = m.mat ∧ e.2.sectionNumbers.Pairwise (· < ·) ∧ ∀ x ∈ e.2.sections, x.2.mt = x.1 ∧ x.2.mf = e.1

variable [Disco]

/-- What is needed for a correct directory: MF1 MT451 comes first and can be parsed; its reals survive being printed; the MAT number can be
    printed, and the numbers are within the range of `int`. -/
structure Ready (m : TMaterial) (s : TSection) (old : Sect Info451) : Prop where
  keyed : Keyed m
  mat : 1 ≤ m.mat ∧ fits 4 m.mat
  mf : ∀ k ∈ m.fileNumbers, 1 ≤ k
  mt : ∀ f, m.file 1 = .ok f → ∀ k ∈ f.sectionNumbers, 451 ≤ k
  ints : ∀ x ∈ m.all, IsInt32 x.mf ∧ IsInt32 x.mt
  size : m.all.length + old.data.desc.length + 4 < 2147483648
  sec : m.section' 1 451 = .ok s
  parses : s.parse mf1mt451 = .ok old
  reps : Reps (mf1mt451.realsSect old)

theorem Keyed.sorted {m : TMaterial} (h : Keyed m) : m.files.Sorted := SMap.sorted_iff_keys.mpr h.1

theorem sorted_first {α : Type} {m : SMap α} (hs : m.Sorted) {k : Int} {v : α} (hg : m.get? k = some v) (hmin : ∀ j ∈ m.keys, k ≤ j) :
    ∃ rest, m = (k, v) :: rest ∧ ∀ e ∈ rest, k < e.1 := by
  have hm := SMap.mem_of_get? hg
  cases m with
  | nil => cases hm
  | cons e m =>
    have hp := List.pairwise_cons.mp hs
    have he : e = (k, v) := by
      rcases List.mem_cons.mp hm with h | h
      · exact h.symm
      · have h1 := hp.1 _ h
        have h2 := hmin e.1 (by simp [SMap.keys])
        simp only at h1; omega
    subst he
    exact ⟨m, rfl, fun x hx => hp.1 x hx⟩

theorem at'_ok {α : Type} {m : SMap α} {k : Int} {v : α} (h : m.at' k = .ok v) : m.get? k = some v := by
  unfold SMap.at' at h
  split at h
  · cases h; assumption
  · cases h

/-- The position of MF1 MT451. -/
theorem Ready.split {m : TMaterial} {s : TSection} {old : Sect Info451} (h : Ready m s old) :
    ∃ f1 rest ss, m.files = (1, f1) :: rest ∧ (∀ e ∈ rest, 1 < e.1) ∧ f1.sections = (451, s) :: ss ∧ (∀ e ∈ ss, 451 < e.1) ∧
      f1.mf = 1 ∧ f1.mat = m.mat ∧ s.mf = 1 ∧ s.mt = 451 := by
  have hsec := h.sec
  unfold TMaterial.section' at hsec
  split at hsec
  · rename_i f1 hf
    obtain ⟨rest, h1, h2⟩ := sorted_first h.keyed.sorted (at'_ok hf) h.mf
    have hk := h.keyed.2 (1, f1) (by rw [h1]; simp)
    obtain ⟨ss, h3, h4⟩ := sorted_first (SMap.sorted_iff_keys.mpr hk.2.2.1) (at'_ok hsec) (h.mt f1 hf)
    have hx := hk.2.2.2 (451, s) (by rw [h3]; simp)
    exact ⟨f1, rest, ss, h1, h2, h3, h4, hk.1, hk.2.1, hx.2, hx.1⟩
  · cases hsec

theorem tsection_parse {β : Type} {D : SecDef β} {s : TSection} {x : Sect β} (h : s.parse D = .ok x) : ∃ st, D.parse ⟨s.content, 1⟩ = .ok (x, st) := by
  unfold TSection.parse at h
  split at h
  · rename_i st he; cases h; exact ⟨_, he⟩
  · cases h

theorem tsection_parse_valid {β : Type} {D : SecDef β} (hD : D.Law) {s : TSection} {x : Sect β} (h : s.parse D = .ok x) : D.WellFormed x := by
  obtain ⟨st, hst⟩ := tsection_parse h
  obtain ⟨_, _, _, h0, _⟩ := (parse_reads hD).ok hst
  exact h0

theorem nc_range (s : TSection) : 0 ≤ s.nc ∧ s.nc < 4294967296 := by
  unfold TSection.nc; omega

theorem fits11 {n : Int} (h1 : -10000000000 < n) (h2 : n < 100000000000) : fits 11 n := by
  constructor
  · have : (10 : Int) ^ 11 = 100000000000 := by decide
    omega
  · have : (10 : Int) ^ (11 - 1) = 10000000000 := by decide
    omega

theorem fits_33 {n : Int} (h : fits 11 n) : fits 33 n := fits_mono (by omega) h

/-- MOD numbers come from the old index. -/
theorem directoryEntries_ok {c : Bool} {old : List Dir} (ho : ∀ e ∈ old, e.Ok) {ss : List TSection} (hs : ∀ x ∈ ss, IsInt32 x.mf ∧ IsInt32 x.mt) :
    ∀ d ∈ directoryEntries c old ss, d.Ok := by
  induction ss generalizing old with
  | nil => simp [directoryEntries]
  | cons s ss ih =>
    simp only [List.mem_cons, forall_eq_or_imp] at hs
    obtain ⟨⟨s1, s2⟩, hss⟩ := hs
    have hnc := nc_range s
    have hn : fits 11 s.nc := fits11 (by omega) (by omega)
    have h0 : fits 11 0 := by decide
    rw [directoryEntries]
    split
    · obtain ⟨q, hq1, -⟩ := dropWhile_suffix' (fun e : Dir => !(e.mf == s.mf && e.mt == s.mt)) old
      split
      · intro d hd
        rcases List.mem_cons.mp hd with rfl | hd
        · exact ⟨fits_33 (fits_of_int32 s1), fits_of_int32 s2, hn, h0⟩
        · exact ih ho hss d hd
      · rename_i e r he
        rw [he] at hq1
        have ho' : ∀ x ∈ e :: r, x.Ok := fun x hx => ho x (by rw [hq1]; exact List.mem_append_right _ hx)
        intro d hd
        rcases List.mem_cons.mp hd with rfl | hd
        · exact ⟨fits_33 (fits_of_int32 s1), fits_of_int32 s2, hn, (ho' e (by simp)).2.2.2⟩
        · exact ih ho' hss d hd
    · intro d hd
      rcases List.mem_cons.mp hd with rfl | hd
      · exact ⟨fits_33 (fits_of_int32 s1), fits_of_int32 s2, hn, h0⟩
      · exact ih ho hss d hd

theorem newIndex_ok {c : Bool} {old : List Dir} (ho : ∀ e ∈ old, e.Ok) {fs : List TFile}
    (hs : ∀ x ∈ fs.flatMap TFile.sections', IsInt32 x.mf ∧ IsInt32 x.mt) : ∀ d ∈ newIndex c old fs, d.Ok := by
  intro d hd
  obtain ⟨f, hf, hd⟩ := List.mem_flatMap.mp hd
  exact directoryEntries_ok ho (fun x hx => hs x (List.mem_flatMap.mpr ⟨f, hf, hx⟩)) d hd

/-- The descriptive lines of the new section: as before, but one blank line if there was none. -/
def newDesc (old : Sect Info451) : List Text := if old.data.desc = [] then [blanks 66] else old.data.desc

/-- The new section of the material. -/
def newSect (old : Sect Info451) (d : Dir) (ds : List Dir) : Sect Info451 :=
  ⟨old.za, old.awr, 451, ⟨old.data.lrp, old.data.lfi, old.data.nlib, old.data.nmod, ⟨old.data.elis, old.data.sta, old.data.lis, old.data.liso, 0, old.data.nfor⟩,
    ⟨old.data.awi, old.data.emax, old.data.lrel, 0, old.data.nsub, old.data.nver⟩,
    ⟨old.data.temp, old.data.rtol, old.data.ldrv, 0, asInt (newDesc old).length, asInt (d :: ds).length⟩, newDesc old,
    ⟨1, 451, 4 + old.data.nwd + ((d :: ds).length : Int), d.mod⟩ :: ds⟩⟩

/-- The object that is constructed. -/
def madeSect (old : Sect Info451) (d : Dir) (ds : List Dir) : Sect Info451 :=
  ⟨old.za, old.awr, 451, Info451.make old.data.lrp old.data.lfi old.data.nlib old.data.nmod old.data.elis old.data.sta old.data.lis old.data.liso
    old.data.nfor old.data.awi old.data.emax old.data.lrel old.data.nsub old.data.nver old.data.temp old.data.ldrv old.data.description
    (⟨1, 451, 4 + old.data.nwd + ((d :: ds).length : Int), d.mod⟩ :: ds) old.data.rtol⟩

theorem updated451_eq {old : Sect Info451} (hv : mf1mt451.WellFormed old) (d : Dir) (ds : List Dir) :
    updated451 old (d :: ds) = .ok (madeSect old d ds) := by
  have : checkBase old.za old.awr none = .ok () := by
    unfold checkBase
    rw [if_neg (by have := hv.1; omega), hv.2.2.1]; rfl
  simp only [updated451, this]; rfl

theorem split_newDesc {old : Sect Info451} (hv : mf1mt451.WellFormed old) :
    (splitNL old.data.description).length = (newDesc old).length ∧
    ∀ t, (splitNL old.data.description).flatMap (fun x => printText x t) = (newDesc old).flatMap (fun x => printText x t) := by
  have hdv : Info451.Valid old.data := hv.2.2.2.2.2
  by_cases hd : old.data.desc = []
  · rw [description_split_nil hd, newDesc, if_pos hd]
    refine ⟨by simp, fun t => ?_⟩
    have hb : printText (blanks 66) t = printText [] t := by
      unfold printText; rw [writeChars_full (by simp [blanks])]; simp [writeChars]
    simp only [List.flatMap_cons, List.flatMap_nil, hb]
  · rw [description_split hd (fun l hl => (hdv.2.2.2.2.2.2.2.2.2.2.2.1 l hl).2), newDesc, if_neg hd]
    exact ⟨rfl, fun t => rfl⟩

/-- The constructed object is printed as `newSect`. -/
theorem print_made {old : Sect Info451} (hv : mf1mt451.WellFormed old) (d : Dir) (ds : List Dir) (mat mf : Int) :
    mf1mt451.print (madeSect old d ds) mat mf = mf1mt451.print (newSect old d ds) mat mf := by
  obtain ⟨h1, h2⟩ := split_newDesc hv
  have hb : ∀ a t, mf1mt451.body a (madeSect old d ds).data t = mf1mt451.body a (newSect old d ds).data t := by
    intro a t
    simp only [mf1mt451, Info451.print, madeSect, Info451.make, newSect, h1, h2, List.length_cons]
  have hh : mf1mt451.headCont (madeSect old d ds) = mf1mt451.headCont (newSect old d ds) := by
    simp only [SecDef.headCont, mf1mt451, madeSect, Info451.make, newSect]
  have hm : (madeSect old d ds).mt = (newSect old d ds).mt := rfl
  have ha : (madeSect old d ds).awr = (newSect old d ds).awr := rfl
  simp only [SecDef.print, SecDef.lines, hb, hh, hm, ha]

theorem newDesc_length (old : Sect Info451) : 1 ≤ (newDesc old).length ∧ (newDesc old).length ≤ old.data.desc.length + 1 := by
  unfold newDesc
  split
  · simp
  · rename_i h
    have := List.length_pos_iff.mpr h
    omega

theorem valid_arith (a b c : Nat) (h1 : b ≤ a + 1) (h2 : c + 1 + a + 4 < 2147483648) :
    asInt a = a ∧ asInt b = b ∧ asInt (c + 1) = ((c + 1 : Nat) : Int) ∧ toInt32 (b : Int) = b ∧
    toInt32 ((c + 1 : Nat) : Int) = ((c + 1 : Nat) : Int) ∧ 1 ≤ ((c + 1 : Nat) : Int) ∧ fits 11 (4 + (a : Int) + ((c + 1 : Nat) : Int)) := by
  refine ⟨toInt32_id (by omega) (by omega), toInt32_id (by omega) (by omega), toInt32_id (by omega) (by omega), toInt32_id (by omega) (by omega),
    toInt32_id (by omega) (by omega), by omega, fits11 (by omega) (by omega)⟩

theorem newSect_valid {old : Sect Info451} (hv : mf1mt451.WellFormed old) {d : Dir} {ds : List Dir}
    (hok : ∀ x ∈ d :: ds, x.Ok) (hsz : (d :: ds).length + old.data.desc.length + 4 < 2147483648) : mf1mt451.WellFormed (newSect old d ds) := by
  obtain ⟨h1, h2, h3, h4, h5, h6⟩ := hv
  obtain ⟨i1, i2, i3, i4, f0, f1, f2, z1, z2, e1, e2, v1, v2⟩ : Info451.Valid old.data := h6
  obtain ⟨l1, l2⟩ := newDesc_length old
  simp only [List.length_cons] at hsz
  refine ⟨h1, h2, h3, rfl, by show fits 3 451; decide, ?_⟩
  obtain ⟨hn, ha, hb, w1, w2, w3, w4⟩ := valid_arith old.data.desc.length (newDesc old).length ds.length l2 hsz
  have q1 : (newSect old d ds).data.p2.n1 = ((newDesc old).length : Int) := by simp only [newSect]; exact ha
  have q2 : (newSect old d ds).data.p2.n2 = ((ds.length + 1 : Nat) : Int) := by simp only [newSect, List.length_cons]; exact hb
  have q3 : (newSect old d ds).data.index.length = ds.length + 1 := by simp only [newSect, List.length_cons]
  refine ⟨i1, i2, i3, i4, ⟨fits_toInt32 _, fits_toInt32 _, fits0, fits_toInt32 _⟩, ⟨fits_toInt32 _, fits0, fits_toInt32 _, fits_toInt32 _⟩,
    ⟨fits_toInt32 _, fits0, fits_toInt32 _, fits_toInt32 _⟩, ?_, ?_, ?_, ?_, ?_, ?_⟩
  · rw [q1]; exact Int.natCast_nonneg _
  · rw [q2]; exact w3
  · rw [q1]; exact w1
  · rw [q2, q3]; exact w2
  · simp only [newSect, newDesc]
    split
    · intro x hx
      obtain rfl := List.mem_singleton.mp hx
      exact ⟨by rw [blanks, List.length_replicate], by rw [blanks, List.mem_replicate]; decide⟩
    · exact v1
  · intro x hx
    have hx' : x ∈ (⟨1, 451, 4 + old.data.nwd + ((d :: ds).length : Int), d.mod⟩ : Dir) :: ds := hx
    rcases List.mem_cons.mp hx' with rfl | hx'
    · exact ⟨fits_33 (fits11 (by simp) (by simp)), fits11 (by simp) (by simp), by simp only [Info451.nwd, hn, List.length_cons]; exact w4, (hok d (by simp)).2.2.2⟩
    · exact hok x (by simp [hx'])

theorem newSect_reals (old : Sect Info451) (d : Dir) (ds : List Dir) : mf1mt451.realsSect (newSect old d ds) = mf1mt451.realsSect old := rfl

/-- The material with another MF1 MT451. -/
def withSect (m : TMaterial) (f1 : TFile) (rest : SMap TFile) (ss : SMap TSection) (s' : TSection) : TMaterial :=
  { m with files := (1, { f1 with sections := (451, s') :: ss }) :: rest }

theorem erase_none {α : Type} {m : SMap α} {k : Int} (h : ∀ e ∈ m, k < e.1) : SMap.erase m k = m := by
  rw [SMap.erase, List.filter_eq_self]
  intro e he
  have := h e he
  simp; omega

theorem emplaceMulti_front {α : Type} {m : SMap α} {k : Int} (v : α) (h : ∀ e ∈ m, k < e.1) : SMap.emplaceMulti k v m = (k, v) :: m := by
  cases m with
  | nil => rfl
  | cons e m => rw [SMap.emplaceMulti, if_pos (h e (by simp))]

theorem insert_eq {m : TMaterial} {f1 : TFile} {rest : SMap TFile} {s : TSection} {ss : SMap TSection} (h1 : m.files = (1, f1) :: rest)
    (h2 : ∀ e ∈ rest, 1 < e.1) (h3 : f1.sections = (451, s) :: ss) (h4 : ∀ e ∈ ss, 451 < e.1) (h5 : f1.mf = 1) (h6 : f1.mat = m.mat) (txt : Text) :
    m.insertOrReplaceSection ⟨m.mat, 1, 451, txt⟩ = (.ok (), withSect m f1 rest ss ⟨m.mat, 1, 451, txt⟩) := by
  have hhas : m.hasMF 1 = true := by simp [TMaterial.hasMF, h1, SMap.has]
  have hfile : m.file 1 = .ok f1 := by simp [TMaterial.file, SMap.at', h1, SMap.get?_cons]
  unfold TMaterial.insertOrReplaceSection
  rw [TMaterial.ensureMF, if_pos hhas]
  unfold TMaterial.onFile
  rw [hfile]
  have hrem : (f1.remove 451).sections = ss := by
    show SMap.erase f1.sections 451 = ss
    rw [h3]
    have := erase_none h4
    unfold SMap.erase at this ⊢
    rw [List.filter_cons_of_neg (by simp), this]
  have hno : SMap.has ss 451 = false := by
    rw [SMap.has_false_iff]; intro v hv; have := h4 _ hv; simp at this
  have hins : f1.insertOrReplace ⟨m.mat, 1, 451, txt⟩ = (.ok (), { f1 with sections := (451, ⟨m.mat, 1, 451, txt⟩) :: ss }) := by
    rw [TFile.insertOrReplace, if_neg (by simp [h5, h6]), hrem, SMap.emplace, hno]
    simp [emplaceMulti_front _ h4]
  simp only [hins]
  rw [withSect]
  congr 2
  rw [h1, SMap.modify, List.map_cons]
  have : List.map (fun e => if (e.1 == 1) = true then (e.1, { f1 with sections := (451, (⟨m.mat, 1, 451, txt⟩ : TSection)) :: ss }) else e) rest = rest := by
    rw [List.map_congr_left (g := id) ?_]; · simp
    intro e he
    have := h2 e he
    rw [if_neg (by simp; omega)]; rfl
  rw [this]; rfl

theorem nc_arith (a b c : Nat) (hlen : b + 1 = c) (hsz : c + a + 3 < 2147483648) :
    ((4 + (a + (b + 1)) + 1 : Nat) - 1 : Int) % 4294967296 = 4 + ((a : Int) + ((b + 1 : Nat) : Int)) := by omega

/-- What updateDirectory does to a material that is ready for it. -/
theorem update_eq {m : TMaterial} {s : TSection} {old : Sect Info451} (h : Ready m s old) (c : Bool) :
    ∃ f1 rest ss d ds txt, m.files = (1, f1) :: rest ∧ (∀ e ∈ rest, 1 < e.1) ∧ f1.sections = (451, s) :: ss ∧ (∀ e ∈ ss, 451 < e.1) ∧
      f1.mf = 1 ∧ f1.mat = m.mat ∧ newIndex c old.data.index m.files' = d :: ds ∧
      mf1mt451.WellFormed (newSect old d ds) ∧
      mf1mt451.print (newSect old d ds) m.mat 1 = .ok txt ∧
      updateDirectory m c = (.ok (), withSect m f1 rest ss ⟨m.mat, 1, 451, txt⟩) ∧
      (TSection.mk m.mat 1 451 txt).parse mf1mt451 = .ok (newSect old d ds) ∧
      (TSection.mk m.mat 1 451 txt).nc = 4 + ((newDesc old).length + ((d :: ds).length : Int)) := by
  obtain ⟨f1, rest, ss, h1, h2, h3, h4, h5, h6, h7, h8⟩ := h.split
  have hv := tsection_parse_valid mf1mt451_law h.parses
  have hdv : Info451.Valid old.data := hv.2.2.2.2.2
  have hlen : (newIndex c old.data.index m.files').length = m.all.length := newIndex_length _ _ _
  have hall : m.all = s :: (SMap.values ss ++ (SMap.values rest).flatMap TFile.sections') := by
    simp [TMaterial.all, TMaterial.files', SMap.values, h1, TFile.sections', h3]
  obtain ⟨d, ds, hdd⟩ : ∃ d ds, newIndex c old.data.index m.files' = d :: ds := by
    cases hx : newIndex c old.data.index m.files' with
    | nil => rw [hx, hall] at hlen; simp at hlen
    | cons d ds => exact ⟨d, ds, rfl⟩
  have hidx := newIndex_ok (c := c) (fs := m.files') hdv.2.2.2.2.2.2.2.2.2.2.2.2 h.ints
  rw [hdd] at hidx hlen
  have hsz := h.size
  have hnv := newSect_valid hv hidx (by omega)
  have hnr : Reps (mf1mt451.realsSect (newSect old d ds)) := by rw [newSect_reals]; exact h.reps
  obtain ⟨txt, hp, hround⟩ := sect_round mf1mt451_law ⟨hnv, trivial⟩ hnr h.mat.1 h.mat.2
  have hparse : (TSection.mk m.mat 1 451 txt).parse mf1mt451 = .ok (newSect old d ds) := by
    have := hround [] 1
    rw [List.append_nil] at this
    simp only [TSection.parse, this]
  obtain ⟨ls, hcan, hcl, hcc⟩ := sect_canon mf1mt451_law hnv h.mat.1 h.mat.2
  refine ⟨f1, rest, ss, d, ds, txt, h1, h2, h3, h4, h5, h6, hdd, hnv, hp, ?_, hparse, ?_⟩
  · have hhas : m.hasMF 1 = true := by simp [TMaterial.hasMF, h1, SMap.has]
    have hfile : m.file 1 = .ok f1 := by simp [TMaterial.file, SMap.at', h1, SMap.get?_cons]
    have hhm : f1.hasMT 451 = true := by simp [TFile.hasMT, h3, SMap.has]
    have hsec : f1.section' 451 = .ok s := by simp [TFile.section', SMap.at', h3, SMap.get?_cons]
    unfold updateDirectory
    rw [hhas, hfile]
    simp only [Bool.not_true, Bool.false_eq_true, if_false, hhm, hsec, h.parses, hdd, updated451_eq hv]
    have hto : toSection mf1mt451 (madeSect old d ds) m.mat = .ok ⟨m.mat, 1, 451, txt⟩ := by
      have hmf : mf1mt451.mf = 1 := by simp only [mf1mt451]
      unfold toSection
      rw [print_made hv, hp]
      simp only [hmf, madeSect]
    unfold TMaterial.insertOrReplaceParsed
    rw [hto]
    exact insert_eq h1 h2 h3 h4 h5 h6 txt
  · rw [hp] at hcan
    cases hcan
    have hnl : ∀ l ∈ ls ++ [endRecord ⟨m.mat, mf1mt451.mf, 0⟩], '\n' ∉ l := by
      intro l hl
      rcases List.mem_append.mp hl with hl | hl
      · exact (hcc l hl).2.1
      · simp at hl; subst hl
        exact (endRecord_canonical ⟨h.mat.2, mf_fits mf1mt451_law, fits_zero 2⟩).2.1
    have hcount : (unlines (ls ++ [endRecord ⟨m.mat, mf1mt451.mf, 0⟩])).count '\n' = ls.length + 1 := by
      have : ∀ ks : List Text, (∀ l ∈ ks, '\n' ∉ l) → (unlines ks).count '\n' = ks.length := by
        intro ks hks
        induction ks with
        | nil => rfl
        | cons k ks ih =>
          simp only [List.mem_cons, forall_eq_or_imp] at hks
          rw [unlines_cons, List.count_append, List.count_cons_self, List.count_eq_zero_of_not_mem hks.1, ih hks.2]
          simp
      rw [this _ hnl]; simp
    have hnv' : Info451.Valid (newSect old d ds).data := hnv.2.2.2.2.2
    have hnc := hnv'.nc_eq
    have hds : (newSect old d ds).data.desc = newDesc old := rfl
    have hdi : (newSect old d ds).data.index.length = ds.length + 1 := by simp only [newSect, List.length_cons]
    have hl2 := newDesc_length old
    rw [TSection.nc, hcount, hcl]
    have : mf1mt451.NC (newSect old d ds) = 4 + ((newDesc old).length + (ds.length + 1)) := by
      have h1 : mf1mt451.NC (newSect old d ds) = Info451.nc (newSect old d ds).data + 1 := by simp only [SecDef.NC, mf1mt451]
      rw [h1, hnc, hds, hdi]; omega
    rw [this]
    simp only [List.length_cons] at hlen ⊢
    exact nc_arith _ _ _ hlen (by omega)

end ENDFtk

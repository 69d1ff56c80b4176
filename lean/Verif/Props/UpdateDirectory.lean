import Verif.Tree.UpdateLemmas2
import Verif.Props.TreeMaps
/-
  C19-C23: updateDirectory.
-/
set_option linter.unusedVariables false
set_option linter.unusedSectionVars false
set_option linter.unusedSimpArgs false
namespace ENDFtk.Props
open ENDFtk
variable [Disco]

/-- (MF, MT) comes before (MF, MT) in a directory. -/
def Before (a b : Int × Int) : Prop := a.1 < b.1 ∨ (a.1 = b.1 ∧ a.2 < b.2)

theorem all_withSect {m : TMaterial} {f1 : TFile} {rest : SMap TFile} {ss : SMap TSection} {s : TSection} (s' : TSection)
    (h1 : m.files = (1, f1) :: rest) (h3 : f1.sections = (451, s) :: ss) :
    m.all = s :: (SMap.values ss ++ (SMap.values rest).flatMap TFile.sections') ∧
    (withSect m f1 rest ss s').all = s' :: (SMap.values ss ++ (SMap.values rest).flatMap TFile.sections') := by
  constructor
  · simp [TMaterial.all, TMaterial.files', SMap.values, h1, TFile.sections', h3]
  · simp [TMaterial.all, TMaterial.files', SMap.values, TFile.sections', withSect]

theorem keyed_before {m : TMaterial} (h : Keyed m) : (m.all.map (fun x => (x.mf, x.mt))).Pairwise Before := by
  obtain ⟨h1, h2⟩ := h
  unfold TMaterial.all TMaterial.files' TMaterial.fileNumbers at *
  generalize m.files = fs at *
  induction fs with
  | nil => simp [SMap.values]
  | cons e fs ih =>
    simp only [SMap.keys, List.map_cons, List.pairwise_cons] at h1
    simp only [List.mem_cons, forall_eq_or_imp] at h2
    obtain ⟨⟨a1, a2, a3, a4⟩, hrest⟩ := h2
    have ih := ih h1.2 hrest
    simp only [SMap.values, List.map_cons, List.flatMap_cons, List.map_append] at ih ⊢
    refine List.pairwise_append.mpr ⟨?_, ih, ?_⟩
    · simp only [TFile.sections', TFile.sectionNumbers, SMap.values, SMap.keys, List.map_map] at a3 ⊢
      rw [List.pairwise_map] at a3 ⊢
      refine a3.imp_of_mem ?_
      intro a b ha hb hlt
      obtain ⟨p1, p2⟩ := a4 a ha
      obtain ⟨q1, q2⟩ := a4 b hb
      right; simp only [Function.comp]; omega
    · intro x hx y hy
      simp only [List.mem_map, TFile.sections', SMap.values, List.mem_flatMap] at hx hy
      obtain ⟨_, ⟨a, ha, rfl⟩, rfl⟩ := hx
      obtain ⟨_, ⟨_, ⟨g, hg, rfl⟩, ⟨b, hb, rfl⟩⟩, rfl⟩ := hy
      have := (hrest g hg).2.2.2 b hb
      have := a4 a ha
      have := h1.1 g.1 (List.mem_map.mpr ⟨g, hg, rfl⟩)
      left; simp only; omega

theorem keyed_withSect {m : TMaterial} {f1 : TFile} {rest : SMap TFile} {ss : SMap TSection} {s s' : TSection} (h : Keyed m)
    (h1 : m.files = (1, f1) :: rest) (h3 : f1.sections = (451, s) :: ss) (hm : s'.mf = 1 ∧ s'.mt = 451) : Keyed (withSect m f1 rest ss s') := by
  obtain ⟨k1, k2⟩ := h
  constructor
  · simpa [TMaterial.fileNumbers, withSect, SMap.keys, h1] using k1
  · rw [h1] at k2
    simp only [List.mem_cons, forall_eq_or_imp] at k2
    obtain ⟨⟨a1, a2, a3, a4⟩, hrest⟩ := k2
    simp only [withSect, List.mem_cons, forall_eq_or_imp]
    refine ⟨⟨a1, a2, ?_, ?_⟩, hrest⟩
    · simpa [TFile.sectionNumbers, SMap.keys, h3] using a3
    · rw [h3] at a4
      simp only [List.mem_cons, forall_eq_or_imp] at a4
      exact ⟨⟨hm.2, hm.1⟩, a4.2⟩

theorem section_withSect {m : TMaterial} {f1 : TFile} {rest : SMap TFile} {ss : SMap TSection} {s s' : TSection}
    (h1 : m.files = (1, f1) :: rest) (h3 : f1.sections = (451, s) :: ss) :
    (withSect m f1 rest ss s').section' 1 451 = .ok s' ∧
    ∀ mf mt, ¬(mf = 1 ∧ mt = 451) → (withSect m f1 rest ss s').section' mf mt = m.section' mf mt := by
  constructor
  · simp [TMaterial.section', TMaterial.file, TFile.section', SMap.at', withSect, SMap.get?_cons]
  · intro mf mt hne
    simp only [TMaterial.section', TMaterial.file, TFile.section', SMap.at', withSect, SMap.get?_cons, h1]
    by_cases hmf : (1 : Int) = mf
    · have : ¬ (451 : Int) = mt := fun h => hne ⟨hmf.symm, h.symm⟩
      simp [hmf, h3, SMap.get?_cons, this]
    · simp [hmf]

/-- Everything about one call on a material that is ready for it. -/
theorem update_full {m : TMaterial} {s : TSection} {old : Sect Info451} (h : Ready m s old) (c : Bool) :
    ∃ m' s' new d ds f1 rest ss, updateDirectory m c = (.ok (), m') ∧ newIndex c old.data.index m.files' = d :: ds ∧ new = newSect old d ds ∧
      (old.data.desc ≠ [] → Ready m' s' new) ∧ m.files = (1, f1) :: rest ∧ f1.sections = (451, s) :: ss ∧ m' = withSect m f1 rest ss s' ∧
      s'.mat = m.mat ∧ s'.mf = 1 ∧ s'.mt = 451 ∧ mf1mt451.print new m.mat 1 = .ok s'.content ∧
      Keyed m' ∧ new.data.desc = newDesc old ∧ s'.nc = 4 + ((newDesc old).length + ((d :: ds).length : Int)) ∧
      m'.section' 1 451 = .ok s' ∧ s'.parse mf1mt451 = .ok new := by
  obtain ⟨f1, rest, ss, d, ds, txt, h1, h2, h3, h4, h5, h6, h7, h8, h9, h10, h11, h12⟩ := update_eq h c
  have hk := keyed_withSect h.keyed h1 h3 (s' := ⟨m.mat, 1, 451, txt⟩) ⟨rfl, rfl⟩
  obtain ⟨all1, all2⟩ := all_withSect (TSection.mk m.mat 1 451 txt) h1 h3
  refine ⟨_, TSection.mk m.mat 1 451 txt, _, d, ds, f1, rest, ss, h10, h7, rfl, ?_, h1, h3, rfl, rfl, rfl, rfl, h9, hk, rfl, h12,
    (section_withSect h1 h3).1, h11⟩
  intro hne
  have hdesc : (newSect old d ds).data.desc = old.data.desc := by
    simp only [newSect, newDesc]; rw [if_neg hne]
  refine ⟨hk, h.mat, ?_, ?_, ?_, ?_, (section_withSect h1 h3).1, h11, ?_⟩
  · intro k hk
    refine h.mf k ?_
    simp only [TMaterial.fileNumbers, SMap.keys, withSect, h1] at hk ⊢
    exact hk
  · intro f hf k hk
    simp only [TMaterial.file, SMap.at', withSect, SMap.get?_cons] at hf
    simp at hf
    subst hf
    simp only [TFile.sectionNumbers, SMap.keys, List.map_cons, List.mem_cons] at hk
    rcases hk with rfl | hk
    · omega
    · obtain ⟨e, he, rfl⟩ := List.mem_map.mp hk
      have := h4 e he; omega
  · rw [all2]
    have := h.ints
    rw [all1] at this
    simp only [List.mem_cons, forall_eq_or_imp] at this ⊢
    refine ⟨⟨by simp [IsInt32], by simp [IsInt32]⟩, this.2⟩
  · have := h.size
    rw [all2, hdesc]
    rw [all1] at this
    simpa using this
  · rw [newSect_reals]; exact h.reps

theorem asInt_small {n : Nat} (h : n < 2147483648) : asInt n = n := toInt32_id (by omega) (by omega)

theorem nwd_eq {m : TMaterial} {s : TSection} {old : Sect Info451} (h : Ready m s old) : old.data.nwd = old.data.desc.length := by
  have := h.size
  exact asInt_small (by omega)

/-- The NC of a section as it is written in the directory: it should be the section's NC; if there is no descriptive line (NWD = 0) then that of MT451
    is one too small, because the constructor of the new MT451 adds a blank line. -/
def listedNC (nwd : Int) (x : TSection) : Int := if nwd = 0 ∧ x.mf = 1 ∧ x.mt = 451 then x.nc - 1 else x.nc

/-- C19 with the exact numbers, for any NWD: after `updateDirectory` the directory of MF1 MT451 lists exactly the sections of the material, each with
    the NC it now has (but see `listedNC`), in ascending order of (MF, MT), each once; no other section has changed. -/
theorem C19_listed {m : TMaterial} {s : TSection} {old : Sect Info451} (h : Ready m s old) (c : Bool) :
    ∃ m' s' new, updateDirectory m c = (.ok (), m') ∧ m'.section' 1 451 = .ok s' ∧ s'.parse mf1mt451 = .ok new ∧
      new.data.index.map (fun e => (e.mf, e.mt, e.nc)) = m'.all.map (fun x => (x.mf, x.mt, listedNC old.data.nwd x)) ∧
      (new.data.index.map (fun e => (e.mf, e.mt))).Pairwise Before ∧ new.data.nxc = new.data.index.length ∧
      m'.mat = m.mat ∧ m'.fileNumbers = m.fileNumbers ∧
      (∀ mf mt, ¬(mf = 1 ∧ mt = 451) → m'.section' mf mt = m.section' mf mt) := by
  obtain ⟨m', s', new, d, ds, f1, rest, ss, h1, h2, h3, h4, h5, h6, h7, h8, h9, h10, h11, h12, h13, h14, h15, h16⟩ := update_full h c
  have hm : m'.mat = m.mat := by rw [h7]; rfl
  obtain ⟨all1, all2⟩ := all_withSect s' h5 h6
  have hnum := newIndex_nums c old.data.index m.files'
  rw [h2] at hnum
  have hall : m.files'.flatMap TFile.sections' = m.all := rfl
  rw [hall, all1, List.map_cons, List.map_cons, List.cons.injEq] at hnum
  have hnwd := nwd_eq h
  have hidx : new.data.index = ⟨1, 451, 4 + old.data.nwd + ((d :: ds).length : Int), d.mod⟩ :: ds := by rw [h3]; simp only [newSect]
  have hb := keyed_before h12
  rw [h7, all2, List.map_cons, List.pairwise_cons] at hb
  have hfirst : listedNC old.data.nwd s' = 4 + old.data.nwd + ((d :: ds).length : Int) := by
    unfold listedNC
    rw [h14, hnwd, newDesc]
    by_cases hd : old.data.desc = []
    · rw [if_pos ⟨by rw [hd]; rfl, h9, h10⟩, if_pos hd, hd]
      simp only [List.length_cons, List.length_nil]
      omega
    · have hl := List.length_pos_iff.mpr hd
      rw [if_neg (by rintro ⟨x, -⟩; omega), if_neg hd]
      omega
  have hrest : ∀ x ∈ SMap.values ss ++ (SMap.values rest).flatMap TFile.sections', listedNC old.data.nwd x = x.nc := by
    intro x hx
    have := hb.1 _ (List.mem_map.mpr ⟨x, hx, rfl⟩)
    unfold Before at this
    simp only [h9, h10] at this
    unfold listedNC
    rw [if_neg (by rintro ⟨-, x1, x2⟩; omega)]
  have hlist : new.data.index.map (fun e => (e.mf, e.mt, e.nc)) = m'.all.map (fun x => (x.mf, x.mt, listedNC old.data.nwd x)) := by
    have hr : (SMap.values ss ++ (SMap.values rest).flatMap TFile.sections').map (fun x => (x.mf, x.mt, listedNC old.data.nwd x)) =
        (SMap.values ss ++ (SMap.values rest).flatMap TFile.sections').map (fun x => (x.mf, x.mt, x.nc)) := by
      apply List.map_congr_left
      intro x hx
      rw [hrest x hx]
    rw [hidx, h7, all2, List.map_cons, List.map_cons, hnum.2, h9, h10, hfirst, hr]
  have he : new.data.index.map (fun e => (e.mf, e.mt)) = m'.all.map (fun x => (x.mf, x.mt)) := by
    have := congrArg (List.map (fun p : Int × Int × Int => (p.1, p.2.1))) hlist
    simpa [List.map_map, Function.comp_def] using this
  refine ⟨m', s', new, h1, h15, h16, hlist, ?_, ?_, hm, ?_, ?_⟩
  · rw [he]; exact keyed_before h12
  · have hl : new.data.index.length = m.all.length := by rw [hidx, all1]; have := congrArg List.length hnum.2; simpa using this
    have := h.size
    unfold Info451.nxc
    exact asInt_small (by omega)
  · rw [h7]; simp [TMaterial.fileNumbers, withSect, SMap.keys, h5]
  · rw [h7]; exact (section_withSect h5 h6).2

/-- **C19.** After `updateDirectory` the directory of MF1 MT451 lists exactly the sections of the material, each with the NC it now has, in ascending
    order of (MF, MT), each once; no other section has changed.  (Missing: materials without descriptive lines, for which it is false, see
    `C19_no_description`.) -/
theorem C19_directory_partial {m : TMaterial} {s : TSection} {old : Sect Info451} (h : Ready m s old) (hd : old.data.desc ≠ []) (c : Bool) :
    ∃ m' s' new, updateDirectory m c = (.ok (), m') ∧ m'.section' 1 451 = .ok s' ∧ s'.parse mf1mt451 = .ok new ∧
      new.data.index.map (fun e => (e.mf, e.mt, e.nc)) = m'.all.map (fun x => (x.mf, x.mt, x.nc)) ∧
      (new.data.index.map (fun e => (e.mf, e.mt))).Pairwise Before ∧ new.data.nxc = new.data.index.length ∧
      m'.mat = m.mat ∧ m'.fileNumbers = m.fileNumbers ∧
      (∀ mf mt, ¬(mf = 1 ∧ mt = 451) → m'.section' mf mt = m.section' mf mt) := by
  obtain ⟨m', s', new, h1, h2, h3, h4, h5⟩ := C19_listed h c
  refine ⟨m', s', new, h1, h2, h3, ?_, h5⟩
  rw [h4]
  apply List.map_congr_left
  intro x hx
  have hl := List.length_pos_iff.mpr hd
  have hn := nwd_eq h
  unfold listedNC
  rw [if_neg (by rintro ⟨a, -⟩; omega)]

/-- C20 for any NWD: `updateDirectory` keeps everything in MF1 MT451 but the directory and, if there was no descriptive line, the description. -/
theorem C20_fields {m : TMaterial} {s : TSection} {old : Sect Info451} (h : Ready m s old) (c : Bool) :
    ∃ m' s' new, updateDirectory m c = (.ok (), m') ∧ m'.section' 1 451 = .ok s' ∧ s'.parse mf1mt451 = .ok new ∧
      new.za = old.za ∧ new.awr = old.awr ∧ new.mt = old.mt ∧
      new.data.lrp = old.data.lrp ∧ new.data.lfi = old.data.lfi ∧ new.data.nlib = old.data.nlib ∧ new.data.nmod = old.data.nmod ∧
      new.data.elis = old.data.elis ∧ new.data.sta = old.data.sta ∧ new.data.lis = old.data.lis ∧ new.data.liso = old.data.liso ∧
      new.data.nfor = old.data.nfor ∧ new.data.awi = old.data.awi ∧ new.data.emax = old.data.emax ∧ new.data.lrel = old.data.lrel ∧
      new.data.nsub = old.data.nsub ∧ new.data.nver = old.data.nver ∧ new.data.temp = old.data.temp ∧ new.data.rtol = old.data.rtol ∧
      new.data.ldrv = old.data.ldrv ∧
      (old.data.desc ≠ [] → new.data.desc = old.data.desc) ∧ (old.data.desc = [] → new.data.desc = [blanks 66]) := by
  obtain ⟨m', s', new, d, ds, f1, rest, ss, h1, h2, h3, h4, h5, h6, h7, h8, h9, h10, h11, h12, h13, h14, h15, h16⟩ := update_full h c
  have hv := tsection_parse_valid mf1mt451_law h.parses
  have hmt : old.mt = 451 := hv.2.2.2.1
  refine ⟨m', s', new, h1, h15, h16, ?_⟩
  refine ⟨?_, ?_, ?_, ?_, ?_, ?_, ?_, ?_, ?_, ?_, ?_, ?_, ?_, ?_, ?_, ?_, ?_, ?_, ?_, ?_, fun hd => by rw [h13, newDesc, if_neg hd],
    fun hd => by rw [h13, newDesc, if_pos hd]⟩ <;>
    subst h3 <;>
    simp only [newSect, Info451.elis, Info451.sta, Info451.lis, Info451.liso, Info451.nfor, Info451.awi, Info451.emax, Info451.lrel,
      Info451.nsub, Info451.nver, Info451.temp, Info451.rtol, Info451.ldrv, toInt32_toInt32, hmt]

/-- **C20.** `updateDirectory` keeps the descriptive lines and their number (and all other fields: `C20_fields`).  (Missing: materials without
    descriptive lines, for which it is false, see `C20_no_description`.) -/
theorem C20_keeps_partial {m : TMaterial} {s : TSection} {old : Sect Info451} (h : Ready m s old) (hd : old.data.desc ≠ []) (c : Bool) :
    ∃ m' s' new, updateDirectory m c = (.ok (), m') ∧ m'.section' 1 451 = .ok s' ∧ s'.parse mf1mt451 = .ok new ∧
      new.data.nwd = old.data.nwd ∧ new.data.desc = old.data.desc ∧ new.data.description = old.data.description := by
  obtain ⟨m', s', new, h1, h2, h3, h4⟩ := C20_fields h c
  have hx : new.data.desc = old.data.desc := h4.2.2.2.2.2.2.2.2.2.2.2.2.2.2.2.2.2.2.2.2.1 hd
  exact ⟨m', s', new, h1, h2, h3, by unfold Info451.nwd; rw [hx], hx, by unfold Info451.description; rw [hx]⟩

theorem newIndex_mod {c : Bool} {old : List Dir} {m : TMaterial} (hk : Keyed m) (ho : c = true → DirOrdered old) :
    newIndex c old m.files' = m.all.map (fun x => ⟨x.mf, x.mt, x.nc, if c then modOf old x.mf x.mt else 0⟩) := by
  unfold newIndex TMaterial.all TMaterial.files'
  have hk := hk.2
  generalize m.files = fs at hk
  induction fs with
  | nil => rfl
  | cons e fs ih =>
    simp only [List.mem_cons, forall_eq_or_imp] at hk
    obtain ⟨⟨a1, a2, a3, a4⟩, hrest⟩ := hk
    have ih := ih hrest
    simp only [SMap.values, List.map_cons, List.flatMap_cons, List.map_append] at ih ⊢
    rw [ih]
    congr 1
    cases c with
    | false => rw [directoryEntries_noMod]; rfl
    | true =>
      have hs : ∀ x ∈ e.2.sections', x.mf = e.1 := by
        intro x hx
        obtain ⟨y, hy, rfl⟩ := List.mem_map.mp hx
        exact (a4 y hy).2
      have hp : e.2.sections'.Pairwise (fun a b => a.mt < b.mt) := by
        simp only [TFile.sections', TFile.sectionNumbers, SMap.values, SMap.keys, List.pairwise_map] at a3 ⊢
        refine a3.imp_of_mem ?_
        intro a b ha hb hlt
        have := (a4 a ha).1; have := (a4 b hb).1; omega
      have := directoryEntries_mod hs hp [] old (ho rfl) (by simp)
      simpa using this

/-- **C22.** The MOD numbers: copied from the old directory if asked for (0 for sections that are not listed there), else 0. -/
theorem C22_mod {m : TMaterial} {s : TSection} {old : Sect Info451} (h : Ready m s old) (c : Bool) (ho : c = true → DirOrdered old.data.index) :
    ∃ m' s' new, updateDirectory m c = (.ok (), m') ∧ m'.section' 1 451 = .ok s' ∧ s'.parse mf1mt451 = .ok new ∧
      new.data.index.map Dir.mod = m.all.map (fun x => if c then modOf old.data.index x.mf x.mt else 0) := by
  obtain ⟨m', s', new, d, ds, f1, rest, ss, h1, h2, h3, h4, h5, h6, h7, h8, h9, h10, h11, h12, h13, h14, h15, h16⟩ := update_full h c
  refine ⟨m', s', new, h1, h15, h16, ?_⟩
  have hmod := newIndex_mod (c := c) h.keyed ho
  rw [h2] at hmod
  have := congrArg (List.map Dir.mod) hmod
  rw [h3]
  simp only [newSect]
  simpa [List.map_map, Function.comp_def] using this

theorem modOf_self {idx : List Dir} (hp : (idx.map (fun e => (e.mf, e.mt))).Pairwise Before) : ∀ e ∈ idx, modOf idx e.mf e.mt = e.mod := by
  induction idx with
  | nil => simp
  | cons a idx ih =>
    simp only [List.map_cons, List.pairwise_cons] at hp
    intro e he
    rcases List.mem_cons.mp he with rfl | he'
    · simp [modOf]
    · have hb := hp.1 _ (List.mem_map.mpr ⟨e, he', rfl⟩)
      have hne : (a.mf == e.mf && a.mt == e.mt) = false := by
        simp only [Bool.and_eq_false_iff, beq_eq_false_iff_ne]
        unfold Before at hb; simp only at hb; omega
      have := ih hp.2 e he'
      unfold modOf at this ⊢
      rw [List.find?_cons, hne]; exact this

theorem before_dirOrdered {idx : List Dir} (hp : (idx.map (fun e => (e.mf, e.mt))).Pairwise Before) : DirOrdered idx := by
  rw [List.pairwise_map] at hp
  refine hp.imp ?_
  intro a b hab heq
  unfold Before at hab; simp only at hab; omega

/-- An index that lists exactly these sections, with MOD 0 unless copied, is reproduced. -/
theorem newIndex_fix {c : Bool} {m : TMaterial} (hk : Keyed m) {idx : List Dir}
    (hn : idx.map (fun e => (e.mf, e.mt, e.nc)) = m.all.map (fun x => (x.mf, x.mt, x.nc)))
    (hb : (idx.map (fun e => (e.mf, e.mt))).Pairwise Before) (h0 : c = false → ∀ e ∈ idx, e.mod = 0) : newIndex c idx m.files' = idx := by
  rw [newIndex_mod hk (fun _ => before_dirOrdered hb)]
  have hself := modOf_self hb
  have : m.all.map (fun x => (⟨x.mf, x.mt, x.nc, if c then modOf idx x.mf x.mt else 0⟩ : Dir)) =
      (m.all.map (fun x => (x.mf, x.mt, x.nc))).map (fun p => (⟨p.1, p.2.1, p.2.2, if c then modOf idx p.1 p.2.1 else 0⟩ : Dir)) := by
    rw [List.map_map]; rfl
  rw [this, ← hn, List.map_map]
  conv => rhs; rw [← List.map_id idx]
  apply List.map_congr_left
  intro e he
  cases c with
  | true => simp [Function.comp, hself e he]
  | false => simp [Function.comp, ← h0 rfl e he]

/-- **C21.** A second call changes nothing.  (Missing: materials without descriptive lines, for which it is false, see `C21_no_description`.) -/
theorem C21_idempotent_partial {m : TMaterial} {s : TSection} {old : Sect Info451} (h : Ready m s old) (hd : old.data.desc ≠ []) (c : Bool) :
    ∃ m', updateDirectory m c = (.ok (), m') ∧ updateDirectory m' c = (.ok (), m') := by
  obtain ⟨m1, s1, new1, q1, q2, q3, q4, q5, -⟩ := C19_directory_partial h hd c
  obtain ⟨m', s', new, d, ds, f1, rest, ss, h1, h2, h3, h4, h5, h6, h7, h8, h9, h10, h11, h12, h13, h14, h15, h16⟩ := update_full h c
  have h4 := h4 hd
  have h13 : new.data.desc = old.data.desc := by rw [h13, newDesc, if_neg hd]
  have h12 : new.data.nwd = old.data.nwd := by unfold Info451.nwd; rw [h13]
  obtain ⟨m'', s'', new', d', ds', f1', rest', ss', g1, g2, g3, g4, g5, g6, g7, g8, g9, g10, g11, g12, g13, g14, g15, g16⟩ := update_full h4 c
  rw [h1] at q1
  obtain rfl : m' = m1 := (Prod.mk.inj q1).2
  obtain rfl : s1 = s' := Except.ok.inj (q2.symm.trans h4.sec)
  obtain rfl : new1 = new := Except.ok.inj (q3.symm.trans h4.parses)
  have h0 : c = false → ∀ e ∈ new1.data.index, e.mod = 0 := by
    rintro rfl e he
    have hmod := newIndex_mod (c := false) (old := old.data.index) h.keyed (by simp)
    rw [h2] at hmod
    have hm0 : ∀ x ∈ d :: ds, x.mod = 0 := by
      rw [hmod]; intro x hx; obtain ⟨y, _, rfl⟩ := List.mem_map.mp hx; rfl
    rw [h3] at he
    simp only [newSect] at he
    rcases List.mem_cons.mp he with rfl | he
    · exact hm0 d (by simp)
    · exact hm0 e (by simp [he])
  have hfix := newIndex_fix (c := c) h4.keyed q4 q5 h0
  rw [g2] at hfix
  have hdv := (tsection_parse_valid mf1mt451_law h.parses)
  have hnew : new' = new1 := by
    have hidx : new1.data.index = ⟨1, 451, 4 + old.data.nwd + ((d :: ds).length : Int), d.mod⟩ :: ds := by rw [h3]; simp only [newSect]
    rw [hidx, List.cons.injEq] at hfix
    have hds : ds' = ds := hfix.2
    have hmod : d'.mod = d.mod := by rw [hfix.1]
    have hdd : new1.data.description = old.data.description := by unfold Info451.description; rw [h13]
    have hnd : newDesc new1 = newDesc old := by unfold newDesc; rw [h13]
    rw [g3, newSect, hnd, h12, hds, hmod]
    rw [h3]
    simp only [newSect, Info451.elis, Info451.sta, Info451.lis, Info451.liso, Info451.nfor, Info451.awi, Info451.emax, Info451.lrel,
      Info451.nsub, Info451.nver, Info451.temp, Info451.rtol, Info451.ldrv, toInt32_toInt32, List.length_cons]
  refine ⟨m', h1, ?_⟩
  rw [g1]
  have hmat : m'.mat = m.mat := by rw [h7]; rfl
  rw [hnew, hmat, h11] at g11
  have hss : s'' = s1 := by
    cases s1; cases s''
    simp only at g8 g9 g10 g11 h8 h9 h10
    cases g11
    simp only [TSection.mk.injEq, and_true]
    exact ⟨by rw [g8, h8, hmat], by rw [g9, h9], by rw [g10, h10]⟩
  have : m'' = m' := by
    rw [g7, hss]
    have hf : m'.files = (1, { f1 with sections := (451, s1) :: ss }) :: rest := by rw [h7]; rfl
    rw [hf] at g5
    simp only [List.cons.injEq, Prod.mk.injEq, true_and] at g5
    obtain ⟨r1, r2⟩ := g5
    rw [← r1] at g6 ⊢
    simp only [List.cons.injEq, Prod.mk.injEq, true_and] at g6
    rw [← r2, ← g6]
    rw [h7]
    simp only [withSect]
  rw [this]

/-- **C23.** Without MF1 MT451 an exception is thrown, and the material is as before. -/
theorem C23_absent (m : TMaterial) (c : Bool) (h : m.hasMFMT 1 451 = false) : updateDirectory m c = (.error .exc, m) := by
  unfold TMaterial.hasMFMT at h
  unfold updateDirectory
  by_cases h1 : m.hasMF 1 = true
  · obtain ⟨f, hf⟩ : ∃ f, m.file 1 = .ok f := by
      unfold TMaterial.hasMF at h1
      unfold TMaterial.file SMap.at'
      cases hg : m.files.get? 1 with
      | none =>
        exfalso
        rw [SMap.has_eq_isSome, hg] at h1
        simp at h1
      | some f => exact ⟨f, rfl⟩
    rw [hf, h1] at h
    simp only [h1, hf]
    simp at h
    simp [h]
  · simp at h1
    simp [h1]

/-- **C23.** If MF1 MT451 cannot be parsed then the exception is passed on; it is a std::exception and the material is as before. -/
theorem C23_unparsable (m : TMaterial) (c : Bool) (s : TSection) (e : Err) (h : m.section' 1 451 = .ok s) (hp : s.parse mf1mt451 = .error e) :
    updateDirectory m c = (.error e, m) ∧ StdErr e := by
  constructor
  · unfold TMaterial.section' at h
    split at h
    · rename_i f hf
      have h1 : m.hasMF 1 = true := by rw [TMaterial.hasMF, SMap.has_eq_isSome, at'_ok hf]; rfl
      have h2 : f.hasMT 451 = true := by rw [TFile.hasMT, SMap.has_eq_isSome, at'_ok h]; rfl
      unfold updateDirectory
      rw [hf]
      simp only [h1, h2, h, hp]
      rfl
    · cases h
  · unfold TSection.parse at hp
    split at hp
    · cases hp
    · rename_i hst
      cases hp
      exact (parse_reads mf1mt451_law).err hst

/-- **C23.** However the call ends with an exception, the material is as before. -/
theorem C23_unchanged (m : TMaterial) (c : Bool) (hk : Keyed m) (e : Err) (h : (updateDirectory m c).1 = .error e) : (updateDirectory m c).2 = m := by
  unfold updateDirectory at h ⊢
  split
  · rfl
  rename_i h1
  rw [if_neg h1] at h
  cases hf : m.file 1 with
  | error e => simp
  | ok f =>
    rw [hf] at h
    simp only at h ⊢
    split
    · rfl
    rename_i h2
    rw [if_neg h2] at h
    cases hs : f.section' 451 with
    | error e => simp
    | ok s =>
      rw [hs] at h
      simp only at h ⊢
      cases hp : s.parse mf1mt451 with
      | error e => simp
      | ok old =>
        rw [hp] at h
        simp only at h ⊢
        cases hu : updated451 old (newIndex c old.data.index m.files') with
        | error e => simp
        | ok new =>
          rw [hu] at h
          simp only [TMaterial.insertOrReplaceParsed] at h ⊢
          cases ht : toSection mf1mt451 new m.mat with
          | error e => simp
          | ok x =>
            exfalso
            rw [ht] at h
            simp only at h
            have hx : x.mat = m.mat ∧ x.mf = 1 := by
              unfold toSection at ht
              split at ht
              · cases ht; exact ⟨rfl, by simp only [mf1mt451]⟩
              · cases ht
            have hk1 := hk.2 (1, f) (SMap.mem_of_get? (at'_ok hf))
            have h1' : m.hasMF 1 = true := by rw [TMaterial.hasMF, SMap.has_eq_isSome, at'_ok hf]; rfl
            unfold TMaterial.insertOrReplaceSection TMaterial.ensureMF TMaterial.onFile at h
            rw [hx.2, if_pos h1', hf] at h
            have hno : (f.remove x.mt).sections.has x.mt = false := by
              simp [TFile.remove, SMap.has_erase]
            have e1 : f.mf = 1 := hk1.1
            have e2 : f.mat = m.mat := hk1.2.1
            simp only [TFile.insertOrReplace, hx, SMap.emplace, hno] at h
            simp [e1, e2] at h

/-! ### where the hypotheses come from -/

/-- C19-C22: a material found in a tree that was read from a buffer is ready for updateDirectory if its MF1 MT451 is the first section and can be
    parsed, its real numbers survive being printed, and MAT is positive. -/
theorem C19_ready_of_buffer (b : Text) (line : Int) (t : TTape) (h : TTape.ofBuffer b line = .ok t) (mat : Int) (ms : List TMaterial)
    (hms : t.material mat = .ok ms) (x : TMaterial) (hx : x ∈ ms) (hpos : 1 ≤ mat) (s : TSection) (hs : x.section' 1 451 = .ok s)
    (hfirst : ∀ mt, x.hasMFMT 1 mt = true → 451 ≤ mt) (old : Sect Info451) (hp : s.parse mf1mt451 = .ok old) (hr : Reps (mf1mt451.realsSect old))
    (hsz : x.all.length + old.data.desc.length + 4 < 2147483648) : Ready x s old := by
  obtain ⟨st, hst⟩ := run_of_ofBuffer h
  have := readTTape_inv ⟨b, line⟩
  rw [hst] at this
  obtain ⟨L, g, v1, v2, v3, v4⟩ := this
  simp only at v4
  obtain ⟨b1, b2⟩ := SMap.buildMulti MatL.mat MatL.tree L.mats
  have b2' : ∀ k, SMap.getAll L.tree.materials k = (L.mats.filter (fun M => M.mat == k)).map MatL.tree := b2
  rw [v4, TTape.material_eq, b2'] at hms
  split at hms
  · cases hms
  cases hms
  obtain ⟨M, hM, rfl⟩ := List.mem_map.mp hx
  obtain ⟨hM1, hM2⟩ := List.mem_filter.mp hM
  have hmat : M.mat = mat := by simpa using hM2
  have hMv := v1.2.1 M hM1
  obtain ⟨c1, c2⟩ := SMap.build FileL.mf FileL.tree hMv.2.1
  have c1' : M.tree.files.Sorted := c1
  have c2' : ∀ k v, M.tree.files.get? k = some v ↔ ∃ F ∈ M.files, F.mf = k ∧ F.tree = v := c2
  have hnums : ∀ F ∈ M.files, ∀ S ∈ F.secs, S.nums.mf = F.mf ∧ 1 ≤ S.nums.mf ∧ fits 2 S.nums.mf ∧ fits 3 S.nums.mt := by
    intro F hF S hS
    obtain ⟨⟨q1, q2, q3⟩, q4⟩ := hMv.1 F hF
    obtain ⟨r1, r2⟩ := q1 S hS
    obtain ⟨⟨u1, u2, u3⟩, -⟩ := r1
    obtain ⟨w1, w2, w3, w4, w5⟩ := u1
    obtain ⟨-, ⟨y1, y2, y3⟩, -⟩ := w1
    refine ⟨r2, ?_, fits_of_parse (cols_length 71 72 _) y2, fits_of_parse (cols_length 73 75 _) y3⟩
    have e : S.nums.mf = S.head.div.tail.mf := rfl
    rw [e]; omega
  have hf2 : ∀ {n : Int}, fits 2 n → IsInt32 n := by
    intro n hn; unfold fits at hn; unfold IsInt32
    have a1 : (10 : Int) ^ 2 = 100 := by decide
    have a2 : (10 : Int) ^ (2 - 1) = 10 := by decide
    omega
  have hf3 : ∀ {n : Int}, fits 3 n → IsInt32 n := by
    intro n hn; unfold fits at hn; unfold IsInt32
    have a1 : (10 : Int) ^ 3 = 1000 := by decide
    have a2 : (10 : Int) ^ (3 - 1) = 100 := by decide
    omega
  have hsec : ∀ F ∈ M.files, ∀ k y, F.tree.sections.get? k = some y ↔ ∃ S ∈ F.secs, S.nums.mt = k ∧ S.tree = y := by
    intro F hF k y
    exact (SMap.build (fun S : SecL => S.nums.mt) SecL.tree (hMv.1 F hF).1.2.1).2 k y
  have hfmem : ∀ e ∈ M.tree.files, ∃ F ∈ M.files, F.mf = e.1 ∧ F.tree = e.2 := fun e he =>
    (c2' e.1 e.2).mp (SMap.get?_of_mem c1' he)
  have hsmem : ∀ F ∈ M.files, ∀ y ∈ F.tree.sections, ∃ S ∈ F.secs, S.nums.mt = y.1 ∧ S.tree = y.2 := fun F hF y hy =>
    (hsec F hF y.1 y.2).mp (SMap.get?_of_mem (SMap.build (fun S : SecL => S.nums.mt) SecL.tree (hMv.1 F hF).1.2.1).1 hy)
  have hkey : Keyed M.tree := by
    refine ⟨SMap.sorted_iff_keys.mp c1', ?_⟩
    intro e he
    obtain ⟨F, hF, f1, f2⟩ := hfmem e he
    rw [← f2, ← f1]
    refine ⟨rfl, (hMv.1 F hF).2, SMap.sorted_iff_keys.mp (SMap.build (fun S : SecL => S.nums.mt) SecL.tree (hMv.1 F hF).1.2.1).1, ?_⟩
    intro y hy
    obtain ⟨S, hS, s1, s2⟩ := hsmem F hF y hy
    rw [← s1, ← s2]
    exact ⟨rfl, (hnums F hF S hS).1⟩
  refine ⟨hkey, ?_, ?_, ?_, ?_, hsz, hs, hp, hr⟩
  · have e : M.tree.mat = mat := hmat
    rw [e]
    refine ⟨hpos, ?_⟩
    rw [← hmat]
    have hF : M.first ∈ M.files := by simp [MatL.files]
    obtain ⟨⟨q1, q2, q3⟩, q4⟩ := hMv.1 M.first hF
    have hS : M.first.first ∈ M.first.secs := by simp [FileL.secs]
    obtain ⟨r1, r2⟩ := q1 M.first.first hS
    obtain ⟨⟨⟨⟨-, ⟨y1, y2, y3⟩, -⟩, -⟩, -⟩, -⟩ := r1
    exact fits_of_parse (cols_length 67 70 _) y1
  · intro k hk
    obtain ⟨e, he, rfl⟩ := List.mem_map.mp hk
    obtain ⟨F, hF, f1, f2⟩ := hfmem e he
    have := hnums F hF F.first (by simp [FileL.secs])
    omega
  · intro f hf k hk
    refine hfirst k ?_
    unfold TMaterial.hasMFMT
    have hh : M.tree.hasMF 1 = true := by rw [TMaterial.hasMF, SMap.has_eq_isSome, at'_ok hf]; rfl
    rw [hh, hf]
    simp only [if_true]
    exact SMap.has_iff_keys.mpr hk
  · intro y hy
    obtain ⟨f, hf, hy⟩ := List.mem_flatMap.mp hy
    obtain ⟨e, he, rfl⟩ := List.mem_map.mp hf
    obtain ⟨F, hF, f1, f2⟩ := hfmem e he
    obtain ⟨z, hz, rfl⟩ := List.mem_map.mp hy
    rw [← f2] at hz
    obtain ⟨S, hS, s1, s2⟩ := hsmem F hF z hz
    rw [← s2]
    obtain ⟨-, -, n1, n2⟩ := hnums F hF S hS
    exact ⟨hf2 n1, hf3 n2⟩

/-! ### all materials of a tape -/

/-- C19: on a tape the call is made on each material; if all are ready then all are updated and nothing else changes. -/
theorem C19_tape (t : TTape) (c : Bool) (h : ∀ e ∈ t.materials, ∃ s old, Ready e.2 s old) :
    updateDirectoryTape t c = (.ok (), { t with materials := t.materials.map (fun e => (e.1, (updateDirectory e.2 c).2)) }) ∧
    ∀ e ∈ t.materials, (updateDirectory e.2 c).1 = .ok () := by
  have hall : ∀ e ∈ t.materials, (updateDirectory e.2 c).1 = .ok () := by
    intro e he
    obtain ⟨s, old, hr⟩ := h e he
    obtain ⟨_, _, _, h1, -⟩ := C19_listed hr c
    rw [h1]
  refine ⟨?_, hall⟩
  unfold updateDirectoryTape
  generalize t.materials = l at hall
  have : l.forEach (fun m => updateDirectory m c) = (.ok (), l.map (fun e => (e.1, (updateDirectory e.2 c).2))) := by
    induction l with
    | nil => rfl
    | cons e l ih =>
      simp only [List.mem_cons, forall_eq_or_imp] at hall
      rw [SMap.forEach]
      have h1 := hall.1
      cases hu : updateDirectory e.2 c with
      | mk r v =>
        rw [hu] at h1
        simp only at h1
        subst h1
        simp only [ih hall.2, List.map_cons, hu]
  rw [this]

/-- C23: on a tape an exception leaves the failing material and all later ones as they were; the ones before it have been updated. -/
theorem C23_tape (t : TTape) (c : Bool) (hk : ∀ e ∈ t.materials, Keyed e.2) (err : Err) (h : (updateDirectoryTape t c).1 = .error err) :
    ∃ pre k m post, t.materials = pre ++ (k, m) :: post ∧ (∀ e ∈ pre, (updateDirectory e.2 c).1 = .ok ()) ∧
      (updateDirectory m c).1 = .error err ∧
      (updateDirectoryTape t c).2.materials = pre.map (fun e => (e.1, (updateDirectory e.2 c).2)) ++ (k, m) :: post := by
  unfold updateDirectoryTape at h ⊢
  simp only at h ⊢
  generalize t.materials = l at hk h
  induction l with
  | nil => simp [SMap.forEach] at h
  | cons e l ih =>
    simp only [List.mem_cons, forall_eq_or_imp] at hk
    rw [SMap.forEach] at h ⊢
    have hun := C23_unchanged e.2 c hk.1
    cases hu : updateDirectory e.2 c with
    | mk r v =>
      rw [hu] at h hun
      cases r with
      | error e' =>
        simp only at h hun ⊢
        cases h
        have hv : v = e.2 := hun err rfl
        exact ⟨[], e.1, e.2, l, rfl, by simp, by rw [hu], by rw [hv]; rfl⟩
      | ok u =>
        simp only at h ⊢
        obtain ⟨pre, k, m, post, p1, p2, p3, p4⟩ := ih hk.2 h
        refine ⟨e :: pre, k, m, post, by rw [p1]; rfl, ?_, p3, ?_⟩
        · simp only [List.mem_cons, forall_eq_or_imp, hu, true_and]; exact p2
        · rw [List.map_cons, hu, List.cons_append, ← p4]

end ENDFtk.Props

import Verif.Parsed.Round
/-
  Objects that were read satisfy the invariants of their classes.
-/
set_option linter.unusedVariables false
set_option linter.unusedSectionVars false
set_option linter.unusedSimpArgs false
namespace ENDFtk
variable [Disco] [CorrOps]

/-- What a section that was read needs in addition to be printed faithfully.
    For 2/151: each unresolved resonance region is of the case that the isotope's LFW flag announces.
    For 32/151: the compact correlation matrices can be printed without loss. -/
def AnySection.Faithful : AnySection → Prop
  | ⟨.std .mf2mt151, x⟩ => ∀ i ∈ (x : Sect (List Isotope)).data, ∀ r ∈ i.ranges, r.parameters.lfwOk (ofBool i.lfw)
  | ⟨.cov, x⟩ => ∀ m ∈ matrices x, ENDFtk.Faithful m
  | _ => True

theorem lines_self {ls : List Text} (h : ∀ l ∈ ls, '\n' ∉ l) (r : Text) : Lines ls (unlines ls ++ r) r := by
  induction ls with
  | nil => exact .nil _
  | cons l ls ih =>
    simp only [unlines_cons, List.append_assoc, List.cons_append]
    exact .cons (h l (by simp)) (ih (fun m hm => h m (by simp [hm])))

theorem sectionText_info {mf : Int} {x : AnySection} {b : List Text} (h : SectionText mf x b) :
    x.mf = mf ∧ (x.Faithful → x.Valid) ∧ ∃ t, StartsWith b t ∧ x.mt = t.mt ∧ 1 ≤ t.mat ∧ t.mat ≤ 9999 := by
  obtain ⟨⟨t, ⟨l, rest, d, rfl, hd, rfl⟩, ht⟩, hr⟩ := h
  obtain ⟨T, x⟩ := x
  have hn : ∀ m ∈ rest, '\n' ∉ m := fun m hm => hr.1 m (by simp [hm])
  obtain ⟨k, hk, h1⟩ := (readsAs_cons (item := fun d => T.defn.readSect d d.tail.mat) hd hn).mp hr
  have h1 := h1 [] 0
  obtain ⟨k1, k2⟩ := readSect_mt hd ht h1
  have hfit := fits_of_parse (cols_length 67 70 l) hd.1.2.1.1
  refine ⟨(sectionType?_iff.mp ht).1, fun hl => ?_, d.tail, ⟨l, rest, d, rfl, hd, rfl⟩, k1, ?_, ?_⟩
  · cases T with
    | std T =>
      obtain ⟨_, _, k3, k4⟩ := readSect_mt_std hd ht h1
      by_cases hT : T = .mf2mt151
      · subst hT; exact ⟨k3, hl⟩
      · exact k4 hT
    | cov =>
      have h2 := ResCov.readSect_reads d d.tail.mat ⟨unlines rest ++ [], 0⟩
      rw [show mf32mt151.readSect d d.tail.mat ⟨unlines rest ++ [], 0⟩ = .ok (x, _) from h1] at h2
      exact ⟨ResCov.wellFormed_faithful h2.1 hl, trivial⟩
  · cases T with
    | std T =>
      obtain ⟨ls, _, _, _, _, _, _, _, _, _, mid, e, _, _, _, hs⟩ :=
        (readSect_reads T.lawUb d (showsCont_fits hd.2.1) (fits_of_parse (cols_length 73 75 l) hd.1.2.1.2.2) d.tail.mat).ok h1
      obtain ⟨c, _, _, _, hpos, _⟩ := hs
      omega
    | cov => exact ResCov.readSect_mat h1
  · simp [fits] at hfit; omega

theorem readFile_valid {mf : Int} (hk : KnownMF mf) (h30 : mf ≠ 30) {s s' : St} {f : PFile} (h : readFileFrom mf s = .ok (f, s'))
    (hl : ∀ x ∈ f.sections', x.Faithful) : f.Valid ∧ f.mf = mf := by
  obtain ⟨d, s1, h1, h2⟩ := Parser.bind_eq_ok.mp h
  obtain ⟨l, a1, a2, _⟩ := readDivision_inv h1
  have hmf := readPFile_mf h2
  refine ⟨?_, hmf⟩
  by_cases h8 : Plain8 mf d.tail.mt
  · obtain ⟨xs, rest, b1, b3, b4⟩ := readFile_inv h30 a2 h8 h2
    unfold PFile.make at b4
    cases hf : fillMap AnySection.mt xs [] with
    | error e => simp [hf] at b4
    | ok m =>
    simp [hf] at b4
    subst b4
    refine ⟨hk, h30, (fillMap_ok hf).2.1, fun e he => ?_⟩
    obtain ⟨c1, c2⟩ := fillMap_entry hf he
    obtain ⟨bs, fend, _, d2, _⟩ := b3
    obtain ⟨b, _, hb⟩ := d2.forall.1 e.2 c2
    obtain ⟨e1, e2, _⟩ := sectionText_info hb
    exact ⟨c1, e1, e2 (hl e.2 (List.mem_map.mpr ⟨e, he, rfl⟩))⟩
  · have : f = ⟨8, []⟩ := by
      unfold readPFile at h2
      have h8' : mf = 8 ∧ ¬(d.tail.mt = 454 ∨ d.tail.mt = 457 ∨ d.tail.mt = 459) := by
        unfold Plain8 at h8
        by_cases h : mf = 8
        · exact ⟨h, fun g => h8 fun _ => g⟩
        · exact absurd (fun g => absurd g h) h8
      rw [if_neg h30, if_pos h8'] at h2
      have h := Parser.mapErr_ok.mp h2
      obtain ⟨_, _, _, h⟩ := Parser.bind_eq_ok.mp h
      obtain ⟨_, _, _, h⟩ := Parser.bind_eq_ok.mp h
      obtain ⟨_, _, _, h⟩ := Parser.bind_eq_ok.mp h
      cases h; rfl
    subst this
    exact ⟨hmf ▸ hk, hmf ▸ h30, SMap.Sorted.nil, by simp⟩

/-- The first line of a file that has sections. -/
theorem readFile_mat {mf : Int} {s s' : St} {f : PFile} (h : readFileFrom mf s = .ok (f, s')) (hne : f.sections ≠ []) :
    mf ≠ 30 ∧ ∃ l d r, At l s.rest r ∧ DivLine d l ∧ 1 ≤ d.tail.mat ∧ d.tail.mat ≤ 9999 := by
  obtain ⟨d, s1, h1, h2⟩ := Parser.bind_eq_ok.mp h
  obtain ⟨l, a1, a2, _⟩ := readDivision_inv h1
  have h30 : mf ≠ 30 := by
    rintro rfl
    unfold readPFile at h2
    rw [if_pos rfl] at h2
    split at h2
    · obtain ⟨_, _, _, h⟩ := Parser.bind_eq_ok.mp h2
      obtain ⟨_, _, _, h⟩ := Parser.bind_eq_ok.mp h
      cases h; exact hne rfl
    · cases h2; exact hne rfl
  refine ⟨h30, l, d, _, a1, a2, ?_⟩
  have h8 : Plain8 mf d.tail.mt := by
    intro h8
    by_cases hc : d.tail.mt = 454 ∨ d.tail.mt = 457 ∨ d.tail.mt = 459
    · exact hc
    exfalso
    unfold readPFile at h2
    rw [if_neg h30, if_pos ⟨h8, hc⟩] at h2
    have h := Parser.mapErr_ok.mp h2
    obtain ⟨_, _, _, h⟩ := Parser.bind_eq_ok.mp h
    obtain ⟨_, _, _, h⟩ := Parser.bind_eq_ok.mp h
    obtain ⟨_, _, _, h⟩ := Parser.bind_eq_ok.mp h
    cases h; exact hne rfl
  obtain ⟨xs, rest, b1, b3, b4⟩ := readFile_inv h30 a2 h8 h2
  obtain ⟨bs, fend, e1, e2, e3⟩ := b3
  cases e2 with
  | nil => simp [PFile.make, fillMap] at b4; subst b4; exact absurd rfl hne
  | cons hx _ =>
    obtain ⟨_, _, t, ⟨l', r', d', rfl, g1, rfl⟩, _, g2⟩ := sectionText_info hx
    simp at e1
    obtain ⟨rfl, _⟩ := e1
    obtain rfl := g1.unique a2
    exact g2

theorem readMaterial_valid {s s' : St} {m : PMaterial} (h : readMaterialFrom s = .ok (m, s')) (hne : m.files ≠ [])
    (hf : ∀ f ∈ m.files', f.sections ≠ [] ∧ ∀ x ∈ f.sections', x.Faithful) : m.Valid := by
  obtain ⟨d, s1, h1, h2⟩ := Parser.bind_eq_ok.mp h
  obtain ⟨l, a1, a2, _⟩ := readDivision_inv h1
  have hmat := readPMaterial_mat h2
  obtain ⟨fs, rest, b1, ⟨bs, mend, b3, b4, b5⟩, b6⟩ := readMaterial_inv a2 h2
  unfold PMaterial.make at b6
  cases hm : fillMap PFile.mf fs [] with
  | error e => simp [hm] at b6
  | ok mm =>
  simp [hm] at b6
  subst b6
  have hall : ∀ f ∈ fs, f ∈ mm.values := by
    intro f hff
    have := (fillMap_ok hm).2.2.symm.subset (List.mem_map.mpr ⟨f, hff, rfl⟩)
    exact List.mem_map.mpr ⟨_, this, rfl⟩
  refine ⟨?_, hne, (fillMap_ok hm).2.1, fun e he => ?_⟩
  · cases b4 with
    | nil => simp [fillMap] at hm; subst hm; exact absurd rfl hne
    | cons hx _ =>
      rename_i f b fs' bs' hxs
      obtain ⟨⟨t, ⟨l', r', d', rfl, g1, rfl⟩, g2, g3⟩, g4⟩ := hx
      simp at b3
      obtain ⟨rfl, _⟩ := b3
      obtain rfl := g1.unique a2
      obtain ⟨_, g5⟩ := g4.run [] 0
      obtain ⟨_, l2, d2, r2, c1, c2, c3⟩ := readFile_mat g5 (hf f (hall f (by simp))).1
      simp only [List.append_nil, unlines_cons] at c1
      obtain ⟨rfl, _⟩ := c1.unique (At.nl g1.1.1)
      obtain rfl := c2.unique g1
      exact c3
  · obtain ⟨c1, c2⟩ := fillMap_entry hm he
    obtain ⟨b, _, ⟨⟨t, _, g2, g3⟩, g4⟩⟩ := b4.forall.1 e.2 c2
    have hmem : e.2 ∈ mm.values := List.mem_map.mpr ⟨e, he, rfl⟩
    have hfe := hf e.2 hmem
    obtain ⟨_, g5⟩ := g4.run [] 0
    have h30 := (readFile_mat g5 hfe.1).1
    exact ⟨c1, (readFile_valid (g2 ▸ g3) h30 g5 hfe.2).1, hfe.1⟩

theorem readTape_valid {s s' : St} {t : PTape} (h : PTape.read s = .ok (t, s')) (hsz : t.materials.length < 2147483648)
    (hne : ∀ m ∈ t.materials, m.files ≠ [] ∧ ∀ f ∈ m.files', f.sections ≠ [] ∧ ∀ x ∈ f.sections', x.Faithful) : t.Valid := by
  obtain ⟨id, ms, ls, a1, ⟨tpid, bs, tend, dt, rfl, b1, b2, b3, b4, b5⟩, a4⟩ := readTape_inv h
  unfold PTape.make at a4
  split at a4
  · cases a4
  rename_i h0
  cases a4
  refine ⟨?_, ?_, ?_, hsz, fun m hm => ?_⟩
  · rw [b2]; simp [padded]; omega
  · rw [b2]
    have := b1.1
    simp only [padded, List.mem_append, not_or]
    refine ⟨fun h => this (List.mem_of_mem_take h), by simp [blanks]⟩
  · rintro rfl
    exact h0 (by simp [asInt]; decide +kernel)
  · obtain ⟨b, _, ⟨_, hb⟩⟩ := b3.forall.1 m hm
    obtain ⟨_, g5⟩ := hb.run [] 0
    exact readMaterial_valid g5 (hne m hm).1 (hne m hm).2

end ENDFtk

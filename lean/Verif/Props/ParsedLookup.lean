import Verif.Section.CorrInstance
import Verif.Props.Parsed
import Verif.DiscoInstance
import Verif.Txt
/-
  C47, continued: lookups in a parsed material, and the end of a file 8 that is skipped.
-/
set_option linter.unusedVariables false
set_option linter.unusedSectionVars false
set_option linter.unusedSimpArgs false
namespace ENDFtk.Props
open ENDFtk

section
variable [Disco] [CorrOps]

theorem make_has {mf : Int} {xs : List AnySection} {f : PFile} (h : PFile.make mf xs = .ok f) (mt : Int) :
    (f.hasMT mt = true ↔ ∃ x ∈ xs, x.mt = mt) ∧ (∀ x, f.section' mt = .ok x ↔ x ∈ xs ∧ x.mt = mt) ∧ (f.hasMT mt = false → f.section' mt = .error .outOfRange) ∧
    f.mf = mf ∧ f.sections'.Perm xs := by
  unfold PFile.make at h
  split at h
  · rename_i m hm
    cases h
    obtain ⟨hn, hs, hp⟩ := fillMap_ok hm
    have key : ∀ x, SMap.get? m mt = some x ↔ x ∈ xs ∧ x.mt = mt := by
      intro x
      constructor
      · intro hx
        have := SMap.mem_of_get? hx
        obtain ⟨a, b⟩ := fillMap_entry hm this
        exact ⟨b, a.symm⟩
      · rintro ⟨hx, rfl⟩
        exact SMap.get?_of_mem hs (hp.symm.subset (List.mem_map.mpr ⟨x, hx, rfl⟩))
    refine ⟨?_, fun x => ?_, fun hh => ?_, rfl, ?_⟩
    · rw [PFile.hasMT, SMap.has_eq_isSome, Option.isSome_iff_exists]
      exact ⟨fun ⟨x, hx⟩ => ⟨x, (key x).mp hx⟩, fun ⟨x, hx⟩ => ⟨x, (key x).mpr hx⟩⟩
    · rw [PFile.section', SMap.at'_ok, key]
    · rw [PFile.hasMT, SMap.has_eq_isSome, Option.isSome_eq_false_iff, Option.isNone_iff_eq_none] at hh
      rw [PFile.section', SMap.at'_error]; exact hh
    · have := hp.map (·.2)
      simpa [PFile.sections', SMap.values, Function.comp_def] using this
  · cases h

/-- Lookup in a material: `hasMFMT` says whether one of its files with that MF has a section with that MT, and `section( MF, MT )` returns it;
    what is not there is an exception. -/
theorem C47_material_lookup {mat : Int} {fs : List PFile} {m : PMaterial} (h : PMaterial.make mat fs = .ok m)
    (hf : ∀ f ∈ fs, ∃ xs, PFile.make f.mf xs = .ok f) (mf mt : Int) :
    (m.hasMF mf = true ↔ ∃ f ∈ fs, f.mf = mf) ∧
    (∀ f, m.file mf = .ok f ↔ f ∈ fs ∧ f.mf = mf) ∧
    (m.hasMFMT mf mt = true ↔ ∃ f ∈ fs, f.mf = mf ∧ ∃ x ∈ f.sections', x.mt = mt) ∧
    (mf ≠ 30 → ∀ x, m.section' mf mt = .ok x ↔ ∃ f ∈ fs, f.mf = mf ∧ x ∈ f.sections' ∧ x.mt = mt) ∧
    (m.hasMFMT mf mt = false → ∃ e, m.section' mf mt = .error e ∧ (e = .exc ∨ e = .outOfRange)) := by
  unfold PMaterial.make at h
  split at h
  · rename_i mm hm
    cases h
    obtain ⟨hn, hs, hp⟩ := fillMap_ok hm
    have key : ∀ f, SMap.get? mm mf = some f ↔ f ∈ fs ∧ f.mf = mf := by
      intro f
      constructor
      · intro hx
        obtain ⟨a, b⟩ := fillMap_entry hm (SMap.mem_of_get? hx)
        exact ⟨b, a.symm⟩
      · rintro ⟨hx, rfl⟩
        exact SMap.get?_of_mem hs (hp.symm.subset (List.mem_map.mpr ⟨f, hx, rfl⟩))
    have h1 : PMaterial.hasMF ⟨mat, mm⟩ mf = true ↔ ∃ f ∈ fs, f.mf = mf := by
      rw [PMaterial.hasMF, SMap.has_eq_isSome, Option.isSome_iff_exists]
      exact ⟨fun ⟨x, hx⟩ => ⟨x, (key x).mp hx⟩, fun ⟨x, hx⟩ => ⟨x, (key x).mpr hx⟩⟩
    have h2 : ∀ f, PMaterial.file ⟨mat, mm⟩ mf = .ok f ↔ f ∈ fs ∧ f.mf = mf := fun f => by rw [PMaterial.file, SMap.at'_ok, key]
    by_cases hx : ∃ f ∈ fs, f.mf = mf
    · obtain ⟨f, hx, hfm⟩ := hx
      have hff := (h2 f).mpr ⟨hx, hfm⟩
      obtain ⟨xs, hxs⟩ := hf f hx
      obtain ⟨k1, k2, k3, _, k4⟩ := make_has hxs mt
      have huniq : ∀ g ∈ fs, g.mf = mf → g = f := fun g hg hgm => by
        have := (h2 g).mpr ⟨hg, hgm⟩
        rw [hff] at this; cases this; rfl
      have hhas : PMaterial.hasMFMT ⟨mat, mm⟩ mf mt = f.hasMT mt := by
        unfold PMaterial.hasMFMT
        rw [if_pos (h1.mpr ⟨f, hx, hfm⟩), hff]
      refine ⟨h1, h2, ?_, ?_, ?_⟩
      · rw [hhas, k1]
        constructor
        · rintro ⟨x, a, b⟩; exact ⟨f, hx, hfm, x, k4.symm.subset a, b⟩
        · rintro ⟨g, hg, hgm, x, a, b⟩
          cases huniq g hg hgm
          exact ⟨x, k4.subset a, b⟩
      · intro h30 x
        unfold PMaterial.section'
        rw [hff]
        simp only
        rw [if_neg (by omega), k2]
        constructor
        · rintro ⟨a, b⟩; exact ⟨f, hx, hfm, k4.symm.subset a, b⟩
        · rintro ⟨g, hg, hgm, a, b⟩
          cases huniq g hg hgm
          exact ⟨k4.subset a, b⟩
      · intro hh
        rw [hhas] at hh
        unfold PMaterial.section'
        rw [hff]
        simp only
        split
        · exact ⟨_, rfl, .inl rfl⟩
        · exact ⟨_, k3 hh, .inr rfl⟩
    · have hnone : SMap.get? mm mf = none := by
        cases hg : SMap.get? mm mf with
        | none => rfl
        | some f => exact absurd ⟨f, (key f).mp hg⟩ hx
      have herr : PMaterial.file ⟨mat, mm⟩ mf = .error .outOfRange := by rw [PMaterial.file, SMap.at'_error]; exact hnone
      have hno : PMaterial.hasMF ⟨mat, mm⟩ mf = false := by
        rw [← Bool.not_eq_true, h1]; exact hx
      refine ⟨h1, h2, ?_, ?_, fun _ => ⟨.outOfRange, ?_, .inr rfl⟩⟩
      · unfold PMaterial.hasMFMT
        rw [hno, if_neg (by simp)]
        constructor
        · intro h; cases h
        · rintro ⟨g, hg, hgm, _⟩; exact absurd ⟨g, hg, hgm⟩ hx
      · intro h30 x
        unfold PMaterial.section'
        rw [herr]
        constructor
        · intro h; cases h
        · rintro ⟨g, hg, hgm, _⟩; exact absurd ⟨g, hg, hgm⟩ hx
      · unfold PMaterial.section'
        rw [herr]
  · cases h

/-- The same for a file. -/
theorem C47_file_lookup {mf : Int} {xs : List AnySection} {f : PFile} (h : PFile.make mf xs = .ok f) (mt : Int) :
    (f.hasMT mt = true ↔ ∃ x ∈ xs, x.mt = mt) ∧ (∀ x, f.section' mt = .ok x ↔ x ∈ xs ∧ x.mt = mt) ∧ (f.hasMT mt = false → f.section' mt = .error .outOfRange) :=
  ⟨(make_has h mt).1, (make_has h mt).2.1, (make_has h mt).2.2.1⟩

theorem skipFile8_end : ∀ {fuel : Nat} {d d' : Division} {s s' : St} {l : Text}, skipFile8 fuel d s = .ok (d', s') → DivLine d l →
    d'.tail.mf ≠ 8 ∧ ∃ ls e, Lines ls s.rest s'.rest ∧ (l :: ls).getLast? = some e ∧ DivLine d' e
  | 0, _, _, _, _, _, h, _ => by cases h
  | fuel + 1, d, d', s, s', l, h, hl => by
    rw [skipFile8_succ] at h
    split at h
    · obtain ⟨d1, s1, h1, h2⟩ := Parser.bind_eq_ok.mp h
      obtain ⟨u, s0, h3, h4⟩ := Parser.bind_eq_ok.mp h1
      obtain ⟨ls0, a1, _, _⟩ := (skipLoop_Local _).run h3
      obtain ⟨l1, b1, b2, _⟩ := readDivision_inv h4
      obtain ⟨c1, ls, e, c2, c3, c4⟩ := skipFile8_end h2 b2
      refine ⟨c1, ls0 ++ l1 :: ls, e, a1.trans (b1.lines.trans c2), ?_, c4⟩
      rw [← List.cons_append, List.getLast?_append, c3]; rfl
    · rename_i h8
      simp only [Parser.pure_run, Except.ok.injEq, Prod.mk.injEq] at h
      obtain ⟨rfl, rfl⟩ := h
      exact ⟨h8, [], l, .nil _, rfl, hl⟩

/-- A file 8 that does not begin with MT 454, 457 or 459 is skipped: no section is kept.  The last line that is consumed is not of file 8, is not the
    beginning of a section, and if it is an end record then it is FEND, not SEND, MEND or TEND. -/
theorem C47_skipped_file8 {s s' s1 : St} {d : Division} {f : PFile} (h : readFileFrom 8 s = .ok (f, s')) (hd : readDivision s = .ok (d, s1))
    (h454 : d.tail.mt ≠ 454 ∧ d.tail.mt ≠ 457 ∧ d.tail.mt ≠ 459) :
    f = ⟨8, []⟩ ∧ ∃ ls e d', Lines (ls ++ [e]) s.rest s'.rest ∧ DivLine d' e ∧ d'.tail.mf ≠ 8 ∧
      ¬(d'.tail.mt ≠ 0 ∧ d'.tail.mf ≠ 0 ∧ d'.tail.mat ≠ 0) ∧
      (ZeroCols d'.base → d'.tail.mt = 0 → (d'.tail.mf ≠ 0 → d'.tail.mat ≤ 0) ∧ (d'.tail.mf = 0 → 0 < d'.tail.mat)) := by
  obtain ⟨d0, s0, h1, h2⟩ := Parser.bind_eq_ok.mp h
  rw [hd] at h1; cases h1
  obtain ⟨l, a1, a2, _⟩ := readDivision_inv hd
  unfold readPFile at h2
  rw [if_neg (by decide), if_pos ⟨rfl, by omega⟩] at h2
  have h3 := Parser.mapErr_ok.mp h2
  obtain ⟨_, _, g1, h4⟩ := Parser.bind_eq_ok.mp h3
  cases g1
  obtain ⟨d', s2, h5, h6⟩ := Parser.bind_eq_ok.mp h4
  obtain ⟨u, s3, h7, h8⟩ := Parser.bind_eq_ok.mp h6
  cases h8
  obtain ⟨b1, ls, e, b2, b3, b4⟩ := skipFile8_end h5 a2
  have hv : verifyFEND d' = .ok () ∧ s' = s2 := by
    unfold liftE at h7
    split at h7
    · rename_i x hx
      cases h7; exact ⟨hx, rfl⟩
    · cases h7
  obtain ⟨hv, rfl⟩ := hv
  refine ⟨rfl, (l :: ls).dropLast, e, d', ?_, b4, b1, ?_, ?_⟩
  · obtain ⟨ys, hys⟩ := List.getLast?_eq_some_iff.mp b3
    rw [hys, List.dropLast_concat, ← hys]
    exact a1.lines.trans b2
  · intro hh
    unfold verifyFEND at hv
    simp only [Division.isFend, Division.isFendPermissive, Division.isSend, Division.isSendPermissive, Division.isHead, hh.1, hh.2.1, hh.2.2] at hv
    simp [hh.1, hh.2.1, hh.2.2] at hv
  · intro hz h0
    have hb : d'.baseIsZero = true := by
      unfold Division.baseIsZero
      obtain ⟨z1, z2, z3, z4, z5, z6⟩ := hz
      simp [z1, z2, z3, z4, z5, z6]
    have hm := b4.2.2.1
    unfold verifyFEND at hv
    simp only [Division.isFend, Division.isFendPermissive, Division.isSend, Division.isSendPermissive, Division.isHead, Division.isMend, Division.isTend, hb, h0] at hv
    refine ⟨fun hf => ?_, fun hf => ?_⟩
    · simp [hf] at hv
      omega
    · simp [hf] at hv
      by_cases hp : 0 < d'.tail.mat
      · exact hp
      · exfalso
        have : d'.tail.mat = 0 ∨ d'.tail.mat = -1 := by omega
        rcases this with h | h <;> simp [h] at hv
end

section
attribute [local instance] concDisco concCorr
set_option maxRecDepth 100000

/-- A file 8 with section 460 is skipped up to its FEND ... -/
example : (match readFileFrom 8 ⟨txt
    " 1.001000+3 9.991673-1          0          0          0          0 125 8460     \n"
    " 0.000000+0 0.000000+0          0          0          0          0 125 8460     \n"
    " 0.000000+0 0.000000+0          0          0          0          0 125 8  0     \n"
    " 0.000000+0 0.000000+0          0          0          0          0 125 0  0     \n", 0⟩ with
  | .ok (f, s) => decide (f.mf = 8 ∧ f.sections.length = 0 ∧ s.rest = [] ∧ s.line = 4)
  | .error _ => false) = true := by decide +kernel

/-- ... and rejected if the SEND of another file comes instead. -/
example : (match readFileFrom 8 ⟨txt
    " 1.001000+3 9.991673-1          0          0          0          0 125 8460     \n"
    " 0.000000+0 0.000000+0          0          0          0          0 125 8460     \n"
    " 0.000000+0 0.000000+0          0          0          0          0 125 8  0     \n"
    " 0.000000+0 0.000000+0          0          0          0          0 125 9  0     \n", 0⟩ with
  | .ok _ => false
  | .error e => e.isStd) = true := by decide +kernel

end

end ENDFtk.Props

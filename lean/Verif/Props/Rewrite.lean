import Verif.Rounded.Parsed
import Verif.Props.Sections
import Verif.Props.Parsed
import Verif.Props.ResCov
/-
  C67: writing loses digits only once.  What is read from a text written by the library is printed as the same text again.
  Unlike C41, C46 and C53 this does not assume that the reals survive 11 columns.
-/
set_option linter.unusedVariables false
set_option linter.unusedSectionVars false
set_option linter.unusedSimpArgs false
namespace ENDFtk.Props
variable [Disco] [Rounding]

/-! ### C67: writing a second time changes nothing -/

/-- Any valid section: its text is read as a section `y` whose reals are the rounded ones (ZA and MT are the same), and `y` is printed as the same text. -/
theorem C67_section (T : SectionType) {x : Sect T.Data} (hv : T.defn.ValidSect x) (hz : SevenDigits x.za) (hs : T.WholeSmall x.data)
    {mat : Int} (h1 : 1 ≤ mat) (h2 : mat ≤ 9999) :
    ∃ (txt : Text) (y : Sect T.Data), T.defn.print x mat T.defn.mf = .ok txt ∧ (∀ r n, ∃ k, T.defn.parse ⟨txt ++ r, n⟩ = .ok (y, ⟨r, k⟩)) ∧
      T.defn.print y mat T.defn.mf = .ok txt ∧ y.za = x.za ∧ y.mt = x.mt ∧ T.defn.realsSect y = (T.defn.realsSect x).map rnd := by
  obtain ⟨txt, e1, e2⟩ := C41_valid_round_trip T (T.rounds.validSect hv) (T.rounds.reps hz hs) h1 h2
  exact ⟨txt, x.rnd T.rounded, by rw [← T.rounds.print hz]; exact e1, e2, e1, rfl, rfl, T.rounds.realsSect hz hs⟩

/-- Any section that was read from some text (2/151 with the hypothesis of `C41_mf2mt151_partial`). -/
theorem C67_parsed_section (T : SectionType) {s s' : St} {x : Sect T.Data} (h : T.defn.parse s = .ok (x, s'))
    (hl : T.defn.strict = false → T.defn.mtOk x.mt x.data) (hz : SevenDigits x.za) (hs : T.WholeSmall x.data) {mat : Int} (h1 : 1 ≤ mat) (h2 : mat ≤ 9999) :
    ∃ (txt : Text) (y : Sect T.Data), T.defn.print x mat T.defn.mf = .ok txt ∧ (∀ r n, ∃ k, T.defn.parse ⟨txt ++ r, n⟩ = .ok (y, ⟨r, k⟩)) ∧
      T.defn.print y mat T.defn.mf = .ok txt ∧ y.za = x.za ∧ y.mt = x.mt ∧ T.defn.realsSect y = (T.defn.realsSect x).map rnd := by
  obtain ⟨_, _, _, hw, hv, _⟩ := (parse_reads T.lawUb).ok h
  refine C67_section T ?_ hz hs h1 h2
  cases hst : T.defn.strict with
  | true => exact hv hst
  | false => exact ⟨hw, hl hst⟩

/-- The text that is written is a fixed point: read it, print what was read, and the same text is obtained; whatever is read from it has no further digits
    to lose. -/
theorem C67_fixpoint (T : SectionType) {x : Sect T.Data} (hv : T.defn.ValidSect x) (hz : SevenDigits x.za) (hs : T.WholeSmall x.data)
    {mat : Int} (h1 : 1 ≤ mat) (h2 : mat ≤ 9999) {txt : Text} (hp : T.defn.print x mat T.defn.mf = .ok txt) {r : Text} {n : Int} {y : Sect T.Data} {s' : St}
    (hy : T.defn.parse ⟨txt ++ r, n⟩ = .ok (y, s')) : s'.rest = r ∧ T.defn.print y mat T.defn.mf = .ok txt ∧ Reps (T.defn.realsSect y) := by
  obtain ⟨t, z, e1, e2, e3, _, _, e4⟩ := C67_section T hv hz hs h1 h2
  rw [hp] at e1; cases e1
  obtain ⟨k, e2⟩ := e2 r n
  rw [hy] at e2; cases e2
  exact ⟨rfl, e3, by rw [e4]; exact reps_rnd _⟩

variable [CorrOps]

/-- Section 32/151, provided that its compact correlation matrices can be printed. -/
theorem C67_mf32mt151 {x : Sect (List CovIsotope)} (hv : mf32mt151.WellFormed x) (hz : SevenDigits x.za) {mat : Int} (h1 : 1 ≤ mat) (h2 : mat ≤ 9999) :
    ∃ (txt : Text) (y : Sect (List CovIsotope)), mf32mt151.print x mat 32 = .ok txt ∧ (∀ r n, ∃ k, mf32mt151.parse ⟨txt ++ r, n⟩ = .ok (y, ⟨r, k⟩)) ∧
      mf32mt151.print y mat 32 = .ok txt ∧ y.za = x.za ∧ y.mt = x.mt ∧ mf32mt151.realsSect y = (mf32mt151.realsSect x).map rnd := by
  have hw := (mf32mt151_rounds.validSect (x := x) ⟨hv, trivial⟩).1
  obtain ⟨txt, e1, e2⟩ := ResCov.sect_round hw (mf32mt151_rounds.reps hz trivial) h1 (show fits 4 mat by simp [fits]; omega)
  exact ⟨txt, _, by rw [← mf32mt151_rounds.print hz]; exact e1, fun r n => ⟨_, e2 r n⟩, e1, rfl, rfl, mf32mt151_rounds.realsSect hz trivial⟩

/-- Files. -/
theorem C67_file {f : PFile} (hv : f.Valid) (hs : f.Small) {mat : Int} (h1 : 1 ≤ mat) (h2 : mat ≤ 9999) :
    ∃ (txt : Text) (g : PFile), f.print mat = .ok txt ∧ (∀ r n, ∃ k, readFileFrom f.mf ⟨txt ++ r, n⟩ = .ok (g, ⟨r, k⟩)) ∧ g.print mat = .ok txt ∧
      f.RoundsTo g := by
  obtain ⟨txt, e1, e2⟩ := C46_file_round_trip (PFile.valid_rnd hv) (PFile.rep_rnd hs) h1 h2
  exact ⟨txt, f.rnd, by rw [← PFile.print_rnd hs]; exact e1, e2, e1, PFile.roundsTo_rnd hs⟩

/-- Materials. -/
theorem C67_material {m : PMaterial} (hv : m.Valid) (hs : m.Small) :
    ∃ (txt : Text) (n : PMaterial), m.print = .ok txt ∧ (∀ r k, ∃ j, readMaterialFrom ⟨txt ++ r, k⟩ = .ok (n, ⟨r, j⟩)) ∧ n.print = .ok txt ∧ m.RoundsTo n := by
  obtain ⟨txt, e1, e2⟩ := C46_material_round_trip_partial (PMaterial.valid_rnd hv) (PMaterial.rep_rnd hs)
  exact ⟨txt, m.rnd, by rw [← PMaterial.print_rnd hs]; exact e1, e2, e1, PMaterial.roundsTo_rnd hs⟩

/-- Tapes: the tape number is lost as well (C46), but nothing more the second time. -/
theorem C67_tape {t : PTape} (hv : t.Valid) (hs : t.Small) :
    ∃ (txt : Text) (u : PTape), t.print = .ok txt ∧ (∀ r n, ∃ k, PTape.read ⟨txt ++ r, n⟩ = .ok (u, ⟨r, k⟩)) ∧ u.print = .ok txt ∧ t.RoundsTo u := by
  obtain ⟨txt, e1, e2⟩ := C46_tape_round_trip_partial (PTape.valid_rnd hv) (PTape.rep_rnd hs)
  exact ⟨txt, t.rnd, by rw [← PTape.print_rnd hs]; exact e1, e2, e1, PTape.roundsTo_rnd hs⟩

/-- Hence for any tape that was read: the tape that is written is read and written again without change. -/
theorem C67_read_tape {s s' : St} {t : PTape} (h : PTape.read s = .ok (t, s')) (hsz : t.materials.length < 2147483648)
    (hne : ∀ m ∈ t.materials, m.files ≠ [] ∧ ∀ f ∈ m.files', f.sections ≠ [] ∧ ∀ x ∈ f.sections', x.Faithful) (hs : t.Small) :
    ∃ (txt : Text) (u : PTape), t.print = .ok txt ∧ (∀ r n, ∃ k, PTape.read ⟨txt ++ r, n⟩ = .ok (u, ⟨r, k⟩)) ∧ u.print = .ok txt ∧ t.RoundsTo u :=
  C67_tape (readTape_valid h hsz hne) hs

/-- The same for a material that was read. -/
theorem C67_read_material {s s' : St} {m : PMaterial} (h : readMaterialFrom s = .ok (m, s')) (hne : m.files ≠ [])
    (hf : ∀ f ∈ m.files', f.sections ≠ [] ∧ ∀ x ∈ f.sections', x.Faithful) (hs : m.Small) :
    ∃ (txt : Text) (n : PMaterial), m.print = .ok txt ∧ (∀ r k, ∃ j, readMaterialFrom ⟨txt ++ r, k⟩ = .ok (n, ⟨r, j⟩)) ∧ n.print = .ok txt ∧ m.RoundsTo n :=
  C67_material (readMaterial_valid h hne hf) hs

end ENDFtk.Props

import Verif.Section.MF32Laws
import Verif.Section.Lemmas
/-
  Section 32/151 as a whole: its parser advances the line counter by more than the lines, so that it does not satisfy `SecDef.Law`.
-/
set_option linter.unusedVariables false
set_option linter.unusedSectionVars false
set_option linter.unusedSimpArgs false
namespace ENDFtk
variable [Disco] [CorrOps]

namespace ResCov

/-- The number of resonance ranges of all isotopes. -/
def ranges (b : List CovIsotope) : Nat := (b.map (fun x => x.ranges.length)).sum

/-- What holds for data that were read. -/
def Inv (b : List CovIsotope) : Prop := (b.length : Int) < 2147483648 ∧ 1 ≤ b.length ∧ ∀ x ∈ b, x.Inv
/-- No compact correlation matrix. -/
def reg (b : List CovIsotope) : Prop := ∀ x ∈ b, x.reg

theorem head_fits (b : List CovIsotope) : fits 11 (mf32mt151.head b).1 ∧ fits 11 (mf32mt151.head b).2.1 ∧ fits 11 (mf32mt151.head b).2.2.1 ∧ fits 11 (mf32mt151.head b).2.2.2 :=
  ⟨fits0, fits0, fits_asInt _, fits0⟩

theorem sum_add {α : Type} (f g : α → Nat) (l : List α) : (l.map (fun x => f x + g x)).sum = (l.map f).sum + (l.map g).sum := by
  induction l with
  | nil => rfl
  | cons a l ih => simp only [List.map_cons, List.sum_cons, ih]; omega

theorem round {b : List CovIsotope} {t : Nums} {awr : Dbl} (head : Division) (hv : mf32mt151.Valid b) (hr : Reps (mf32mt151.reals b)) (ht : t.Fit)
    (hh : head.base.n1 = asInt b.length) (s : Text) (n : Int) :
    mf32mt151.read head t ⟨mf32mt151.body awr b t ++ s, n⟩ = .ok (b, ⟨s, n + (mf32mt151.nc b + ranges b : Nat)⟩) := by
  obtain ⟨v1, v2, v3⟩ := hv
  have hn : toInt32 head.base.n1 = b.length := by rw [hh, asInt, toInt32_toInt32, toInt32_nat v1]
  have ha : asInt b.length = b.length := toInt32_nat v1
  have := Rd.seq (nc := fun r => CovIsotope.nc r + CovIsotope.extra r) (p := CovIsotope.read t) (pr := fun x => CovIsotope.print x t) (xs := b) hn
    (fun x hx => CovIsotope.rd (v3 x hx) (reps_flatMap.mp hr x hx) ht) s n
  show (do
    let b ← readSequence (CovIsotope.read t) head.base.n1
    if asInt b.length < 1 then Parser.fail .exc else pure b : Parser _) ⟨b.flatMap (fun x => CovIsotope.print x t) ++ s, n⟩ = _
  rw [Parser.bind_ok this, if_neg (by omega), sum_add]
  rfl

theorem reads (head : Division) (t : Nums) : ReadsW UbErr t (Std Inv reg ranges mf32mt151.nc) (mf32mt151.read head t) := by
  refine ReadsW.bind (ReadsW.seq (.inl rfl) (CovIsotope.reads t) _) ?_
  rintro b R e N ⟨d1, d2, d3, d4⟩
  refine ReadsW.ite (fun _ => ReadsW.fail (.inl rfl)) fun hn => ReadsW.pure ⟨⟨lt_of_count d1.1, ?_, d1.2⟩, ?_, ?_, ?_⟩
  · have : asInt b.length = b.length := toInt32_nat (lt_of_count d1.1)
    omega
  · simp [d2, reg]
  · simp only [d3]; rfl
  · intro h; rw [d4 h.1]; rfl

theorem valid {b : List CovIsotope} (h : Inv b) (hr : reg b) : mf32mt151.Valid b := ⟨h.1, h.2.1, fun x hx => CovIsotope.valid (h.2.2 x hx) (hr x hx)⟩
theorem weak {b : List CovIsotope} (h : mf32mt151.Valid b) : Inv b := ⟨h.1, h.2.1, fun x hx => CovIsotope.weak (h.2.2 x hx)⟩

theorem canon {b : List CovIsotope} {t : Nums} (awr : Dbl) (hv : mf32mt151.Valid b) (ht : t.Fit) : CanonicalText t (mf32mt151.nc b) (mf32mt151.body awr b t) :=
  CanonicalText.flatMap (nc := CovIsotope.nc) (pr := fun y => CovIsotope.print y t) (fun y hy => CovIsotope.canon (hv.2.2 y hy) ht)

theorem mt_eq {x : Sect (List CovIsotope)} (hv : mf32mt151.WellFormed x) : x.mt = 151 := hv.2.2.2.1

theorem readDivision_head {x : Sect (List CovIsotope)} (hv : mf32mt151.WellFormed x) (hr : Reps (mf32mt151.realsSect x))
    {mat : Int} (h1 : 1 ≤ mat) (h2 : fits 4 mat) (s : Text) (n : Int) :
    readDivision ⟨printCont (mf32mt151.headCont x) ⟨mat, 32, x.mt⟩ ++ s, n⟩ = .ok (mf32mt151.headDiv x mat, ⟨s, n + 1⟩) := by
  have hm := mt_eq hv
  have hh : (mf32mt151.headDiv x mat).isHead = true := by
    have e3 : mat ≠ 0 := by omega
    simp [Division.isHead, SecDef.headDiv, hm, e3, mf32mt151]
  have e : printCont (mf32mt151.headCont x) ⟨mat, 32, x.mt⟩ = (mf32mt151.headDiv x mat).print := by
    rw [Division.print, if_pos hh]; rfl
  rw [e]
  refine readDivision_print (fun _ => ?_) (fun h => by simp [hh] at h) ⟨h2, by show fits 2 32; decide, hv.2.2.2.2.1⟩
    (by show -1 ≤ mat; omega) (by show 0 ≤ (32 : Int); omega) (by show 0 ≤ x.mt; omega) s n
  exact Cont.ok_iff.mpr ⟨head_fits x.data, hr _ (by simp [SecDef.realsSect, SecDef.headDiv, SecDef.headCont]), hr _ (by simp [SecDef.realsSect, SecDef.headDiv, SecDef.headCont])⟩

theorem print_eq (x : Sect (List CovIsotope)) {mat : Int} (h1 : 1 ≤ mat) (h2 : fits 4 mat) :
    mf32mt151.print x mat 32 = .ok (mf32mt151.lines x mat 32 ++ unlines [endRecord ⟨mat, 32, 0⟩]) := by
  rw [SecDef.print, SEND, if_neg (by omega), if_neg (by omega)]
  simp only
  rw [printEnd_eq (t := ⟨mat, 32, 0⟩) ⟨h2, by show fits 2 32; decide, fits_zero 2⟩ (by simp [Division.isHead])]

theorem sect_readSect {x : Sect (List CovIsotope)} (hv : mf32mt151.WellFormed x) (hr : Reps (mf32mt151.realsSect x))
    {mat : Int} (h1 : 1 ≤ mat) (h2 : fits 4 mat) (s : Text) (n : Int) :
    mf32mt151.readSect (mf32mt151.headDiv x mat) mat ⟨mf32mt151.body x.awr x.data ⟨mat, 32, x.mt⟩ ++ unlines [endRecord ⟨mat, 32, 0⟩] ++ s, n⟩
      = .ok (x, ⟨s, n + (mf32mt151.NC x + ranges x.data : Nat)⟩) := by
  have hm := mt_eq hv
  have hm' : mf32mt151.mtOf (mf32mt151.headDiv x mat) = x.mt := by simp [hm, SecDef.mtOf, mf32mt151]
  have hn : mf32mt151.recNums (mf32mt151.headDiv x mat) mat = ⟨mat, 32, x.mt⟩ := by simp [SecDef.recNums, hm']; simp [mf32mt151]
  have hz : headZA (mf32mt151.headDiv x mat) = x.za := by
    simp only [headZA, SecDef.headDiv, SecDef.headCont]
    rw [Disco.round_ofInt _ hv.2.1.1 hv.2.1.2, toInt32_id hv.2.1.1 hv.2.1.2]
  have hc : (if mf32mt151.checksHead then checkHead (mf32mt151.headDiv x mat) mat mf32mt151.mf (mf32mt151.mtCheck (mf32mt151.headDiv x mat))
      else checkBase (headZA (mf32mt151.headDiv x mat)) (mf32mt151.headDiv x mat).base.c2 (mf32mt151.mtCheck (mf32mt151.headDiv x mat))) = .ok () := by
    rw [if_neg (by simp [mf32mt151])]
    unfold checkBase
    rw [hz, if_neg (by have := hv.1; omega)]
    have : (mf32mt151.headDiv x mat).base.c2 = x.awr := rfl
    rw [this, hv.2.2.1]
    rfl
  unfold SecDef.readSect
  have hl : ∀ s : St, liftE (.ok ()) s = .ok ((), s) := fun s => rfl
  rw [Parser.mapErr_ok, hc, hn, hm', List.append_assoc, Parser.bind_ok (hl _), Parser.bind_ok (round (awr := x.awr) (mf32mt151.headDiv x mat) hv.2.2.2.2.2 (fun y hy => hr y (by simp [SecDef.realsSect, hy]))
    (t := ⟨mat, 32, x.mt⟩) ⟨h2, by show fits 2 32; decide, hv.2.2.2.2.1⟩ rfl _ n)]
  have hs := readSEND_print h1 h2 (mf := 32) (by omega) (by omega) s (n + (mf32mt151.nc x.data + ranges x.data : Nat))
  rw [show mf32mt151.mf = 32 from rfl, Parser.bind_ok hs, hz]
  have e : n + ((mf32mt151.nc x.data + ranges x.data : Nat) : Int) + 1 = n + ((mf32mt151.NC x + ranges x.data : Nat) : Int) := by
    simp only [SecDef.NC]; omega
  rw [e]
  simp only [Parser.pure_run, SecDef.headDiv, SecDef.headCont]

theorem sect_round {x : Sect (List CovIsotope)} (hv : mf32mt151.WellFormed x) (hr : Reps (mf32mt151.realsSect x))
    {mat : Int} (h1 : 1 ≤ mat) (h2 : fits 4 mat) : ∃ txt, mf32mt151.print x mat 32 = .ok txt ∧
      ∀ s n, mf32mt151.parse ⟨txt ++ s, n⟩ = .ok (x, ⟨s, n + (mf32mt151.NC x + 1 + ranges x.data : Nat)⟩) := by
  refine ⟨_, print_eq x h1 h2, fun s n => ?_⟩
  rw [SecDef.parse, SecDef.lines, List.append_assoc, List.append_assoc, Parser.bind_ok (readDivision_head hv hr h1 h2 _ n)]
  rw [← List.append_assoc]
  have := sect_readSect hv hr h1 h2 s (n + 1)
  rw [show (mf32mt151.headDiv x mat).tail.mat = mat from rfl, this]
  have e : n + 1 + ((mf32mt151.NC x + ranges x.data : Nat) : Int) = n + ((mf32mt151.NC x + 1 + ranges x.data : Nat) : Int) := by omega
  rw [e]

theorem sect_canon {x : Sect (List CovIsotope)} (hv : mf32mt151.WellFormed x) {mat : Int} (h1 : 1 ≤ mat) (h2 : fits 4 mat) :
    ∃ ls, mf32mt151.print x mat 32 = .ok (unlines (ls ++ [endRecord ⟨mat, 32, 0⟩])) ∧ ls.length = mf32mt151.NC x ∧
      ∀ l ∈ ls, CanonicalLine ⟨mat, 32, x.mt⟩ l := by
  have ht : Nums.Fit ⟨mat, 32, x.mt⟩ := ⟨h2, by show fits 2 32; decide, hv.2.2.2.2.1⟩
  obtain ⟨ls, e1, e2, e3⟩ := (Cont.Fits.canonical (c := mf32mt151.headCont x) (head_fits x.data) ht).append (canon x.awr hv.2.2.2.2.2 ht)
  refine ⟨ls, ?_, ?_, e3⟩
  · rw [print_eq x h1 h2, SecDef.lines, e1]; simp
  · rw [e2, SecDef.NC]; omega

/-- What holds for a section that was read. -/
def SectInv (x : Sect (List CovIsotope)) : Prop :=
  1 ≤ x.za ∧ IsInt32 x.za ∧ Disco.ltD x.awr Disco.zero = false ∧ x.mt = 151 ∧ Inv x.data

theorem wellFormed_of {x : Sect (List CovIsotope)} (h : SectInv x) (hr : reg x.data) : mf32mt151.WellFormed x :=
  ⟨h.1, h.2.1, h.2.2.1, h.2.2.2.1, by rw [h.2.2.2.1]; decide, valid h.2.2.2.2 hr⟩

/-- Reading a section after its HEAD line, on any text.  Without a compact matrix, or if the lines have at least 66 columns: `n` lines with the numbers
    of the section, and its SEND line; the counter is advanced by that, and once more for every resonance range. -/
theorem readSect_reads (d : Division) (mat : Int) (s : St) : match mf32mt151.readSect d mat s with
    | .ok (x, s') => SectInv x ∧ x.za = headZA d ∧ x.awr = d.base.c2 ∧
        (reg x.data ∨ FullLines ⟨mat, 32, 151⟩ s.rest → ∃ mid e, Lines (mid ++ [e]) s.rest s'.rest ∧
          s'.line = s.line + (mid.length + 1 + ranges x.data : Nat) ∧ AllTail ⟨mat, 32, 151⟩ mid ∧ SendLine mat 32 e ∧
          (reg x.data → mid.length = mf32mt151.nc x.data))
    | .error e => UbErr e := by
  cases h2 : mf32mt151.readSect d mat s with
  | error e =>
    simp only
    obtain ⟨e', h3, rfl⟩ := Parser.mapErr_error.mp h2
    refine ErrOk.again _ ?_
    rcases Parser.bind_eq_error.mp h3 with h | ⟨_, s2, h4, h5⟩
    · rw [if_neg (by simp [mf32mt151])] at h
      have he : e' = .exc := by
        unfold liftE at h
        unfold checkBase at h
        grind
      exact .inl (by rw [he]; rfl)
    · rcases Parser.bind_eq_error.mp h5 with h | ⟨b, s3, h6, h7⟩
      · exact (reads _ _).err h
      · rcases Parser.bind_eq_error.mp h7 with h | ⟨_, s4, h8, h9⟩
        · exact .inl ((readSEND_reads _ _).err h)
        · cases h9
  | ok r =>
    obtain ⟨x, s'⟩ := r
    simp only
    have h3 := Parser.mapErr_ok.mp h2
    obtain ⟨_, s2, h4, h5⟩ := Parser.bind_eq_ok.mp h3
    obtain ⟨b, s3, h6, h7⟩ := Parser.bind_eq_ok.mp h5
    obtain ⟨_, s4, h8, h9⟩ := Parser.bind_eq_ok.mp h7
    cases h9
    rw [if_neg (by simp [mf32mt151])] at h4
    have hc : checkBase (headZA d) d.base.c2 (mf32mt151.mtCheck d) = .ok () ∧ s2 = s := by
      unfold liftE at h4
      split at h4
      · rename_i a ha
        cases h4; exact ⟨ha, rfl⟩
      · cases h4
    obtain ⟨hc, rfl⟩ := hc
    obtain ⟨R, x, N, ⟨r1, r2, r3, r4⟩, r5⟩ := (reads d _).ok h6
    obtain ⟨es, k1, k2, e, rfl, k3⟩ := (readSEND_reads _ _).ok h8
    have hw : SectInv ⟨headZA d, d.base.c2, 151, b⟩ := by
      unfold checkBase at hc
      split at hc
      · cases hc
      split at hc
      · cases hc
      rename_i c1 c2
      exact ⟨by simp only; omega, isInt32_toInt32 _, by simpa using c2, rfl, r1⟩
    refine ⟨hw, rfl, rfl, fun hf => ?_⟩
    obtain ⟨n, ⟨mid, m1, m2, m3, m4⟩, m5⟩ := r5 (hf.imp r2.mpr id)
    refine ⟨mid, e, m1.trans k1, ?_, m3, k3, fun hr => ?_⟩
    · rw [k2, m2, r3]; simp; omega
    · rw [m4, m5 (r2.mpr hr), r4 (r2.mpr hr)]

/-- The SEND line that ends the section has a valid MAT. -/
theorem readSect_mat {d : Division} {mat : Int} {s s' : St} {x : Sect (List CovIsotope)} (h : mf32mt151.readSect d mat s = .ok (x, s')) : 1 ≤ mat := by
  have h3 := Parser.mapErr_ok.mp h
  obtain ⟨_, s2, h4, h5⟩ := Parser.bind_eq_ok.mp h3
  obtain ⟨b, s3, h6, h7⟩ := Parser.bind_eq_ok.mp h5
  obtain ⟨_, s4, h8, h9⟩ := Parser.bind_eq_ok.mp h7
  obtain ⟨es, k1, k2, e, rfl, k3⟩ := (readSEND_reads _ _).ok h8
  obtain ⟨c, _, _, _, hpos, _⟩ := k3
  omega

/-- All lines have at least 66 columns. -/
def AllFull (s : Text) : Prop := ∀ ls r, Lines ls s r → ∀ l ∈ ls, 66 ≤ l.length

theorem AllFull.rest {s r : Text} {ls : List Text} (h : AllFull s) (hl : Lines ls s r) (t : Nums) : FullLines t r := by
  intro ms l q hm _
  exact h (ls ++ (ms ++ [l])) q (hl.trans hm) l (by simp)

/-- Reading a section on any text. -/
theorem parse_reads (s : St) : match mf32mt151.parse s with
    | .ok (x, s') => SectInv x ∧ (reg x.data ∨ AllFull s.rest → ∃ hl mid e hd mat mf mt, Lines (hl :: mid ++ [e]) s.rest s'.rest ∧
        s'.line = s.line + (mid.length + 2 + ranges x.data : Nat) ∧ ShowsCont hd hl ∧ HasTail ⟨mat, mf, mt⟩ hl ∧ x.za = toInt32 (Disco.round hd.c1) ∧ x.awr = hd.c2 ∧
        AllTail ⟨mat, 32, 151⟩ mid ∧ SendLine mat 32 e ∧ (reg x.data → mid.length = mf32mt151.nc x.data))
    | .error e => UbErr e := by
  cases h : mf32mt151.parse s with
  | error e =>
    simp only
    rcases Parser.bind_eq_error.mp h with h | ⟨d, s1, h1, h2⟩
    · exact .inl (readDivision_reads.err h)
    · have := readSect_reads d d.tail.mat s1
      rw [h2] at this
      exact this
  | ok r =>
    obtain ⟨x, s'⟩ := r
    simp only
    obtain ⟨d, s1, h1, h2⟩ := Parser.bind_eq_ok.mp h
    obtain ⟨ls, hl1, hl2, l, rfl, g1, g2, g3, g4, g5⟩ := readDivision_reads.ok h1
    have h3 := readSect_reads d d.tail.mat s1
    rw [h2] at h3
    obtain ⟨hw, z1, z2, hall⟩ := h3
    refine ⟨hw, fun hf => ?_⟩
    obtain ⟨mid, e, m1, m2, m3, m4, m5⟩ := hall (hf.imp id (fun hf => AllFull.rest hf hl1 _))
    refine ⟨l, mid, e, d.base, d.tail.mat, d.tail.mf, d.tail.mt, ?_, ?_, g1, g2, z1, z2, m3, m4, m5⟩
    · have := hl1.trans m1
      simpa using this
    · rw [m2, hl2]; simp; omega

end ResCov

end ENDFtk

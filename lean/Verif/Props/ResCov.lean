import Verif.Section.MF32Spec
/-
  Properties C53 to C56: the covariances of resonance parameters (section 32/151).
-/
set_option linter.unusedVariables false
set_option linter.unusedSectionVars false
set_option linter.unusedSimpArgs false
namespace ENDFtk.Props
variable [Disco] [CorrOps]

/-! ### specification -/

/-- The number of resonance ranges of the section. -/
def rangeCount (x : Sect (List CovIsotope)) : Nat := (x.data.map (fun i => i.ranges.length)).sum

/-- Every line of the text has at least 66 columns. -/
def AllLinesFull (s : Text) : Prop := ∀ ls r, Lines ls s r → ∀ l ∈ ls, 66 ≤ l.length

/-- The invariants of a section that was read, in particular: the parameters are of the type announced, every LIST has the size its counts announce, and
    every matrix has NDIGIT between 2 and 6. -/
def ReadInv (x : Sect (List CovIsotope)) : Prop :=
  1 ≤ x.za ∧ IsInt32 x.za ∧ Disco.ltD x.awr Disco.zero = false ∧ x.mt = 151 ∧ (x.data.length : Int) < 2147483648 ∧ 1 ≤ x.data.length ∧
  ∀ i ∈ x.data, (i.ranges.length : Int) < 2147483648 ∧ ∀ r ∈ i.ranges,
    IsInt32 r.naps ∧ (∀ c, r.radius = some c → radiusCovC.Valid c) ∧ covOptionsOk r.radius.isSome r.naps r.parameters.type.lru r.parameters.type.lrf ∧
    r.parameters.type.Inv r.parameters.data

theorem readInv_iff {x : Sect (List CovIsotope)} : ReadInv x ↔ ResCov.SectInv x := by
  unfold ReadInv ResCov.SectInv ResCov.Inv CovIsotope.Inv CovRange.Inv CovRange.Base CovParams.Inv
  simp only [and_assoc]

theorem wellFormed {x : Sect (List CovIsotope)} (h : ReadInv x) (hm : ∀ m ∈ matrices x, Faithful m) : mf32mt151.WellFormed x :=
  ResCov.wellFormed_faithful (readInv_iff.mp h) hm

theorem reg_iff {x : Sect (List CovIsotope)} : ResCov.reg x.data ↔ matrices x = [] := by
  unfold ResCov.reg CovIsotope.reg CovRange.reg matrices
  simp only [List.flatMap_eq_nil_iff]
  have key : ∀ p : CovParams, p.type.compact = false ↔ (matrixOf p).toList = [] := by
    rintro ⟨k, d⟩
    cases k <;> simp [matrixOf, CovType.compact, CovType.lcomp]
  constructor
  · intro h i hi r hr; exact (key _).mp (h i hi r hr)
  · intro h i hi r hr; exact (key _).mpr (h i hi r hr)

/-- The number of values of a LIST record, its L1 and its N2, as `int`. -/
def sizeI (l : LIST) : Int := toInt32 l.data.length
def l1I (l : LIST) : Int := toInt32 l.l1
def n2I (l : LIST) : Int := toInt32 l.n2

/-- The sizes ENDF prescribes for the LIST records of each type of parameters. -/
def SizesOk : CovParams → Prop
  | ⟨.limitedSLBW, x⟩ | ⟨.limitedMLBW, x⟩ => x.2.2 ≠ [] ∧ ∀ l ∈ x.2.2, 1 ≤ n2I l ∧ sizeI l = 18 * n2I l
  | ⟨.generalSLBW, x⟩ | ⟨.generalMLBW, x⟩ | ⟨.generalRM, x⟩ => ∀ l ∈ x.2.2.2.1, 1 ≤ n2I l ∧ 1 ≤ l1I l ∧ l1I l ≤ 5 ∧
      2 * (sizeI l - 6 * n2I l) = (l1I l * n2I l) * (l1I l * n2I l + 1)
  | ⟨.generalRML, x⟩ => ∀ b ∈ x.2.2.2.1, (∀ l ∈ b.2.1, 1 ≤ sizeI l ∧ ∃ k, sizeI l = 6 * k) ∧ 1 ≤ n2I b.2.2 ∧ 2 * sizeI b.2.2 = n2I b.2.2 * (n2I b.2.2 + 1)
  | ⟨.compactSLBW, x⟩ | ⟨.compactMLBW, x⟩ | ⟨.compactRM, x⟩ => 1 ≤ n2I x.2.2.1 ∧ sizeI x.2.2.1 = 12 * n2I x.2.2.1
  | ⟨.compactRML, x⟩ => 1 ≤ l1I x.2.2.1.1 ∧ sizeI x.2.2.1.1 = 12 * l1I x.2.2.1.1 ∧ toInt32 x.2.2.1.1.l2 = x.2.2.1.2.length ∧ x.2.2.1.2 ≠ [] ∧
      ∀ g ∈ x.2.2.1.2, 1 ≤ n2I g.1 ∧ sizeI g.1 = 6 * n2I g.1 ∧ 1 ≤ sizeI g.2 ∧ ∃ k, sizeI g.2 = 12 * k
  | ⟨.unresolved, x⟩ => (∀ l ∈ x.2.1, sizeI l = 6 * n2I l) ∧ 1 ≤ n2I x.2.2 ∧ 2 * sizeI x.2.2 = n2I x.2.2 * (n2I x.2.2 + 1)

/-! ### C53: round trip -/

/-- A section that was read (or made from data that satisfy the same invariants) and whose matrices can be printed without loss is printed, and
    parsing that text gives the same section and consumes exactly the printed text.  The line counter is advanced by the number of lines
    (NC() and SEND) and once more for every resonance range: `readParameters` counts the line it looks ahead to. -/
theorem C53_round_trip {x : Sect (List CovIsotope)} (hv : ReadInv x) (hm : ∀ m ∈ matrices x, Faithful m) (hr : Reps (mf32mt151.realsSect x))
    {mat : Int} (h1 : 1 ≤ mat) (h2 : mat ≤ 9999) :
    ∃ txt, mf32mt151.print x mat 32 = .ok txt ∧
      ∀ r n, mf32mt151.parse ⟨txt ++ r, n⟩ = .ok (x, ⟨r, n + (mf32mt151.NC x + 1 + rangeCount x : Nat)⟩) :=
  ResCov.sect_round (wellFormed hv hm) hr h1 (by simp [fits]; omega)

/-- The same for a section that was parsed from any text. -/
theorem C53_parsed_round_trip_partial {s s' : St} {x : Sect (List CovIsotope)} (h : mf32mt151.parse s = .ok (x, s'))
    (hm : ∀ m ∈ matrices x, Faithful m) (hr : Reps (mf32mt151.realsSect x)) {mat : Int} (h1 : 1 ≤ mat) (h2 : mat ≤ 9999) :
    ∃ txt, mf32mt151.print x mat 32 = .ok txt ∧
      ∀ r n, mf32mt151.parse ⟨txt ++ r, n⟩ = .ok (x, ⟨r, n + (mf32mt151.NC x + 1 + rangeCount x : Nat)⟩) := by
  have hp := ResCov.parse_reads s
  rw [h] at hp
  exact C53_round_trip (readInv_iff.mpr hp.1) hm hr h1 h2

/-- Different sections print differently. -/
theorem C53_print_injective {x y : Sect (List CovIsotope)} (hx : ReadInv x) (hy : ReadInv y) (mx : ∀ m ∈ matrices x, Faithful m)
    (my : ∀ m ∈ matrices y, Faithful m) (rx : Reps (mf32mt151.realsSect x)) (ry : Reps (mf32mt151.realsSect y)) {mat : Int} (h1 : 1 ≤ mat) (h2 : mat ≤ 9999)
    (h : mf32mt151.print x mat 32 = mf32mt151.print y mat 32) : x = y := by
  obtain ⟨t1, e1, f1⟩ := C53_round_trip hx mx rx h1 h2
  obtain ⟨t2, e2, f2⟩ := C53_round_trip hy my ry h1 h2
  rw [e1, e2] at h
  cases h
  have := (f1 [] 0).symm.trans (f2 [] 0)
  cases this; rfl

/-! ### C54: printed lines -/

/-- A section with the invariants of its class whose matrices can be printed prints `NC()` lines of 80 columns with its numbers, and SEND. -/
theorem C54_printed_lines {x : Sect (List CovIsotope)} (hv : ReadInv x) (hm : ∀ m ∈ matrices x, Faithful m) {mat : Int} (h1 : 1 ≤ mat) (h2 : mat ≤ 9999) :
    ∃ ls, mf32mt151.print x mat 32 = .ok (unlines (ls ++ [endRecord ⟨mat, 32, 0⟩])) ∧ ls.length = mf32mt151.NC x ∧
      ∀ l ∈ ls, CanonicalLine ⟨mat, 32, 151⟩ l := by
  have := ResCov.sect_canon (wellFormed hv hm) h1 (show fits 4 mat by simp [fits]; omega)
  rw [show x.mt = 151 from hv.2.2.2.1] at this
  exact this

/-- Printing needs a positive MAT and MF. -/
theorem C54_print_throws (x : Sect (List CovIsotope)) {mat mf : Int} (h : mat < 1 ∨ mf < 1) : mf32mt151.print x mat mf = .error .exc := by
  unfold SecDef.print SEND
  rcases h with h | h
  · simp [h]
  · by_cases h' : mat < 1 <;> simp [h, h']

/-! ### C55: reading any text -/

/-- On every text, parsing gives a section with the invariants of its class, or throws `std::exception`, or has undefined behaviour. -/
theorem C55_total_partial (s : St) : match mf32mt151.parse s with
    | .ok (x, _) => ReadInv x
    | .error e => e.isStd = true ∨ e = .ub := by
  have := ResCov.parse_reads s
  cases h : mf32mt151.parse s with
  | ok r => rw [h] at this; exact readInv_iff.mpr this.1
  | error e => rw [h] at this; exact this

/-- If the section that is read has no compact matrix, it has consumed `NC()` lines and its own SEND; all lines between HEAD and SEND have MF 32, MT 151
    and the MAT of the HEAD line, whose fields are ZA and AWR. -/
theorem C55_own_send {s s' : St} {x : Sect (List CovIsotope)} (h : mf32mt151.parse s = .ok (x, s')) (hm : matrices x = []) :
    ∃ hl mid e hd mat mf mt, Lines (hl :: mid ++ [e]) s.rest s'.rest ∧ mid.length + 1 = mf32mt151.NC x ∧ ShowsCont hd hl ∧ HasTail ⟨mat, mf, mt⟩ hl ∧
      x.za = toInt32 (Disco.round hd.c1) ∧ x.awr = hd.c2 ∧ (∀ l ∈ mid, HasTail ⟨mat, 32, 151⟩ l) ∧ SendLine mat 32 e := by
  have hp := ResCov.parse_reads s
  rw [h] at hp
  obtain ⟨hl, mid, e, hd, mat, mf, mt, k1, k2, k3, k4, k5, k6, k7, k8, k9⟩ := hp.2 (.inl (reg_iff.mpr hm))
  exact ⟨hl, mid, e, hd, mat, mf, mt, k1, by rw [k9 (reg_iff.mpr hm)]; rfl, k3, k4, k5, k6, k7, k8⟩

/-- With compact matrices this holds if all lines have at least 66 columns. -/
theorem C55_own_send_full_lines {s s' : St} {x : Sect (List CovIsotope)} (h : mf32mt151.parse s = .ok (x, s')) (hf : AllLinesFull s.rest) :
    ∃ hl mid e hd mat mf mt, Lines (hl :: mid ++ [e]) s.rest s'.rest ∧ ShowsCont hd hl ∧ HasTail ⟨mat, mf, mt⟩ hl ∧
      x.za = toInt32 (Disco.round hd.c1) ∧ x.awr = hd.c2 ∧ (∀ l ∈ mid, HasTail ⟨mat, 32, 151⟩ l) ∧ SendLine mat 32 e := by
  have hp := ResCov.parse_reads s
  rw [h] at hp
  obtain ⟨hl, mid, e, hd, mat, mf, mt, k1, k2, k3, k4, k5, k6, k7, k8, k9⟩ := hp.2 (.inr hf)
  exact ⟨hl, mid, e, hd, mat, mf, mt, k1, k3, k4, k5, k6, k7, k8⟩

/-- The line counter is wrong as soon as there is a resonance range: it is advanced by the number of lines and once more for every range. -/
theorem C55_line_counter {s s' : St} {x : Sect (List CovIsotope)} (h : mf32mt151.parse s = .ok (x, s')) (hm : matrices x = [] ∨ AllLinesFull s.rest) :
    ∃ ls, Lines ls s.rest s'.rest ∧ s'.line = s.line + (ls.length + rangeCount x : Nat) := by
  have hp := ResCov.parse_reads s
  rw [h] at hp
  obtain ⟨hl, mid, e, hd, mat, mf, mt, k1, k2, _⟩ := hp.2 (hm.imp reg_iff.mpr id)
  exact ⟨_, k1, by rw [k2]; simp [rangeCount, ResCov.ranges]; omega⟩

/-- A HEAD with ZA < 1 or AWR < 0 is rejected; its MAT and MF are not looked at. -/
theorem C55_bad_head {head : Division} {mat : Int} (s : St) (h : headZA head < 1 ∨ Disco.ltD head.base.c2 Disco.zero = true) :
    mf32mt151.readSect head mat s = .error .exc := by
  have hb : checkBase (headZA head) head.base.c2 (mf32mt151.mtCheck head) = .error .exc := by
    unfold checkBase
    split
    · rfl
    · split
      · rfl
      · rcases h with h | h
        · omega
        · contradiction
  unfold SecDef.readSect
  rw [if_neg (by simp [mf32mt151]), hb]
  rfl

theorem tri_even (n : Int) : ∃ k, n * (n + 1) = 2 * k := by
  rcases (by omega : n % 2 = 0 ∨ n % 2 = 1) with h | h
  · exact ⟨n / 2 * (n + 1), by
      have e : n = 2 * (n / 2) := by omega
      conv => lhs; rw [e]
      conv => rhs; rw [show (2 : Int) * (n / 2 * (n + 1)) = 2 * (n / 2) * (n + 1) from (Int.mul_assoc _ _ _).symm, ← e]
      rw [← e]⟩
  · exact ⟨n * ((n + 1) / 2), by
      have e : n + 1 = 2 * ((n + 1) / 2) := by omega
      rw [show (2 : Int) * (n * ((n + 1) / 2)) = n * (2 * ((n + 1) / 2)) from by rw [← Int.mul_assoc, Int.mul_comm 2 n, Int.mul_assoc], ← e]⟩

theorem tdiv_tri {m n : Int} (h : m = Int.tdiv (n * (n + 1)) 2) : 2 * m = n * (n + 1) := by
  obtain ⟨k, hk⟩ := tri_even n
  rw [hk] at h ⊢
  rw [h, Int.mul_tdiv_cancel_left _ (by omega)]

theorem asInt_pos {α : Type} {l : List α} (h : 1 ≤ asInt l.length) : l ≠ [] := by
  rintro rfl
  have : asInt ([] : List α).length = 0 := toInt32_of (n := 0) (by decide)
  omega

theorem tmod_zero {n k : Int} (h : Int.tmod n k = 0) : ∃ m, n = k * m := ⟨Int.tdiv n k, by
  have := Int.tmod_add_mul_tdiv n k
  rw [h] at this; omega⟩

theorem sizesOk_of_inv {p : CovParams} (h : p.Inv) : SizesOk p := by
  obtain ⟨k, x⟩ := p
  cases k
  case limitedSLBW =>
    exact ⟨asInt_pos h.2.2.2, fun l hl => by have := (h.2.2.1.2.2 l hl).2; exact ⟨this.2.1, this.2.2⟩⟩
  case limitedMLBW =>
    exact ⟨asInt_pos h.2.2.2, fun l hl => by have := (h.2.2.1.2.2 l hl).2; exact ⟨this.2.1, this.2.2⟩⟩
  case generalSLBW =>
    intro l hl
    obtain ⟨h1, h2, h3, h4, _, h5⟩ := (h.2.2.2.2.2.1.2 l hl).2
    refine ⟨h4, h2, h3, ?_⟩
    have := tdiv_tri (m := sizeI l - 6 * n2I l) (n := l1I l * n2I l) (by show toInt32 l.npl - _ = _; rw [h5]; simp only [n2I, l1I]; omega)
    exact this
  case generalMLBW =>
    intro l hl
    obtain ⟨h1, h2, h3, h4, _, h5⟩ := (h.2.2.2.2.2.1.2 l hl).2
    refine ⟨h4, h2, h3, ?_⟩
    have := tdiv_tri (m := sizeI l - 6 * n2I l) (n := l1I l * n2I l) (by show toInt32 l.npl - _ = _; rw [h5]; simp only [n2I, l1I]; omega)
    exact this
  case generalRM =>
    intro l hl
    obtain ⟨h1, h2, h3, h4, _, h5⟩ := (h.2.2.2.2.2.1.2 l hl).2
    refine ⟨h4, h2, h3, ?_⟩
    have := tdiv_tri (m := sizeI l - 6 * n2I l) (n := l1I l * n2I l) (by show toInt32 l.npl - _ = _; rw [h5]; simp only [n2I, l1I]; omega)
    exact this
  case generalRML =>
    intro b hb
    obtain ⟨_, _, h1, h2⟩ := h.2.2.2.2.2.1.2 b hb
    exact ⟨fun l hl => ⟨(h1.2 l hl).2.1, tmod_zero (h1.2 l hl).2.2⟩, h2.2.2.1, tdiv_tri h2.2.2.2.2⟩
  case compactSLBW => have := h.2.2.2.1.2; exact ⟨this.2.1, this.2.2⟩
  case compactMLBW => have := h.2.2.2.1.2; exact ⟨this.2.1, this.2.2⟩
  case compactRM => have := h.2.2.2.1.2; exact ⟨this.2.1, this.2.2⟩
  case compactRML =>
    obtain ⟨⟨h1, h2⟩, h3⟩ := h.2.2.2.1
    refine ⟨h1.2.2.1, h1.2.2.2, ?_, asInt_pos h3, fun g hg => ?_⟩
    · have := h2.1; exact (toInt32_toInt32 _).symm.trans this
    · obtain ⟨g1, g2⟩ := h2.2 g hg
      exact ⟨g1.2.2.1, g1.2.2.2, g2.2.1, tmod_zero g2.2.2⟩
  case unresolved =>
    obtain ⟨_, _, h1, h2⟩ := h
    exact ⟨fun l hl => (h1.2 l hl).2, h2.2.2.1, tdiv_tri h2.2.2.2.2⟩

/-- The LIST records of every section that is read have the sizes ENDF prescribes. -/
theorem C55_sizes {s s' : St} {x : Sect (List CovIsotope)} (h : mf32mt151.parse s = .ok (x, s')) :
    ∀ i ∈ x.data, ∀ r ∈ i.ranges, SizesOk r.parameters := by
  have hp := ResCov.parse_reads s
  rw [h] at hp
  exact fun i hi r hr => sizesOk_of_inv ((hp.1.2.2.2.2.2.2 i hi).2 r hr).2

/-! ### C56: the compact correlation matrix -/

/-- A matrix with coordinates and values that fit, and increasing columns in each row, is printed and read back: what remains are the elements that are
    not rounded to 0, with their correlations rounded to NDIGIT digits. -/
theorem C56_matrix_round_trip {m : CorrMatrix} (h : Faithful m) (hz : Rep (Disco.zero : Dbl)) {t : Nums} (ht : t.Fit) (s : Text) (n : Int) :
    CorrMatrix.read t ⟨m.print t ++ s, n⟩ =
      .ok (⟨m.ndigit, m.nnn, (m.elems.filter (fun e => corrTo m.ndigit e.2.2 != 0)).map
        (fun e => (e.1, e.2.1, corrOf m.ndigit (corrTo m.ndigit e.2.2)))⟩, ⟨s, n + m.nc⟩) :=
  CorrMatrix.rd h.1 h.2 hz ht s n

/-- A matrix whose correlations all stand for integers (as is the case for one that was read) is read back unchanged. -/
theorem C56_exact_round_trip {m : CorrMatrix} (h : Faithful m) (he : m.Exact) (hz : Rep (Disco.zero : Dbl)) {t : Nums} (ht : t.Fit) (s : Text) (n : Int) :
    CorrMatrix.read t ⟨m.print t ++ s, n⟩ = .ok (m, ⟨s, n + m.nc⟩) := by
  have := CorrMatrix.rd h.1 h.2 hz ht s n
  rw [CorrMatrix.remaining_exact h.1.range.1 h.1.range.2 he] at this
  exact this

/-- Whatever is read is exact, has NDIGIT between 2 and 6 and coordinates of type `unsigned int`. -/
theorem C56_read_exact {t : Nums} {s s' : St} {m : CorrMatrix} (h : CorrMatrix.read t s = .ok (m, s')) :
    2 ≤ m.ndigit ∧ m.ndigit ≤ 6 ∧ (∀ e ∈ m.elems, 0 ≤ e.1 ∧ e.1 < 4294967296 ∧ 0 ≤ e.2.1 ∧ e.2.1 < 4294967296) ∧
      ∀ e ∈ m.elems, ∃ v, v ≠ 0 ∧ fits (m.ndigit + 1) v ∧ e.2.2 = corrOf m.ndigit v := by
  obtain ⟨R, e, N, ⟨⟨a1, a2, a3, a4, a5⟩, _⟩, _⟩ := (CorrMatrix.readsW t).ok h
  exact ⟨a1, a2, a4, a5⟩

/-- The constructor from data: three vectors of the same size, 2 <= NDIGIT <= 6; element `k` of the matrix is made of element `k` of the three. -/
theorem C56_make {order : Int} {i j : List Int} {c : List Dbl} {nd : Nat} :
    (i.length = j.length ∧ i.length = c.length ∧ 2 ≤ nd ∧ nd ≤ 6 ∧ ∃ m, CorrMatrix.make order i j c nd = .ok m ∧ m.ndigit = nd ∧ m.nnn = order ∧
      m.elems.map (·.1) = i ∧ m.elems.map (·.2.1) = j ∧ m.elems.map (·.2.2) = c) ∨
    (¬(i.length = j.length ∧ i.length = c.length ∧ 2 ≤ nd ∧ nd ≤ 6) ∧ CorrMatrix.make order i j c nd = .error .exc) := by
  unfold CorrMatrix.make
  by_cases h1 : i.length = j.length ∧ i.length = c.length
  · by_cases h2 : nd < 2 ∨ 6 < nd
    · exact .inr ⟨by omega, by rw [if_neg (by simpa using h1), if_pos h2]⟩
    · refine .inl ⟨h1.1, h1.2, by omega, by omega, _, by rw [if_neg (by simpa using h1), if_neg h2], rfl, rfl, ?_, ?_, ?_⟩
      · exact List.map_fst_zip (by simp; omega)
      · have : (fun e : Int × Int × Dbl => e.2.1) = (fun e : Int × Dbl => e.1) ∘ Prod.snd := rfl
        simp only
        rw [this, ← List.map_map, List.map_snd_zip (by simp; omega)]
        exact List.map_fst_zip (by omega)
      · have : (fun e : Int × Int × Dbl => e.2.2) = (fun e : Int × Dbl => e.2) ∘ Prod.snd := rfl
        simp only
        rw [this, ← List.map_map, List.map_snd_zip (by simp; omega)]
        exact List.map_snd_zip (by omega)
  · exact .inr ⟨by omega, by rw [if_pos h1]⟩

/-- Every printed line of a matrix that fits has 80 columns; there are `NC()` of them. -/
theorem C56_matrix_lines {m : CorrMatrix} (h : m.Printable) {t : Nums} (ht : t.Fit) :
    ∃ ls, m.print t = unlines ls ∧ ls.length = m.nc ∧ ∀ l ∈ ls, CanonicalLine t l := CorrMatrix.canon h ht

end ENDFtk.Props

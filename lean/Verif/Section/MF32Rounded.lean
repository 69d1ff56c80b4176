import Verif.Section.MF32Spec
/-
  Section 32/151 with compact correlation matrices that were made from data: the correlations are rounded to NDIGIT digits when they are printed, and
  elements that are rounded to 0 are dropped.
-/
set_option linter.unusedVariables false
set_option linter.unusedSectionVars false
set_option linter.unusedSimpArgs false
namespace ENDFtk
variable [Disco] [CorrOps]

/-! ### specification -/

/-- What remains of a matrix: the elements that are not rounded to 0, with their correlations rounded to NDIGIT digits. -/
def CorrMatrix.rounded (m : CorrMatrix) : CorrMatrix :=
  ⟨m.ndigit, m.nnn, (m.elems.filter (fun e => corrTo m.ndigit e.2.2 != 0)).map (fun e => (e.1, e.2.1, corrOf m.ndigit (corrTo m.ndigit e.2.2)))⟩

/-- The same parameters with the matrix rounded. -/
def CovType.rounded : (k : CovType) → k.Data → k.Data
  | .compactSLBW, x => (x.1, x.2.1, x.2.2.1, x.2.2.2.rounded)
  | .compactMLBW, x => (x.1, x.2.1, x.2.2.1, x.2.2.2.rounded)
  | .compactRM, x => (x.1, x.2.1, x.2.2.1, x.2.2.2.rounded)
  | .compactRML, x => (x.1, x.2.1, x.2.2.1, x.2.2.2.rounded)
  | .limitedSLBW, x => x
  | .limitedMLBW, x => x
  | .generalSLBW, x => x
  | .generalMLBW, x => x
  | .generalRM, x => x
  | .generalRML, x => x
  | .unresolved, x => x

def CovParams.rounded (p : CovParams) : CovParams := ⟨p.type, p.type.rounded p.data⟩
def CovRange.rounded (r : CovRange) : CovRange := { r with parameters := r.parameters.rounded }
def CovIsotope.rounded (i : CovIsotope) : CovIsotope := { i with ranges := i.ranges.map CovRange.rounded }

/-- The same section with all its matrices rounded. -/
def roundedSect (x : Sect (List CovIsotope)) : Sect (List CovIsotope) := { x with data := x.data.map CovIsotope.rounded }

/-- The compact representation is as the constructors make it; its matrix can be printed. -/
def compactSound {δ α : Type} (dap : Comp δ) (unc : Comp α) (y : (Dbl × Dbl × Int × Int) × Option δ × α × CorrMatrix) : Prop :=
  fits 11 y.1.2.2.1 ∧ fits 11 y.1.2.2.2 ∧ (∀ d, y.2.1 = some d → dap.Valid d) ∧ unc.Valid y.2.2.1 ∧ Faithful y.2.2.2

namespace CovType

/-- As `CovType.Inv`; nothing is said about the correlations but that they can be printed. -/
def Sound : (k : CovType) → k.Data → Prop
  | limitedSLBW => limitedC.Valid
  | limitedMLBW => limitedC.Valid
  | generalSLBW => (generalC dapC shortRangeC).Valid
  | generalMLBW => (generalC dapC shortRangeC).Valid
  | generalRM => (generalC dapListC shortRangeC).Valid
  | generalRML => (generalC dapNoneC shortRangeRmlC).Valid
  | compactSLBW => compactSound dapC compactUncertaintiesC
  | compactMLBW => compactSound dapC compactUncertaintiesC
  | compactRM => compactSound dapListC compactUncertaintiesC
  | compactRML => compactSound dapNoneC compactRmlC
  | unresolved => unresolvedC.Valid

end CovType

/-! ### proofs -/

theorem optC_isSome {α : Type} {c : Comp α} {v : Option α} (h : ∀ d, v = some d → c.Valid d) : (optC (ofBool v.isSome ≠ 0) c).Valid v := by
  cases v with
  | none => simp [optC, ofBool]
  | some x => exact ⟨by simp [ofBool], h x rfl⟩

theorem Rd.seqMap {α : Type} {p : Parser α} {pr : α → Text} {nc : α → Nat} {f : α → α} {xs : List α} {n : Int} (hn : toInt32 n = xs.length)
    (h : ∀ x ∈ xs, Rd p (pr x) (f x) (nc x)) : Rd (readSequence p n) (xs.flatMap pr) (xs.map f) (xs.map nc).sum := by
  intro s m
  rw [readSequence, hn, if_neg (by omega), Int.toNat_natCast]
  clear hn
  induction xs generalizing m with
  | nil => simp [readMany]
  | cons x xs ih =>
    simp only [List.mem_cons, forall_eq_or_imp] at h
    simp only [List.length_cons, readMany, List.flatMap_cons, List.append_assoc]
    rw [Parser.bind_ok (h.1 _ m), Parser.bind_ok (ih h.2 _)]
    simp only [Parser.pure_run, Except.ok.injEq, Prod.mk.injEq, St.mk.injEq, true_and, List.map_cons, List.sum_cons]
    push_cast; omega

theorem compact_rd {δ α : Type} {dap : Comp δ} {unc : Comp α} (hd : dap.Law UbErr) (hu : unc.Law UbErr)
    {y : (Dbl × Dbl × Int × Int) × Option δ × α × CorrMatrix} {t : Nums} (hv : compactSound dap unc y) (hr : Reps ((compactC dap unc).reals y)) (ht : t.Fit) :
    Rd ((compactC dap unc).read t) ((compactC dap unc).print y t) (y.1, y.2.1, y.2.2.1, y.2.2.2.rounded) ((compactC dap unc).nc y) := by
  obtain ⟨h, o, u, m⟩ := y
  obtain ⟨f1, f2, f3, f4, f5, f6⟩ := hv
  have hr := hr
  unfold compactC hdrC Comp.andThen at hr
  simp only at hr
  rw [reps_append, reps_append, reps_append] at hr
  obtain ⟨r1, r2, r3, r4⟩ := hr
  refine Rd.bind (contC_law.rd (a := ⟨h.1, h.2.1, h.2.2.1, 2, h.2.2.2, ofBool o.isSome⟩) ⟨f1, by show fits 11 2; decide, f2, fits_ofBool _⟩ r1 ht)
    (Rd.bindPure (a := (o, u, m.rounded)) (Rd.bind ((optC_law hd).rd (a := o) (optC_isSome f3) r2 ht) (Rd.bindPure (a := (u, m.rounded)) (Rd.bind (hu.rd f4 r3 ht)
      (Rd.bindPure (a := m.rounded) (CorrMatrix.rd f5 f6 (r4 _ (by simp [corrC])) ht) ?_)) ?_)) ?_)
  all_goals rfl

theorem compact_canon {δ α : Type} {dap : Comp δ} {unc : Comp α} (hd : dap.Law UbErr) (hu : unc.Law UbErr)
    {y : (Dbl × Dbl × Int × Int) × Option δ × α × CorrMatrix} {t : Nums} (hv : compactSound dap unc y) (ht : t.Fit) :
    CanonicalText t ((compactC dap unc).nc y) ((compactC dap unc).print y t) := by
  obtain ⟨h, o, u, m⟩ := y
  obtain ⟨f1, f2, f3, f4, f5, f6⟩ := hv
  exact (contC_law.canon (a := ⟨h.1, h.2.1, h.2.2.1, 2, h.2.2.2, ofBool o.isSome⟩) ⟨f1, by show fits 11 2; decide, f2, fits_ofBool _⟩ ht).append
    (((optC_law hd).canon (a := o) (optC_isSome f3) ht).append ((hu.canon f4 ht).append (CorrMatrix.canon f5 ht)))

namespace CovType

theorem rdRounded (k : CovType) {x : k.Data} {t : Nums} (hv : k.Sound x) (hr : Reps (k.comp.reals x)) (ht : t.Fit) :
    Rd (k.comp.read t) (k.comp.print x t) (k.rounded x) (k.comp.nc x) := by
  cases k
  case compactSLBW => exact compact_rd dapC_law.weaken compactUncertaintiesC_law.weaken hv hr ht
  case compactMLBW => exact compact_rd dapC_law.weaken compactUncertaintiesC_law.weaken hv hr ht
  case compactRM => exact compact_rd dapListC_law.weaken compactUncertaintiesC_law.weaken hv hr ht
  case compactRML => exact compact_rd dapNoneC_law.weaken compactRmlC_law.weaken hv hr ht
  all_goals exact (CovType.law _).round (a := x) hv hr ht

theorem canonSound (k : CovType) {x : k.Data} {t : Nums} (hv : k.Sound x) (ht : t.Fit) : CanonicalText t (k.comp.nc x) (k.comp.print x t) := by
  cases k
  case compactSLBW => exact compact_canon dapC_law.weaken compactUncertaintiesC_law.weaken hv ht
  case compactMLBW => exact compact_canon dapC_law.weaken compactUncertaintiesC_law.weaken hv ht
  case compactRM => exact compact_canon dapListC_law.weaken compactUncertaintiesC_law.weaken hv ht
  case compactRML => exact compact_canon dapNoneC_law.weaken compactRmlC_law.weaken hv ht
  all_goals exact (CovType.law _).canon (a := x) hv ht

theorem firstSound (k : CovType) {x : k.Data} (hv : k.Sound x) (hr : Reps (k.comp.reals x)) (t : Nums) :
    ∃ c rest, k.comp.print x t = printCont c t ++ rest ∧ c.Fits ∧ Reps [c.c1, c.c2] ∧ c.l2 = k.lcomp := by
  have key : ∀ {δ α : Type} {dap : Comp δ} {unc : Comp α} {y : (Dbl × Dbl × Int × Int) × Option δ × α × CorrMatrix}, compactSound dap unc y →
      (⟨y.1.1, y.1.2.1, y.1.2.2.1, 2, y.1.2.2.2, ofBool y.2.1.isSome⟩ : Cont).Fits :=
    fun h => ⟨h.1, by show fits 11 2; decide, h.2.1, fits_ofBool _⟩
  cases k
  case compactSLBW => exact ⟨_, _, rfl, key hv, (reps_append.mp hr).1, rfl⟩
  case compactMLBW => exact ⟨_, _, rfl, key hv, (reps_append.mp hr).1, rfl⟩
  case compactRM => exact ⟨_, _, rfl, key hv, (reps_append.mp hr).1, rfl⟩
  case compactRML => exact ⟨_, _, rfl, key hv, (reps_append.mp hr).1, rfl⟩
  all_goals exact ⟨_, _, rfl, hv.1, (reps_append.mp hr).1, rfl⟩

end CovType

namespace CovParams

def Sound (p : CovParams) : Prop := p.type.Sound p.data

theorem rdRounded {p : CovParams} {t : Nums} (hv : p.Sound) (hr : Reps p.reals) (ht : t.Fit) :
    Rd (read p.type.lru p.type.lrf t) (p.print t) p.rounded (p.nc + 1) := by
  intro s n
  obtain ⟨k, x⟩ := p
  obtain ⟨c, rest, e1, e2, e3, e4⟩ := k.firstSound hv hr t
  have hl : toInt32 c.l2 = k.lcomp := by rw [e4]; exact toInt32_of (by cases k <;> decide)
  have hc : readCont t ⟨k.comp.print x t ++ s, n⟩ = .ok (c, ⟨rest ++ s, n + 1⟩) := by
    rw [e1, List.append_assoc]
    exact contC_law.rd (a := c) e2 e3 ht (rest ++ s) n
  have hk : CovType.ofFlags k.lru k.lrf (toInt32 c.l2) = some k := by
    rw [hl]
    by_cases hu : k = .unresolved
    · subst hu; exact CovType.ofFlags_unresolved _
    · exact k.ofFlags_self hu
  show read k.lru k.lrf t ⟨k.comp.print x t ++ s, n⟩ = _
  unfold read
  rw [hc]
  simp only [hk]
  have := k.rdRounded hv hr ht s (n + 1)
  rw [Parser.bind_ok this]
  simp only [Parser.pure_run]
  congr 3
  simp only [CovParams.nc]; omega

end CovParams

namespace CovRange

def Sound (r : CovRange) : Prop := r.Base ∧ r.parameters.Sound

theorem rdRounded {r : CovRange} {t : Nums} (hv : r.Sound) (hr : Reps r.reals) (ht : t.Fit) : Rd (read t) (r.print t) r.rounded (r.nc + 1) := by
  obtain ⟨hb, hp⟩ := hv
  obtain ⟨b1, b2, b3⟩ := hb
  have hr := hr
  unfold reals at hr
  rw [reps_append, reps_append] at hr
  have hn : toInt32 r.cont.n1 = ofBool r.radius.isSome := by
    show toInt32 (ofBool r.radius.isSome) = _
    cases r.radius.isSome <;> exact toInt32_of (by decide)
  have hu : toInt32 r.cont.l1 = r.parameters.type.lru := by
    show toInt32 r.parameters.type.lru = _
    exact toInt32_of (by cases r.parameters.type <;> decide)
  have hf : toInt32 r.cont.l2 = r.parameters.type.lrf := by
    show toInt32 r.parameters.type.lrf = _
    exact toInt32_of (by cases r.parameters.type <;> decide)
  have hs : toInt32 r.cont.n2 = r.naps := toInt32_of b1
  refine Rd.cast (Rd.bind (contC_law.rd (a := r.cont) (fits ⟨b1, b2, b3⟩) hr.1 ht) (t2 := radiusPrint t r.radius ++ r.parameters.print t)
    (k2 := radiusNC r.radius + (r.parameters.nc + 1)) ?_) rfl (by simp only [nc, contC]; omega)
  rw [hn, hu, hf, hs]
  rw [if_neg (by cases r.radius.isSome <;> simp [ofBool])]
  obtain ⟨o1, o2, o3⟩ := optC_print r.radius t (ofBool r.radius.isSome = 1)
  rw [← o1, ← o2]
  rw [← o3] at hr
  refine Rd.bind ((optC_law (p := ofBool r.radius.isSome = 1) radiusCovC_law).rd (a := r.radius) ?_ hr.2.1 ht) (Rd.bindPure (CovParams.rdRounded hp hr.2.2 ht) ?_)
  · cases hra : r.radius with
    | none => simp [optC, ofBool]
    | some x => exact ⟨by simp [ofBool], b2 x hra⟩
  · rw [if_pos (show covOptionsOk r.radius.isSome r.naps r.parameters.rounded.type.lru r.parameters.rounded.type.lrf from b3)]; rfl

theorem canonSound {r : CovRange} {t : Nums} (hv : r.Sound) (ht : t.Fit) : CanonicalText t r.nc (r.print t) := by
  refine (contC_law.canon (fits hv.1) ht).append (CanonicalText.append ?_ (CovType.canonSound _ hv.2 ht))
  have h := hv.1.2.1
  cases hra : r.radius with
  | none => exact .nil t
  | some x => exact radiusCovC_law.canon (h x hra) ht

end CovRange

namespace CovIsotope

def Sound (b : CovIsotope) : Prop := (b.ranges.length : Int) < 2147483648 ∧ ∀ r ∈ b.ranges, r.Sound

theorem rdRounded {b : CovIsotope} {t : Nums} (hv : b.Sound) (hr : Reps b.reals) (ht : t.Fit) : Rd (read t) (b.print t) b.rounded (b.nc + b.extra) := by
  have hr := hr
  unfold reals at hr
  rw [reps_append] at hr
  refine Rd.mapErr (Rd.cast (Rd.bind (contC_law.rd (a := b.cont) b.fits hr.1 ht) (Rd.bindPure (Rd.seqMap (nc := fun r => CovRange.nc r + 1) (xs := b.ranges) ?_
    (fun r hr' => CovRange.rdRounded (hv.2 r hr') (reps_flatMap.mp hr.2 r hr') ht)) ?_)) rfl ?_)
  · show toInt32 (asInt _) = _
    rw [asInt, toInt32_toInt32, toInt32_nat hv.1]
  · simp only [cont, toBool_ofBool]; rfl
  · simp only [nc, contC, extra, sum_add_one]; omega

theorem canonSound {b : CovIsotope} {t : Nums} (hv : b.Sound) (ht : t.Fit) : CanonicalText t b.nc (b.print t) :=
  (contC_law.canon b.fits ht).append (CanonicalText.flatMap (nc := CovRange.nc) fun x hx => CovRange.canonSound (hv.2 x hx) ht)

end CovIsotope

namespace ResCov

/-- A section as the constructors make it: no invariant of the correlations but that they can be printed. -/
def SectSound (x : Sect (List CovIsotope)) : Prop :=
  1 ≤ x.za ∧ IsInt32 x.za ∧ Disco.ltD x.awr Disco.zero = false ∧ x.mt = 151 ∧ (x.data.length : Int) < 2147483648 ∧ 1 ≤ x.data.length ∧ ∀ i ∈ x.data, i.Sound

theorem roundRounded {b : List CovIsotope} {t : Nums} {awr : Dbl} (head : Division) (v1 : (b.length : Int) < 2147483648) (v2 : 1 ≤ b.length) (v3 : ∀ i ∈ b, i.Sound)
    (hr : Reps (mf32mt151.reals b)) (ht : t.Fit) (hh : head.base.n1 = asInt b.length) (s : Text) (n : Int) :
    mf32mt151.read head t ⟨mf32mt151.body awr b t ++ s, n⟩ = .ok (b.map CovIsotope.rounded, ⟨s, n + (mf32mt151.nc b + ranges b : Nat)⟩) := by
  have hn : toInt32 head.base.n1 = b.length := by rw [hh, asInt, toInt32_toInt32, toInt32_nat v1]
  have ha : asInt b.length = b.length := toInt32_nat v1
  have := Rd.seqMap (nc := fun r => CovIsotope.nc r + CovIsotope.extra r) (p := CovIsotope.read t) (pr := fun x => CovIsotope.print x t) (xs := b) hn
    (fun x hx => CovIsotope.rdRounded (v3 x hx) (reps_flatMap.mp hr x hx) ht) s n
  show (do
    let b ← readSequence (CovIsotope.read t) head.base.n1
    if asInt b.length < 1 then Parser.fail .exc else pure b : Parser _) ⟨b.flatMap (fun x => CovIsotope.print x t) ++ s, n⟩ = _
  rw [Parser.bind_ok this, if_neg (by rw [List.length_map]; omega), sum_add]
  rfl

theorem readDivision_sound {x : Sect (List CovIsotope)} (hv : SectSound x) (hr : Reps (mf32mt151.realsSect x))
    {mat : Int} (h1 : 1 ≤ mat) (h2 : fits 4 mat) (s : Text) (n : Int) :
    readDivision ⟨printCont (mf32mt151.headCont x) ⟨mat, 32, x.mt⟩ ++ s, n⟩ = .ok (mf32mt151.headDiv x mat, ⟨s, n + 1⟩) := by
  have hm := hv.2.2.2.1
  have hh : (mf32mt151.headDiv x mat).isHead = true := by
    have e3 : mat ≠ 0 := by omega
    simp [Division.isHead, SecDef.headDiv, hm, e3, mf32mt151]
  have e : printCont (mf32mt151.headCont x) ⟨mat, 32, x.mt⟩ = (mf32mt151.headDiv x mat).print := by
    rw [Division.print, if_pos hh]; rfl
  rw [e]
  refine readDivision_print (fun _ => ?_) (fun h => by simp [hh] at h) ⟨h2, by show fits 2 32; decide, (by rw [hm]; decide : fits 3 x.mt)⟩
    (by show -1 ≤ mat; omega) (by show 0 ≤ (32 : Int); omega) (by show 0 ≤ x.mt; omega) s n
  exact Cont.ok_iff.mpr ⟨head_fits x.data, hr _ (by simp [SecDef.realsSect, SecDef.headDiv, SecDef.headCont]), hr _ (by simp [SecDef.realsSect, SecDef.headDiv, SecDef.headCont])⟩

theorem readSect_sound {x : Sect (List CovIsotope)} (hv : SectSound x) (hr : Reps (mf32mt151.realsSect x))
    {mat : Int} (h1 : 1 ≤ mat) (h2 : fits 4 mat) (s : Text) (n : Int) :
    mf32mt151.readSect (mf32mt151.headDiv x mat) mat ⟨mf32mt151.body x.awr x.data ⟨mat, 32, x.mt⟩ ++ unlines [endRecord ⟨mat, 32, 0⟩] ++ s, n⟩
      = .ok (roundedSect x, ⟨s, n + (mf32mt151.NC x + ranges x.data : Nat)⟩) := by
  have hm := hv.2.2.2.1
  have hm' : mf32mt151.mtOf (mf32mt151.headDiv x mat) = x.mt := by simp [hm, SecDef.mtOf, mf32mt151]
  have hn : mf32mt151.recNums (mf32mt151.headDiv x mat) mat = ⟨mat, 32, x.mt⟩ := by simp [SecDef.recNums, hm']; simp [mf32mt151]
  have hz : headZA (mf32mt151.headDiv x mat) = x.za := by
    simp only [headZA, SecDef.headDiv, SecDef.headCont]
    rw [Disco.round_ofInt _ hv.2.1.1 hv.2.1.2, toInt32_id hv.2.1.1 hv.2.1.2]
  have hc : (if mf32mt151.checksHead then checkHead (mf32mt151.headDiv x mat) mat mf32mt151.mf (mf32mt151.mtCheck (mf32mt151.headDiv x mat))
      else checkBase (headZA (mf32mt151.headDiv x mat)) (mf32mt151.headDiv x mat).base.c2 (mf32mt151.mtCheck (mf32mt151.headDiv x mat))) = .ok () := by
    rw [if_neg (by simp [mf32mt151])]
    unfold checkBase
    rw [hz, if_neg (by have := hv.1; omega)]
    have : (mf32mt151.headDiv x mat).base.c2 = x.awr := rfl
    rw [this, hv.2.2.1]
    rfl
  unfold SecDef.readSect
  have hl : ∀ s : St, liftE (.ok ()) s = .ok ((), s) := fun s => rfl
  rw [Parser.mapErr_ok, hc, hn, hm', List.append_assoc, Parser.bind_ok (hl _), Parser.bind_ok (roundRounded (awr := x.awr) (mf32mt151.headDiv x mat) hv.2.2.2.2.1 hv.2.2.2.2.2.1 hv.2.2.2.2.2.2 (fun y hy => hr y (by simp [SecDef.realsSect, hy]))
    (t := ⟨mat, 32, x.mt⟩) ⟨h2, by show fits 2 32; decide, (by rw [hm]; decide : fits 3 x.mt)⟩ rfl _ n)]
  have hs := readSEND_print h1 h2 (mf := 32) (by omega) (by omega) s (n + (mf32mt151.nc x.data + ranges x.data : Nat))
  rw [show mf32mt151.mf = 32 from rfl, Parser.bind_ok hs, hz]
  have e : n + ((mf32mt151.nc x.data + ranges x.data : Nat) : Int) + 1 = n + ((mf32mt151.NC x + ranges x.data : Nat) : Int) := by
    simp only [SecDef.NC]; omega
  rw [e]
  simp only [Parser.pure_run, SecDef.headDiv, SecDef.headCont]
  rfl

/-- A section that is sound is printed, and reading that text gives the section with its matrices rounded. -/
theorem sect_rounded {x : Sect (List CovIsotope)} (hv : SectSound x) (hr : Reps (mf32mt151.realsSect x))
    {mat : Int} (h1 : 1 ≤ mat) (h2 : fits 4 mat) : ∃ txt, mf32mt151.print x mat 32 = .ok txt ∧
      ∀ s n, mf32mt151.parse ⟨txt ++ s, n⟩ = .ok (roundedSect x, ⟨s, n + (mf32mt151.NC x + 1 + ranges x.data : Nat)⟩) := by
  refine ⟨_, print_eq x h1 h2, fun s n => ?_⟩
  rw [SecDef.parse, SecDef.lines, List.append_assoc, List.append_assoc, Parser.bind_ok (readDivision_sound hv hr h1 h2 _ n)]
  rw [← List.append_assoc]
  have := readSect_sound hv hr h1 h2 s (n + 1)
  rw [show (mf32mt151.headDiv x mat).tail.mat = mat from rfl, this]
  have e : n + 1 + ((mf32mt151.NC x + ranges x.data : Nat) : Int) = n + ((mf32mt151.NC x + 1 + ranges x.data : Nat) : Int) := by omega
  rw [e]

theorem sect_canonSound {x : Sect (List CovIsotope)} (hv : SectSound x) {mat : Int} (h1 : 1 ≤ mat) (h2 : fits 4 mat) :
    ∃ ls, mf32mt151.print x mat 32 = .ok (unlines (ls ++ [endRecord ⟨mat, 32, 0⟩])) ∧ ls.length = mf32mt151.NC x ∧
      ∀ l ∈ ls, CanonicalLine ⟨mat, 32, x.mt⟩ l := by
  have ht : Nums.Fit ⟨mat, 32, x.mt⟩ := ⟨h2, by show fits 2 32; decide, (by rw [hv.2.2.2.1]; decide : fits 3 x.mt)⟩
  obtain ⟨ls, e1, e2, e3⟩ := (Cont.Fits.canonical (c := mf32mt151.headCont x) (head_fits x.data) ht).append (CanonicalText.flatMap (nc := CovIsotope.nc)
    (pr := fun y => CovIsotope.print y ⟨mat, 32, x.mt⟩) (fun y hy => CovIsotope.canonSound (hv.2.2.2.2.2.2 y hy) ht))
  refine ⟨ls, ?_, ?_, e3⟩
  · rw [print_eq x h1 h2, SecDef.lines, show mf32mt151.body x.awr x.data ⟨mat, 32, x.mt⟩ = x.data.flatMap (fun y => CovIsotope.print y ⟨mat, 32, x.mt⟩) from rfl, e1]; simp
  · rw [e2, SecDef.NC]
    show 1 + (x.data.map CovIsotope.nc).sum = _
    rw [show mf32mt151.nc x.data = (x.data.map CovIsotope.nc).sum from rfl]; omega

end ResCov

end ENDFtk

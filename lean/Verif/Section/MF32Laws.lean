import Verif.Section.MF32
/-
  Laws for the components of section/32/151.
-/
set_option linter.unusedVariables false
set_option linter.unusedSectionVars false
set_option linter.unusedSimpArgs false
namespace ENDFtk
variable [Disco]

theorem limitedLValueC_law : limitedLValueC.Law UbErr := Comp.checked_lawU (E1 := StdErr) listC_law _
theorem shortRangeC_law : shortRangeC.Law UbErr := Comp.checked_lawU (E1 := StdErr) listC_law _
theorem triangleC_law : triangleC.Law UbErr := Comp.checked_lawU (E1 := StdErr) listC_law _
theorem compactUncertaintiesC_law : compactUncertaintiesC.Law UbErr := Comp.checked_lawU (E1 := StdErr) listC_law _

theorem longRangeC_law : longRangeC.Law UbErr := by
  refine Comp.checkedE_law (E1 := StdErr) listC_law _ ?_
  intro l e h
  unfold longRangeCheck at h
  split at h
  · exact covariancePairsCheck_err h
  split at h
  · exact squareMatrixCheck_err h
  · cases h; exact .inl rfl

theorem dapC_law : dapC.Law where
  round := fun {x t} hv hr ht => Rd.bindPure (contC_law.rd (a := ⟨Disco.zero, x, 0, 0, 0, 0⟩) ⟨fits0, fits0, fits0, fits0⟩ hr ht) rfl
  canon := fun {x t} hv ht => contC_law.canon (a := ⟨Disco.zero, x, 0, 0, 0, 0⟩) ⟨fits0, fits0, fits0, fits0⟩ ht
  reads := fun t => RvK.toReads (RvK.bind (contC_law.reads t) fun c hc => RvK.pure trivial rfl)

theorem dapListC_law : dapListC.Law := listC_law
theorem dapNoneC_law : dapNoneC.Law := Printer.none_law _

theorem fits_uint' {n : Int} (h : 0 ≤ n ∧ n < 4294967296) : fits 11 n := by
  constructor
  · have : (10 : Int) ^ 11 = 100000000000 := by decide
    omega
  · have : (10 : Int) ^ (11 - 1) = 10000000000 := by decide
    omega

theorem ofBool_ne {b : Bool} : ofBool b ≠ 0 ↔ b = true := by cases b <;> simp [ofBool]

/-- The optional component after a CONT record whose N2 says whether it is there. -/
theorem optC_again {α : Type} {c : Comp α} {p : Prop} [Decidable p] {v : Option α} {n : Int} (h : (optC p c).Valid v) (hn : n = ofBool v.isSome) :
    (optC (n ≠ 0) c).Valid v := by
  subst hn
  cases v with
  | none => simp [optC, ofBool]
  | some x => exact ⟨by simp [ofBool], h.2⟩

theorem seqC_again {α : Type} {c : Comp α} {n m : Int} {xs : List α} (h : (seqC c n).Valid xs) (hm : m = asInt xs.length) : (seqC c m).Valid xs := by
  refine ⟨?_, h.2⟩
  rw [hm, asInt, toInt32_toInt32, toInt32_nat (lt_of_count h.1.symm)]

theorem limitedC_law : limitedC.Law UbErr := by
  refine hdrC_law (fun r => Comp.checked_law (Comp.andThen_law (E1 := StdErr) (E2 := UbErr) (optC_law dapC_law)
    (fun _ => seqC_law limitedLValueC_law _)) _) ⟨?_, ?_, ?_, ?_⟩
  · rintro r ⟨o, xs⟩ hr hw
    exact ⟨fits0, fits0, fits_asInt _, fits_ofBool _⟩
  · intros; rfl
  · rintro r ⟨o, xs⟩ hr ⟨⟨w1, w2⟩, w3⟩
    exact ⟨⟨optC_again w1 rfl, seqC_again w2 rfl⟩, w3⟩
  · intros; rfl

theorem shortRangeRmlC_law : shortRangeRmlC.Law UbErr := by
  refine hdrC_law (fun r => Comp.andThen_law (E1 := StdErr) (E2 := UbErr) (seqC_law (Comp.checked_law listC_law _) _) (fun _ => triangleC_law)) ⟨?_, ?_, ?_, ?_⟩
  · rintro r ⟨xs, m⟩ hr hw
    exact ⟨fits_asInt _, fits0, fits0, fits0⟩
  · intros; rfl
  · rintro r ⟨xs, m⟩ hr ⟨w1, w2⟩
    exact ⟨seqC_again w1 rfl, w2⟩
  · intros; rfl

theorem unresolvedC_law : unresolvedC.Law UbErr := by
  refine hdrC_law (fun r => Comp.andThen_law (E1 := UbErr) (E2 := UbErr) (seqC_law (Comp.checked_lawU (E1 := StdErr) listC_law _) _) (fun _ => triangleC_law)) ⟨?_, ?_, ?_, ?_⟩
  · rintro r ⟨xs, m⟩ hr hw
    exact ⟨fits0, fits0, fits_asInt _, fits0⟩
  · intros; rfl
  · rintro r ⟨xs, m⟩ hr ⟨w1, w2⟩
    exact ⟨seqC_again w1 rfl, w2⟩
  · intros; rfl

theorem generalC_law {δ α : Type} {dap : Comp δ} {short : Comp α} (hd : dap.Law UbErr) (hs : short.Law UbErr) : (generalC dap short).Law UbErr := by
  have hinner : (hdrC (fun q : Cont => q.c1) (fun (h : Dbl) (b : List α × List LIST) => ⟨h, Disco.zero, 0, 0, asInt b.1.length, asInt b.2.length⟩)
        (fun q => (seqC short q.n1).andThen (fun _ => seqC longRangeC q.n2))).Law UbErr := by
    refine hdrC_law (fun r => Comp.andThen_law (E1 := UbErr) (E2 := UbErr) (seqC_law hs _) (fun _ => seqC_law longRangeC_law _)) ⟨?_, ?_, ?_, ?_⟩
    · rintro r ⟨xs, m⟩ hr hw
      exact ⟨fits0, fits0, fits_asInt _, fits_asInt _⟩
    · intros; rfl
    · rintro r ⟨xs, m⟩ hr ⟨w1, w2⟩
      exact ⟨seqC_again w1 rfl, seqC_again w2 rfl⟩
    · intros; rfl
  refine hdrC_law (fun r => Comp.andThen_law (E1 := UbErr) (E2 := UbErr) (optC_law hd) (fun _ => hinner)) ⟨?_, ?_, ?_, ?_⟩
  · rintro r ⟨o, b⟩ hr hw
    exact ⟨fits0, by show fits 11 1; decide, fits_uint' (toUInt32_range _), fits_ofBool _⟩
  · rintro r b hr hw
    simp only [toUInt32, Int.emod_emod_of_dvd, Int.emod_emod]
  · rintro r ⟨o, b⟩ hr ⟨w1, w2⟩
    exact ⟨optC_again w1 rfl, w2⟩
  · intros; rfl

theorem compactGroupC_law : compactGroupC.Law := Comp.andThen_law (E1 := StdErr) (E2 := StdErr) (Comp.checked_law listC_law _) (fun _ => Comp.checked_law listC_law _)

theorem compactRmlC_law : compactRmlC.Law :=
  Comp.checked_law (Comp.andThen_law (E1 := StdErr) (E2 := StdErr) (Comp.checked_law listC_law _) (fun l => seqC_law compactGroupC_law _)) _

theorem radiusCovC_law : radiusCovC.Law UbErr := by
  refine hdrC_law (fun r => seqC_law explicitC_law _) ⟨?_, ?_, ?_, ?_⟩
  · rintro r xs hr hw
    exact ⟨fits0, fits0, fits0, fits_asInt _⟩
  · intros; rfl
  · rintro r xs hr w1
    exact seqC_again w1 rfl
  · intros; rfl

section
variable [CorrOps]

/-- What holds for a compact representation that was read. -/
def compactInv {δ α : Type} (dap : Comp δ) (unc : Comp α) (y : (Dbl × Dbl × Int × Int) × Option δ × α × CorrMatrix) : Prop :=
  fits 11 y.1.2.2.1 ∧ fits 11 y.1.2.2.2 ∧ (∀ d, y.2.1 = some d → dap.Valid d) ∧ unc.Valid y.2.2.1 ∧ y.2.2.2.Inv

theorem Comp.WLaw.congr {α : Type} {c : Comp α} {W W' reg reg' : α → Prop} {x x' : α → Nat} (h : c.WLaw W reg x) (hW : ∀ a, W a ↔ W' a)
    (hreg : ∀ a, reg a ↔ reg' a) (hx : ∀ a, x a = x' a) : c.WLaw W' reg' x' := by
  have e1 : W = W' := funext fun a => propext (hW a)
  have e2 : reg = reg' := funext fun a => propext (hreg a)
  have e3 : x = x' := funext hx
  subst e1 e2 e3; exact h

theorem compactC_law {δ α : Type} {dap : Comp δ} {unc : Comp α} (hd : dap.Law UbErr) (hu : unc.Law UbErr) :
    (compactC dap unc).WLaw (compactInv dap unc) (fun _ => False) (fun _ => 0) := by
  refine (hdrC_wlaw (fun r => Comp.WLaw.andThen (Comp.Law.toW (optC_law (p := r.n2 ≠ 0) hd)) (fun _ => Comp.WLaw.andThen (Comp.Law.toW hu) (fun _ => corrC_law)))
    ⟨?_, ?_, ?_, ?_⟩).congr ?_ ?_ ?_
  · rintro r ⟨o, b⟩ hr hw
    exact ⟨hr.1, by show fits 11 2; decide, hr.2.2.1, fits_ofBool _⟩
  · intros; rfl
  · rintro r ⟨o, b⟩ hr ⟨w1, w2⟩
    exact ⟨optC_again w1 rfl, w2⟩
  · intros; rfl
  · rintro ⟨h, o, u, m⟩
    constructor
    · rintro ⟨⟨f1, f2, f3, f4⟩, f5, w1, w2, w3⟩
      refine ⟨f1, f3, ?_, w2, w3⟩
      rintro d rfl
      exact w1.2
    · rintro ⟨f1, f3, w1, w2, w3⟩
      refine ⟨⟨f1, by show fits 11 2; decide, f3, fits_ofBool _⟩, rfl, ?_, w2, w3⟩
      cases o with
      | none => simp [optC, ofBool]
      | some d => exact ⟨by simp [ofBool], w1 d rfl⟩
  · simp
  · simp

/-! ### the types of parameters -/

namespace CovType

/-- A compact representation. -/
def compact (k : CovType) : Bool := k.lcomp == 2

/-- What holds for parameters that were read. -/
def Inv : (k : CovType) → k.Data → Prop
  | limitedSLBW => limitedC.Valid
  | limitedMLBW => limitedC.Valid
  | generalSLBW => (generalC dapC shortRangeC).Valid
  | generalMLBW => (generalC dapC shortRangeC).Valid
  | generalRM => (generalC dapListC shortRangeC).Valid
  | generalRML => (generalC dapNoneC shortRangeRmlC).Valid
  | compactSLBW => compactInv dapC compactUncertaintiesC
  | compactMLBW => compactInv dapC compactUncertaintiesC
  | compactRM => compactInv dapListC compactUncertaintiesC
  | compactRML => compactInv dapNoneC compactRmlC
  | unresolved => unresolvedC.Valid

theorem law (k : CovType) : k.comp.WLaw k.Inv (fun _ => k.compact = false) (fun _ => 0) := by
  cases k
  · exact (Comp.Law.toW limitedC_law).congr (fun _ => Iff.rfl) (fun _ => by simp [compact, lcomp]) (fun _ => rfl)
  · exact (Comp.Law.toW limitedC_law).congr (fun _ => Iff.rfl) (fun _ => by simp [compact, lcomp]) (fun _ => rfl)
  · exact (Comp.Law.toW (generalC_law dapC_law.weaken shortRangeC_law)).congr (fun _ => Iff.rfl) (fun _ => by simp [compact, lcomp]) (fun _ => rfl)
  · exact (Comp.Law.toW (generalC_law dapC_law.weaken shortRangeC_law)).congr (fun _ => Iff.rfl) (fun _ => by simp [compact, lcomp]) (fun _ => rfl)
  · exact (Comp.Law.toW (generalC_law dapListC_law.weaken shortRangeC_law)).congr (fun _ => Iff.rfl) (fun _ => by simp [compact, lcomp]) (fun _ => rfl)
  · exact (Comp.Law.toW (generalC_law dapNoneC_law.weaken shortRangeRmlC_law)).congr (fun _ => Iff.rfl) (fun _ => by simp [compact, lcomp]) (fun _ => rfl)
  · exact (compactC_law dapC_law.weaken compactUncertaintiesC_law).congr (fun _ => Iff.rfl) (fun _ => by simp [compact, lcomp]) (fun _ => rfl)
  · exact (compactC_law dapC_law.weaken compactUncertaintiesC_law).congr (fun _ => Iff.rfl) (fun _ => by simp [compact, lcomp]) (fun _ => rfl)
  · exact (compactC_law dapListC_law.weaken compactUncertaintiesC_law).congr (fun _ => Iff.rfl) (fun _ => by simp [compact, lcomp]) (fun _ => rfl)
  · exact (compactC_law dapNoneC_law.weaken compactRmlC_law.weaken).congr (fun _ => Iff.rfl) (fun _ => by simp [compact, lcomp]) (fun _ => rfl)
  · exact (Comp.Law.toW unresolvedC_law).congr (fun _ => Iff.rfl) (fun _ => by simp [compact, lcomp]) (fun _ => rfl)

/-- The first record that is printed has LCOMP as L2. -/
theorem first (k : CovType) {x : k.Data} (hv : k.comp.Valid x) (hr : Reps (k.comp.reals x)) (t : Nums) :
    ∃ c rest, k.comp.print x t = printCont c t ++ rest ∧ c.Fits ∧ Reps [c.c1, c.c2] ∧ c.l2 = k.lcomp := by
  cases k <;> exact ⟨_, _, rfl, hv.1, (reps_append.mp hr).1, rfl⟩

theorem ofFlags_self (k : CovType) (h : k ≠ unresolved) : ofFlags k.lru k.lrf k.lcomp = some k := by
  cases k <;> first | rfl | exact absurd rfl h

theorem ofFlags_unresolved (lcomp : Int) : ofFlags 2 1 lcomp = some unresolved := by simp [ofFlags]

theorem ofFlags_spec {lru lrf lcomp : Int} {k : CovType} (h : ofFlags lru lrf lcomp = some k) :
    lru = k.lru ∧ (k ≠ unresolved → lrf = k.lrf ∧ lcomp = k.lcomp) := by
  unfold ofFlags at h
  repeat' split at h
  all_goals first | (cases h; done) | (cases h; simp_all [CovType.lru, CovType.lrf, CovType.lcomp])

end CovType

namespace CovParams

def Valid (p : CovParams) : Prop := p.type.comp.Valid p.data
def Inv (p : CovParams) : Prop := p.type.Inv p.data
def reals (p : CovParams) : List Dbl := p.type.comp.reals p.data

theorem rd {p : CovParams} {t : Nums} (hv : p.Valid) (hr : Reps p.reals) (ht : t.Fit) :
    Rd (read p.type.lru p.type.lrf t) (p.print t) p (p.nc + 1) := by
  intro s n
  obtain ⟨k, x⟩ := p
  obtain ⟨c, rest, e1, e2, e3, e4⟩ := k.first hv hr t
  have hl : toInt32 c.l2 = k.lcomp := by rw [e4]; exact toInt32_of (by cases k <;> decide)
  have hc : readCont t ⟨k.comp.print x t ++ s, n⟩ = .ok (c, ⟨rest ++ s, n + 1⟩) := by
    rw [e1, List.append_assoc]
    exact contC_law.rd (a := c) e2 e3 ht (rest ++ s) n
  have hk : CovType.ofFlags k.lru k.lrf (toInt32 c.l2) = some k := by
    rw [hl]
    by_cases hu : k = .unresolved
    · subst hu; exact CovType.ofFlags_unresolved _
    · exact k.ofFlags_self hu
  show read k.lru k.lrf t ⟨k.comp.print x t ++ s, n⟩ = _
  unfold read
  rw [hc]
  simp only [hk]
  have := k.law.round hv hr ht s (n + 1)
  rw [Parser.bind_ok this]
  simp only [Parser.pure_run]
  congr 3
  simp only [CovParams.nc]; omega

theorem canon {p : CovParams} {t : Nums} (hv : p.Valid) (ht : t.Fit) : CanonicalText t p.nc (p.print t) := p.type.law.canon hv ht

theorem reads (lru lrf : Int) (t : Nums) :
    ReadsW UbErr t (Std (fun p => p.Inv ∧ p.type.lru = lru) (fun p : CovParams => p.type.compact = false) (fun _ => 1) nc) (read lru lrf t) := by
  have hcont : ReadsW UbErr t (Std contC.Valid (fun _ => True) (fun _ => 0) contC.nc) (readCont t) := ReadsW.ofLaw (E := UbErr) contC_law
  apply ReadsW.intro
  · intro s a s' h
    unfold read at h
    cases hc : readCont t s with
    | error e => rw [hc] at h; cases h
    | ok r =>
      obtain ⟨c, s1⟩ := r
      rw [hc] at h
      simp only at h
      cases hk : CovType.ofFlags lru lrf (toInt32 c.l2) with
      | none => rw [hk] at h; cases h
      | some k =>
        rw [hk] at h
        simp only at h
        obtain ⟨R, e, N, ⟨c1, c2, c3, c4⟩, c5⟩ := hcont.ok hc
        obtain ⟨m, ⟨ls, l1, l2, l3, l4⟩, c6⟩ := c5 (.inl (c2.mpr trivial))
        obtain ⟨x, s2, h1, h2⟩ := Parser.bind_eq_ok.mp h
        cases h2
        obtain ⟨R', e', N', ⟨d1, d2, d3, d4⟩, d5⟩ := (k.law.reads t).ok h1
        refine ⟨R', 1, N', ⟨⟨d1, (CovType.ofFlags_spec hk).1.symm⟩, d2, rfl, d4⟩, fun hf => ?_⟩
        obtain ⟨n, ⟨ms, m1, m2, m3, m4⟩, d6⟩ := d5 hf
        have e1 : ls.length = 1 := by
          rw [l4, c6 (c2.mpr trivial), c4 (c2.mpr trivial)]; rfl
        have e2 : e' = 0 := d3
        have e3 : e = 0 := c3
        refine ⟨n, ⟨ms, m1, ?_, m3, m4⟩, d6⟩
        simp only at m2
        rw [m2, l2, e1, e2, e3]; simp; omega
  · intro s e h
    unfold read at h
    cases hc : readCont t s with
    | error e' => rw [hc] at h; cases h; exact hcont.err hc
    | ok r =>
      obtain ⟨c, s1⟩ := r
      rw [hc] at h
      simp only at h
      cases hk : CovType.ofFlags lru lrf (toInt32 c.l2) with
      | none => rw [hk] at h; cases h; exact .inl rfl
      | some k =>
        rw [hk] at h
        simp only at h
        rcases Parser.bind_eq_error.mp h with h | ⟨x, s2, h1, h2⟩
        · exact (k.law.reads t).err h
        · cases h2

theorem valid {p : CovParams} (h : p.Inv) (hr : p.type.compact = false) : p.Valid := p.type.law.valid h hr
theorem weak {p : CovParams} (h : p.Valid) : p.Inv := p.type.law.weak h

end CovParams

/-! ### resonance range -/

namespace CovRange

def radiusReals : Option (Unit × List LIST) → List Dbl
  | none => []
  | some x => radiusCovC.reals x

def reals (r : CovRange) : List Dbl := [r.el, r.eh] ++ (radiusReals r.radius ++ r.parameters.reals)

/-- The options and the scattering radius covariances are valid. -/
def Base (r : CovRange) : Prop :=
  IsInt32 r.naps ∧ (∀ x, r.radius = some x → radiusCovC.Valid x) ∧ covOptionsOk r.radius.isSome r.naps r.parameters.type.lru r.parameters.type.lrf

def Valid (r : CovRange) : Prop := r.Base ∧ r.parameters.Valid
def Inv (r : CovRange) : Prop := r.Base ∧ r.parameters.Inv

/-- No compact correlation matrix. -/
def reg (r : CovRange) : Prop := r.parameters.type.compact = false

theorem fits {r : CovRange} (h : r.Base) : r.cont.Fits := by
  refine ⟨?_, ?_, fits_ofBool _, fits_of_int32 h.1⟩
  · show ENDFtk.fits 11 r.parameters.type.lru
    cases r.parameters.type <;> decide
  · show ENDFtk.fits 11 r.parameters.type.lrf
    cases r.parameters.type <;> decide

theorem optC_print (o : Option (Unit × List LIST)) (t : Nums) (p : Prop) [Decidable p] :
    (optC p radiusCovC).print o t = radiusPrint t o ∧ (optC p radiusCovC).nc o = radiusNC o ∧ (optC p radiusCovC).reals o = radiusReals o := by
  cases o <;> exact ⟨rfl, rfl, rfl⟩

theorem rd {r : CovRange} {t : Nums} (hv : r.Valid) (hr : Reps r.reals) (ht : t.Fit) : Rd (read t) (r.print t) r (r.nc + 1) := by
  obtain ⟨hb, hp⟩ := hv
  obtain ⟨b1, b2, b3⟩ := hb
  have hr := hr
  unfold reals at hr
  rw [reps_append, reps_append] at hr
  have hn : toInt32 r.cont.n1 = ofBool r.radius.isSome := by
    show toInt32 (ofBool r.radius.isSome) = _
    cases r.radius.isSome <;> exact toInt32_of (by decide)
  have hu : toInt32 r.cont.l1 = r.parameters.type.lru := by
    show toInt32 r.parameters.type.lru = _
    exact toInt32_of (by cases r.parameters.type <;> decide)
  have hf : toInt32 r.cont.l2 = r.parameters.type.lrf := by
    show toInt32 r.parameters.type.lrf = _
    exact toInt32_of (by cases r.parameters.type <;> decide)
  have hs : toInt32 r.cont.n2 = r.naps := toInt32_of b1
  refine Rd.cast (Rd.bind (contC_law.rd (a := r.cont) (fits ⟨b1, b2, b3⟩) hr.1 ht) (t2 := radiusPrint t r.radius ++ r.parameters.print t)
    (k2 := radiusNC r.radius + (r.parameters.nc + 1)) ?_) rfl (by simp only [nc, contC]; omega)
  rw [hn, hu, hf, hs]
  rw [if_neg (by cases r.radius.isSome <;> simp [ofBool])]
  obtain ⟨o1, o2, o3⟩ := optC_print r.radius t (ofBool r.radius.isSome = 1)
  rw [← o1, ← o2]
  rw [← o3] at hr
  refine Rd.bind ((optC_law (p := ofBool r.radius.isSome = 1) radiusCovC_law).rd (a := r.radius) ?_ hr.2.1 ht) (Rd.bindPure (CovParams.rd hp hr.2.2 ht) ?_)
  · cases hra : r.radius with
    | none => simp [optC, ofBool]
    | some x => exact ⟨by simp [ofBool], b2 x hra⟩
  · rw [if_pos b3]; rfl

theorem canon {r : CovRange} {t : Nums} (hv : r.Valid) (ht : t.Fit) : CanonicalText t r.nc (r.print t) := by
  refine (contC_law.canon (fits hv.1) ht).append (CanonicalText.append ?_ (CovParams.canon hv.2 ht))
  have h := hv.1.2.1
  cases hra : r.radius with
  | none => exact .nil t
  | some x => exact radiusCovC_law.canon (h x hra) ht

theorem reads (t : Nums) : ReadsW UbErr t (Std Inv reg (fun _ => 1) nc) (read t) := by
  refine ReadsW.bind (ReadsW.ofLaw contC_law) ?_
  rintro c R e N ⟨c1, c2, c3, c4⟩
  refine ReadsW.ite (fun _ => ReadsW.fail (.inl rfl)) fun hn => ?_
  refine ReadsW.bind (ReadsW.ofLaw (optC_law (p := toInt32 c.n1 = 1) radiusCovC_law)) ?_
  rintro radius R' e' N' ⟨d1, d2, d3, d4⟩
  refine ReadsW.bind (CovParams.reads _ _ t) ?_
  rintro p R'' e'' N'' ⟨p1, p2, p3, p4⟩
  refine ReadsW.ite (fun ho => ReadsW.pure ⟨⟨⟨isInt32_toInt32 _, ?_, ho⟩, p1.1⟩, ?_, ?_, ?_⟩) fun _ => ReadsW.fail (.inl rfl)
  · rintro x h
    have h : radius = some x := h
    subst h
    exact d1.2
  · simp [c2, d2, p2, reg]
  · simp [c3, d3, p3]
  · intro h
    rw [c4 h.1, d4 h.2.1, p4 h.2.2.1]
    simp only [nc, contC]
    cases radius <;> rfl

theorem valid {r : CovRange} (h : r.Inv) (hr : r.reg) : r.Valid := ⟨h.1, CovParams.valid h.2 hr⟩
theorem weak {r : CovRange} (h : r.Valid) : r.Inv := ⟨h.1, CovParams.weak h.2⟩

end CovRange

/-! ### isotope -/

namespace CovIsotope

def reals (b : CovIsotope) : List Dbl := [b.zai, b.abn] ++ b.ranges.flatMap CovRange.reals
def Valid (b : CovIsotope) : Prop := (b.ranges.length : Int) < 2147483648 ∧ ∀ r ∈ b.ranges, r.Valid
def Inv (b : CovIsotope) : Prop := (b.ranges.length : Int) < 2147483648 ∧ ∀ r ∈ b.ranges, r.Inv
def reg (b : CovIsotope) : Prop := ∀ r ∈ b.ranges, r.reg
/-- The number of resonance ranges. -/
def extra (b : CovIsotope) : Nat := b.ranges.length

theorem fits (b : CovIsotope) : b.cont.Fits := ⟨fits0, fits_ofBool _, fits_asInt _, fits0⟩

theorem sum_add_one {α : Type} (f : α → Nat) (l : List α) : (l.map (fun x => f x + 1)).sum = (l.map f).sum + l.length := by
  induction l with
  | nil => rfl
  | cons a l ih => simp only [List.map_cons, List.sum_cons, List.length_cons, ih]; omega

theorem sum_one {α : Type} (l : List α) : (l.map (fun _ => 1)).sum = l.length := by
  induction l with
  | nil => rfl
  | cons a l ih => simp only [List.map_cons, List.sum_cons, List.length_cons, ih]; omega

theorem rd {b : CovIsotope} {t : Nums} (hv : b.Valid) (hr : Reps b.reals) (ht : t.Fit) : Rd (read t) (b.print t) b (b.nc + b.extra) := by
  have hr := hr
  unfold reals at hr
  rw [reps_append] at hr
  refine Rd.mapErr (Rd.cast (Rd.bind (contC_law.rd (a := b.cont) b.fits hr.1 ht) (Rd.bindPure (Rd.seq (nc := fun r => CovRange.nc r + 1) (xs := b.ranges) ?_
    (fun r hr' => CovRange.rd (hv.2 r hr') (reps_flatMap.mp hr.2 r hr') ht)) ?_)) rfl ?_)
  · show toInt32 (asInt _) = _
    rw [asInt, toInt32_toInt32, toInt32_nat hv.1]
  · simp only [cont, toBool_ofBool]
  · simp only [nc, contC, extra, sum_add_one]; omega

theorem canon {b : CovIsotope} {t : Nums} (hv : b.Valid) (ht : t.Fit) : CanonicalText t b.nc (b.print t) :=
  (contC_law.canon b.fits ht).append (CanonicalText.flatMap (nc := CovRange.nc) fun x hx => CovRange.canon (hv.2 x hx) ht)

theorem reads (t : Nums) : ReadsW UbErr t (Std Inv reg extra nc) (read t) := by
  refine ReadsW.mapErr (E := UbErr) ?_ (fun e => ErrOk.again e)
  refine ReadsW.bind (ReadsW.ofLaw contC_law) ?_
  rintro c R e N ⟨c1, c2, c3, c4⟩
  refine ReadsW.bind (ReadsW.seq (.inl rfl) (CovRange.reads t) _) ?_
  rintro rs R' e' N' ⟨d1, d2, d3, d4⟩
  refine ReadsW.pure ⟨⟨lt_of_count d1.1, d1.2⟩, ?_, ?_, ?_⟩
  · simp only [c2, d2, reg]; simp
  · simp only [c3, d3, extra, sum_one]; omega
  · intro h
    rw [c4 h.1, d4 h.2.1]
    simp [nc, contC]

theorem valid {b : CovIsotope} (h : b.Inv) (hr : b.reg) : b.Valid := ⟨h.1, fun r h' => CovRange.valid (h.2 r h') (hr r h')⟩
theorem weak {b : CovIsotope} (h : b.Valid) : b.Inv := ⟨h.1, fun r h' => CovRange.weak (h.2 r h')⟩

end CovIsotope

/-! ### section -/

/-- section::Type< 32, 151 >: section/32/151/src/ctor.hpp 16-20, 47-63, verifyNIS.hpp 1-10, print.hpp 10-21, NC.hpp 4-9 -/
def mf32mt151 : SecDef (List CovIsotope) where
  mf := 32
  fixedMT := some 151
  checksHead := false
  head := fun b => (0, 0, asInt b.length, 0)
  read := fun head t => do
    let b ← readSequence (CovIsotope.read t) head.base.n1
    if asInt b.length < 1 then Parser.fail .exc else pure b
  body := fun _ b t => b.flatMap (fun x => x.print t)
  nc := fun b => (b.map CovIsotope.nc).sum
  Valid := fun b => (b.length : Int) < 2147483648 ∧ 1 ≤ b.length ∧ ∀ x ∈ b, x.Valid
  reals := fun b => b.flatMap CovIsotope.reals

end

end ENDFtk

import Verif.Section.MF1
/-
  section/1/458 (fission energy release) and section/1/460 (delayed photons).
-/
set_option linter.unusedVariables false
set_option linter.unusedSectionVars false
set_option linter.unusedSimpArgs false
namespace ENDFtk
variable [Disco]

/-! ### MF1 MT460 -/

/-- section/1/460/DiscretePhotonMultiplicity: a TAB1 record (DiscretePhotonMultiplicity/src/ctor.hpp 40-49). -/
abbrev photonC : Comp TAB1 := tab1C

/-- section/1/460.hpp: `std::variant< DiscretePhotons, ContinuousPhotons >` -/
inductive Photons where
  | discrete (l : List TAB1)
  | continuous (r : LIST)

namespace Photons

/-- `LO()` of section/1/460/DiscretePhotons.hpp and ContinuousPhotons.hpp -/
def lo : Photons → Int
  | .discrete _ => 1
  | .continuous _ => 2

/-- `NG()` of section/1/460/DiscretePhotons.hpp (the number of photons as `int`) and ContinuousPhotons.hpp (0) -/
def ng : Photons → Int
  | .discrete l => asInt l.length
  | .continuous _ => 0

/-- section/1/460/src/readPhotonData.hpp 1-23; DiscretePhotons/src/ctor.hpp 14-52, verifySize.hpp 1-11; ContinuousPhotons/src/ctor.hpp 39-51,
    verifySize.hpp 1-11 -/
def read (lo ng : Int) (t : Nums) : Parser Photons :=
  if toInt32 lo = 1 then do
    let l ← readSequence (readTAB1 t) (toInt32 ng)
    if asInt l.length ≤ 0 then Parser.fail .exc else pure (.discrete l)
  else if toInt32 lo = 2 then do
    let r ← readLIST t
    if asInt r.data.length ≤ 0 then Parser.fail .exc else pure (.continuous r)
  else Parser.fail .exc

/-- section/1/460/DiscretePhotons/src/print.hpp 11-15, ContinuousPhotons.hpp 60 -/
def print : Photons → Nums → Text
  | .discrete l, t => l.flatMap (fun r => r.print t)
  | .continuous r, t => r.print t

/-- section/1/460/DiscretePhotons/src/NC.hpp 4-9 -/
def nc : Photons → Nat
  | .discrete l => (l.map TAB1.nc).sum
  | .continuous r => r.nc

def Valid : Photons → Prop
  | .discrete l => (∀ r ∈ l, r.Fits) ∧ 0 < asInt l.length ∧ (l.length : Int) = asInt l.length
  | .continuous r => r.Fits ∧ 0 < asInt r.data.length

def reals : Photons → List Dbl
  | .discrete l => l.flatMap tab1C.reals
  | .continuous r => listC.reals r

end Photons

/-- section::Type< 1, 460 >: section/1/460/src/ctor.hpp 30-47, print.hpp 10-19, section/1/460.hpp 90-92 -/
def mf1mt460 : SecDef Photons where
  mf := 1
  fixedMT := some 460
  head := fun b => (b.lo, 0, b.ng, 0)
  read := fun head t => Photons.read head.base.l1 head.base.n1 t
  body := fun _ => Photons.print
  nc := Photons.nc
  Valid := Photons.Valid
  reals := Photons.reals

theorem fits_small {n : Int} (h1 : -1000 ≤ n) (h2 : n ≤ 1000) : fits 11 n := by
  constructor
  · have : (10 : Int) ^ 11 = 100000000000 := by decide
    omega
  · have : (10 : Int) ^ (11 - 1) = 10000000000 := by decide
    omega

theorem toInt32_lt1000 {n : Int} (h1 : -1000 ≤ n) (h2 : n ≤ 1000) : toInt32 n = n := toInt32_id (by omega) (by omega)

theorem mf1mt460_law : mf1mt460.Law where
  mf_pos := by simp [mf1mt460]
  mt_fits := by simp [mf1mt460]; decide
  head_fits := fun {b} _ => by
    refine ⟨?_, fits0, ?_, fits0⟩
    · cases b
      · show fits 11 1; decide
      · show fits 11 2; decide
    · cases b
      · exact fits_toInt32 _
      · exact fits0
  round := by
    intro b t awr head hv ha hr ht hh _
    simp only [mf1mt460, Prod.mk.injEq] at hh
    simp only [mf1mt460]
    obtain ⟨h1, -, h3, -⟩ := hh
    rw [h1, h3]
    unfold Photons.read
    cases b with
    | discrete l =>
      obtain ⟨v1, v2, v3⟩ := hv
      refine Rd.ite_pos (by simp [Photons.lo, toInt32]) (Rd.bindPure (Rd.seq (pr := fun r => TAB1.print r t) (nc := TAB1.nc) ?_ fun r hr' => ?_) ?_)
      · simp only [Photons.ng, asInt, toInt32_toInt32] at v3 ⊢; exact v3.symm
      · exact tab1C_law.rd (v1 r hr') (reps_flatMap.mp hr r hr') ht
      · rw [if_neg (Int.not_le.mpr v2)]
    | continuous r =>
      obtain ⟨v1, v2⟩ := hv
      refine Rd.ite_neg (by simp [Photons.lo, toInt32]) (Rd.ite_pos (by simp [Photons.lo, toInt32]) (Rd.bindPure (listC_law.rd v1 hr ht) ?_))
      rw [if_neg (Int.not_le.mpr v2)]
  canon := by
    intro b t awr hv ht
    cases b with
    | discrete l => exact tab1C_law.flatMap hv.1 ht
    | continuous r => exact listC_law.canon hv.1 ht
  reads := by
    intro head t hf
    apply RvK.toReads
    simp only [mf1mt460]
    unfold Photons.read
    refine RvK.ite (fun _ => ?_) fun _ => RvK.ite (fun _ => ?_) fun _ => RvK.fail rfl
    · refine RvK.seq tab1C_law fun xs h1 h2 => ?_
      refine RvK.ite (fun _ => RvK.fail rfl) fun hx => ?_
      refine RvK.pure ⟨h2, Int.not_le.mp hx, ?_⟩ ?_
      · rw [toInt32_toInt32] at h1
        have := toInt32_range head.base.n1
        exact (toInt32_id (by omega) (by omega)).symm
      · simp [Photons.nc, tab1C]
    · refine RvK.bind (listC_law.reads t) fun r hr => ?_
      refine RvK.ite (fun _ => RvK.fail rfl) fun hx => RvK.pure ⟨hr, Int.not_le.mp hx⟩ ?_
      simp [Photons.nc, listC]

/-! ### MF1 MT458 -/

/-- section/1/458/ThermalPointComponents: a LIST record with NPL = 18 (ThermalPointComponents/src/ctor.hpp 4-8, verify.hpp 1-10). -/
def thermalC : Comp LIST := listC.checked (fun r => toInt32 r.npl = 18)

/-- section/1/458/EnergyReleaseComponent: a TAB1 record, EnergyReleaseComponent/src/ctor.hpp 6-10, verify.hpp 1-17 (`LDRV` and `IFC` are `int`). -/
def releaseC : Comp TAB1 :=
  tab1C.checked (fun r => (toInt32 r.base.l1 = 1 ∨ toInt32 r.base.l1 = 2) ∧ ¬(toInt32 r.base.l2 < 1 ∨ toInt32 r.base.l2 > 9))

/-- section/1/458/EnergyReleaseComponent.hpp 32 -/
def ifc (r : TAB1) : Int := toInt32 r.base.l2

/-- section/1/458/TabulatedComponents.hpp: `nfc_`, `values_`, `components_` (an array of nine optional components) -/
structure TabComp where
  nfc : Int
  values : LIST
  comps : List (Option TAB1)

namespace TabComp

/-- The loop of section/1/458/TabulatedComponents/src/readTables.hpp 25-50; the number of components still to be read comes first. -/
def readLoop (t : Nums) : Nat → List (Option TAB1) → Parser (List (Option TAB1))
  | 0, recs => pure recs
  | n + 1, recs => do
    let r ← releaseC.read t
    if 0 < ifc r ∧ ifc r < 10 then
      match recs[(ifc r - 1).toNat]?.join with
      | none => readLoop t n (recs.set (ifc r - 1).toNat (some r))
      | some _ => Parser.fail .exc
    else Parser.fail .exc

/-- section/1/458/TabulatedComponents/src/readTables.hpp 1-53 -/
def readTables (nfc : Int) (t : Nums) : Parser (List (Option TAB1)) :=
  if nfc < 0 then Parser.fail .exc else readLoop t nfc.toNat (List.replicate 9 none)

/-- section/1/458/TabulatedComponents/src/ctor.hpp 71-87, 44-55 -/
def read (nfc : Int) (t : Nums) : Parser TabComp := do
  let v ← thermalC.read t
  let cs ← readTables nfc t
  pure ⟨nfc, v, cs⟩

/-- section/1/458/TabulatedComponents/src/print.hpp 11-18 -/
def print (b : TabComp) (t : Nums) : Text :=
  b.values.print t ++ b.comps.flatMap (fun o => match o with
    | some r => r.print t
    | none => [])

/-- section/1/458/TabulatedComponents/src/NC.hpp 4-11 -/
def nc (b : TabComp) : Nat :=
  b.values.nc + (b.comps.map (fun o => match o with
    | some r => r.nc
    | none => 0)).sum

/-- There are nine places; the component in place `i` has IFC = `i` + 1; NFC is the number of components. -/
def Valid (b : TabComp) : Prop :=
  thermalC.Valid b.values ∧ b.comps.length = 9 ∧ b.nfc = (b.comps.filter Option.isSome).length ∧
  (∀ (i : Nat) r, b.comps[i]? = some (some r) → releaseC.Valid r ∧ ifc r = i + 1)

def reals (b : TabComp) : List Dbl :=
  thermalC.reals b.values ++ b.comps.flatMap (fun o => match o with
    | some r => tab1C.reals r
    | none => [])

end TabComp

/-- section/1/458.hpp 42-48 -/
inductive Release where
  | thermal (r : LIST)
  | poly (r : LIST)
  | tab (b : TabComp)

namespace Release

/-- section/1/458.hpp 67-69 -/
def lfc : Release → Int
  | .thermal _ => 0
  | .poly _ => 0
  | .tab _ => 1

/-- section/1/458.hpp 79-81 -/
def nfc : Release → Int
  | .thermal _ => 0
  | .poly _ => 0
  | .tab b => b.nfc

/-- section/1/458/src/readFissionEnergyReleaseData.hpp 1-42 (`LFC` and `NFC` are `int`); PolynomialComponents/src/ctor.hpp 4-8, verify.hpp 1-11 (with
    `int` arguments), ThermalPointComponents/src/ctor.hpp 4-8.  `( NPLY + 1 ) * 18` in `int` does not overflow, as it is equal to NPL as `long`
    unless that is longer than any vector. -/
def read (lfc nfc : Int) (t : Nums) : Parser Release :=
  if toInt32 lfc = 0 then do
    let r ← readLIST t
    if r.npl ≠ (r.l2 + 1) * 18 then Parser.fail .exc
    else if r.l2 = 0 then
      if toInt32 r.npl ≠ 18 then Parser.fail .exc else pure (.thermal r)
    else
      if toInt32 r.npl ≠ (toInt32 r.l2 + 1) * 18 then Parser.fail .exc else pure (.poly r)
  else if toInt32 lfc = 1 then do
    let b ← TabComp.read (toInt32 nfc) t
    pure (.tab b)
  else Parser.fail .exc

/-- section/1/458/PolynomialComponents.hpp 175, ThermalPointComponents.hpp 170, TabulatedComponents/src/print.hpp -/
def print : Release → Nums → Text
  | .thermal r, t => r.print t
  | .poly r, t => r.print t
  | .tab b, t => b.print t

/-- section/1/458/PolynomialComponents.hpp 174, ThermalPointComponents.hpp 169, TabulatedComponents/src/NC.hpp -/
def nc : Release → Nat
  | .thermal r => r.nc
  | .poly r => r.nc
  | .tab b => b.nc

def Valid : Release → Prop
  | .thermal r => r.Fits ∧ r.npl = 18 ∧ r.l2 = 0
  | .poly r => r.Fits ∧ r.npl = (r.l2 + 1) * 18 ∧ toInt32 r.npl = (toInt32 r.l2 + 1) * 18 ∧ r.l2 ≠ 0
  | .tab b => b.Valid

def reals : Release → List Dbl
  | .thermal r => listC.reals r
  | .poly r => listC.reals r
  | .tab b => b.reals

end Release

/-- section::Type< 1, 458 >: section/1/458/src/ctor.hpp 30-47, print.hpp 10-19, section/1/458.hpp 111-113 -/
def mf1mt458 : SecDef Release where
  mf := 1
  fixedMT := some 458
  head := fun b => (0, b.lfc, 0, b.nfc)
  read := fun head t => Release.read head.base.l2 head.base.n2 t
  body := fun _ => Release.print
  nc := Release.nc
  Valid := Release.Valid
  reals := Release.reals

theorem thermalC_law : thermalC.Law := Comp.checked_law listC_law _
theorem releaseC_law : releaseC.Law := Comp.checked_law tab1C_law _

namespace TabComp

theorem readLoop_rd {t : Nums} (ht : t.Fit) (suf : List (Option TAB1)) (pre : List (Option TAB1)) (hl : pre.length + suf.length = 9)
    (hv : ∀ (i : Nat) r, suf[i]? = some (some r) → releaseC.Valid r ∧ ifc r = (pre.length + i : Nat) + 1)
    (hr : ∀ o ∈ suf, Reps (match o with
      | some r => tab1C.reals r
      | none => [])) :
    Rd (readLoop t (suf.filter Option.isSome).length (pre ++ List.replicate suf.length none))
      (suf.flatMap (fun o => match o with
        | some r => r.print t
        | none => [])) (pre ++ suf)
      (suf.map (fun o => match o with
        | some r => r.nc
        | none => 0)).sum := by
  induction suf generalizing pre with
  | nil => simpa [readLoop] using Rd.pure pre
  | cons o suf ih =>
    simp only [List.mem_cons, forall_eq_or_imp, List.length_cons] at hr hl
    have ih' := ih (pre ++ [o]) (by simp; omega) (fun i r hi => by
      have := hv (i + 1) r (by simpa using hi)
      refine ⟨this.1, ?_⟩
      rw [this.2]; simp; omega) hr.2
    cases o with
    | none =>
      simp only [List.append_assoc, List.singleton_append] at ih'
      simpa [List.replicate_succ] using ih'
    | some r =>
      obtain ⟨v1, v2⟩ := hv 0 r (by simp)
      simp only [Nat.add_zero] at v2
      have hidx : (ifc r - 1).toNat = pre.length := by omega
      have hget : (pre ++ List.replicate (suf.length + 1) none)[pre.length]? = some (none : Option TAB1) := by
        rw [List.getElem?_append_right (Nat.le_refl _)]; simp
      have hset : (pre ++ List.replicate (suf.length + 1) none).set pre.length (some r) = (pre ++ [some r]) ++ List.replicate suf.length none := by
        rw [List.set_append_right _ _ (Nat.le_refl _)]; simp [List.replicate_succ]
      have hcount : ((some r :: suf).filter Option.isSome).length = (suf.filter Option.isSome).length + 1 := by simp
      rw [hcount, List.flatMap_cons, List.map_cons, List.sum_cons]
      refine Rd.bind (releaseC_law.rd v1 hr.1 ht) (Rd.ite_pos (by omega) ?_)
      rw [hidx, List.length_cons, hget, hset]
      have e : pre ++ some r :: suf = (pre ++ [some r]) ++ suf := by simp
      rw [e]
      exact ih'

theorem readLoop_reads {t : Nums} (n : Nat) (recs : List (Option TAB1)) (hl : recs.length = 9)
    (hv : ∀ (i : Nat) r, recs[i]? = some (some r) → releaseC.Valid r ∧ ifc r = i + 1) :
    RvK t (fun cs : List (Option TAB1) => cs.length = 9 ∧ (∀ (i : Nat) r, cs[i]? = some (some r) → releaseC.Valid r ∧ ifc r = i + 1) ∧
        (cs.filter Option.isSome).length = (recs.filter Option.isSome).length + n)
      (fun cs => (cs.map (fun o => match o with
        | some r => r.nc
        | none => 0)).sum)
      (recs.map (fun o => match o with
        | some r => r.nc
        | none => 0)).sum (readLoop t n recs) := by
  induction n generalizing recs with
  | zero => exact RvK.pure ⟨hl, hv, rfl⟩ rfl
  | succ n ih =>
    refine RvK.bind (releaseC_law.reads t) fun r hr => RvK.ite (fun hi => ?_) (fun _ => RvK.fail rfl)
    obtain ⟨k, hk⟩ : ∃ k : Nat, ifc r = k + 1 := ⟨(ifc r - 1).toNat, by omega⟩
    have hidx : (ifc r - 1).toNat = k := by omega
    rw [hidx]
    have hk9 : k < 9 := by omega
    cases hg : recs[k]? with
    | none => rw [List.getElem?_eq_none_iff] at hg; omega
    | some o =>
      cases o with
      | some x => exact RvK.fail rfl
      | none =>
        simp only [Option.join_some]
        have hsplit : recs = recs.take k ++ none :: recs.drop (k + 1) := by
          have hlt : k < recs.length := by omega
          have hd : recs.drop k = recs[k] :: recs.drop (k + 1) := List.drop_eq_getElem_cons hlt
          have hn : recs[k] = none := by
            rw [List.getElem?_eq_getElem hlt] at hg; simpa using hg
          rw [hn] at hd
          rw [← hd, List.take_append_drop]
        have hset : recs.set k (some r) = recs.take k ++ some r :: recs.drop (k + 1) := by
          rw [List.set_eq_take_append_cons_drop]; rw [if_pos (by omega)]
        have hc : ((recs.set k (some r)).filter Option.isSome).length = (recs.filter Option.isSome).length + 1 := by
          rw [hset]; conv => rhs; rw [hsplit]
          simp; omega
        have hn : (List.map (fun o : Option TAB1 => match o with
              | some r => r.nc
              | none => 0) (recs.set k (some r))).sum = (List.map (fun o : Option TAB1 => match o with
              | some r => r.nc
              | none => 0) recs).sum + releaseC.nc r := by
          rw [hset]; conv => rhs; rw [hsplit]
          simp [releaseC, Comp.checked, tab1C]; omega
        have := ih (recs.set k (some r)) (by simpa using hl) (fun i x hx => by
          rw [List.getElem?_set] at hx
          split at hx
          · rename_i he
            split at hx
            · simp at hx; subst hx; subst he; exact ⟨hr, hk⟩
            · cases hx
          · exact hv i x hx)
        rw [hc, hn] at this
        refine this.post ?_
        rintro b ls ⟨⟨x1, x2, x3⟩, x4, x5⟩
        exact ⟨⟨x1, x2, by omega⟩, x4, x5⟩

theorem rd {b : TabComp} {t : Nums} (hv : b.Valid) (hr : Reps b.reals) (ht : t.Fit) : Rd (read b.nfc t) (b.print t) b b.nc := by
  obtain ⟨v1, v2, v3, v4⟩ := hv
  unfold reals at hr
  rw [reps_append, reps_flatMap] at hr
  refine Rd.bind' (thermalC_law.rd v1 hr.1 ht) (Rd.bindPure (a := b.comps) (Rd.ite_neg (by omega) ?_) rfl) rfl rfl
  have := readLoop_rd ht b.comps [] (by simp [v2]) (fun i r hi => by simpa using v4 i r hi) hr.2
  rw [v2] at this
  rw [v3, Int.toNat_natCast]
  exact this

theorem canon {b : TabComp} {t : Nums} (hv : b.Valid) (ht : t.Fit) : CanonicalText t b.nc (b.print t) := by
  obtain ⟨v1, v2, v3, v4⟩ := hv
  refine (thermalC_law.canon v1 ht).append ?_
  refine CanonicalText.flatMap (nc := fun o : Option TAB1 => match o with
    | some r => r.nc
    | none => 0) (fun o ho => ?_)
  cases o with
  | none => exact CanonicalText.nil t
  | some r =>
    obtain ⟨i, hi, he⟩ := List.getElem_of_mem ho
    exact tab1C_law.canon (v4 i r (by rw [List.getElem?_eq_getElem hi, he])).1.1 ht

theorem reads (nfc : Int) (t : Nums) : Reads StdErr (fun b ls => TabComp.Valid b ∧ b.nfc = nfc ∧ AllTail t ls ∧ ls.length = b.nc) (read nfc t) := by
  have : RvK t (fun b : TabComp => b.Valid ∧ b.nfc = nfc) TabComp.nc 0 (read nfc t) := by
    refine RvK.bind (thermalC_law.reads t) fun v hv => ?_
    unfold readTables
    have key : Reads StdErr (fun (cs : List (Option TAB1)) ls => (cs.length = 9 ∧ (∀ (i : Nat) r, cs[i]? = some (some r) → releaseC.Valid r ∧ ifc r = i + 1) ∧
        nfc = (cs.filter Option.isSome).length) ∧ AllTail t ls ∧ ls.length = (cs.map (fun o => match o with
        | some r => r.nc
        | none => 0)).sum) (if nfc < 0 then Parser.fail .exc else readLoop t nfc.toNat (List.replicate 9 none)) := by
      refine Reads.ite (fun _ => Reads.fail rfl) fun h0 => ?_
      have h1 := readLoop_reads (t := t) nfc.toNat (List.replicate 9 none) (by simp) (fun i r h => by
        rw [List.getElem?_replicate] at h; split at h <;> cases h)
      refine h1.post ?_
      rintro b ls ⟨⟨x1, x2, x3⟩, x4, x5⟩
      simp at x3 x5
      exact ⟨⟨x1, x2, by omega⟩, x4, x5⟩
    refine RvK.bind key ?_
    rintro cs ⟨c1, c2, c3⟩
    exact RvK.pure ⟨⟨hv, c1, c3, c2⟩, rfl⟩ (by simp [TabComp.nc, thermalC, Comp.checked, listC])
  refine this.post ?_
  rintro b ls ⟨⟨h1, h2⟩, h3, h4⟩
  exact ⟨h1, h2, h3, by omega⟩

theorem Valid.nfc_le {b : TabComp} (h : b.Valid) : 0 ≤ b.nfc ∧ b.nfc ≤ 9 := by
  obtain ⟨_, v2, v3, _⟩ := h
  have := List.length_filter_le Option.isSome b.comps
  omega

end TabComp

theorem mf1mt458_law : mf1mt458.Law where
  mf_pos := by simp [mf1mt458]
  mt_fits := by simp [mf1mt458]; decide
  head_fits := fun {b} hv => by
    refine ⟨fits0, ?_, fits0, ?_⟩
    · cases b
      · exact fits0
      · exact fits0
      · show fits 11 1; decide
    · cases b with
      | thermal r => exact fits0
      | poly r => exact fits0
      | tab b => have := TabComp.Valid.nfc_le hv; exact fits_small (n := b.nfc) (by omega) (by omega)
  round := by
    intro b t awr head hv ha hr ht hh _
    simp only [mf1mt458, Prod.mk.injEq] at hh
    simp only [mf1mt458]
    obtain ⟨-, h2, -, h4⟩ := hh
    rw [h2, h4]
    unfold Release.read
    cases b with
    | thermal r =>
      obtain ⟨v1, v2, v3⟩ := hv
      refine Rd.ite_pos (by simp [Release.lfc, toInt32]) (Rd.bindPure (listC_law.rd v1 hr ht) ?_)
      rw [if_neg (by rw [v2, v3]; decide), if_pos v3, if_neg (by rw [v2]; simp [toInt32])]
    | poly r =>
      obtain ⟨v1, v2, v3, v4⟩ := hv
      refine Rd.ite_pos (by simp [Release.lfc, toInt32]) (Rd.bindPure (listC_law.rd v1 hr ht) ?_)
      rw [if_neg (by simpa using v2), if_neg v4, if_neg (by simpa using v3)]
    | tab b =>
      have hn := TabComp.Valid.nfc_le hv
      have e : toInt32 b.nfc = b.nfc := toInt32_lt1000 (by omega) (by omega)
      refine Rd.ite_neg (by simp [Release.lfc, toInt32]) (Rd.ite_pos (by simp [Release.lfc, toInt32]) (Rd.bindPure (b := Release.tab b) (a := b) ?_ rfl))
      simp only [Release.nfc, e]
      exact TabComp.rd hv hr ht
  canon := by
    intro b t awr hv ht
    cases b with
    | thermal r => exact listC_law.canon hv.1 ht
    | poly r => exact listC_law.canon hv.1 ht
    | tab b => exact TabComp.canon hv ht
  reads := by
    intro head t hf
    apply RvK.toReads
    simp only [mf1mt458]
    unfold Release.read
    refine (RvK.ite (fun _ => RvK.bind (listC_law.reads t) fun r hr => RvK.ite (fun _ => RvK.fail rfl) fun h1 =>
      RvK.ite (fun h2 => RvK.ite (fun _ => RvK.fail rfl) fun h3 => RvK.pure ⟨hr, ?_, h2⟩ ?_) fun h2 =>
        RvK.ite (fun _ => RvK.fail rfl) fun h3 => RvK.pure ⟨hr, by simpa using h1, by simpa using h3, h2⟩ ?_) fun _ =>
      RvK.ite (fun _ => RvK.bind (E1 := StdErr) (V1 := fun b => TabComp.Valid b) (nc1 := TabComp.nc) ?_ fun b hb => RvK.pure hb ?_) fun _ => RvK.fail rfl)
    · simp at h1; rw [h1, h2]; decide
    · simp [mf1mt458, Release.nc, listC]
    · simp [mf1mt458, Release.nc, listC]
    · exact (TabComp.reads _ t).post (by rintro b ls ⟨x1, x2, x3, x4⟩; exact ⟨x1, x3, x4⟩)
    · simp [mf1mt458, Release.nc]

end ENDFtk

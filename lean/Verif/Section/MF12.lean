import Verif.Section.MF8
/-
  The section types of files 9, 10, 12, 13, 14, 15, 26 and 28.
-/
set_option linter.unusedVariables false
set_option linter.unusedSectionVars false
set_option linter.unusedSimpArgs false
namespace ENDFtk
variable [Disco]

/-! ### MF9 and MF10 -/

/-- section/9.hpp 33-34, section/10.hpp 33-34: `ReactionProduct` is a TAB1 record (section/9/ReactionProduct/src/ctor.hpp 61-70,
    section/10/ReactionProduct/src/ctor.hpp 61-70) -/
structure Products where
  lis : Int
  products : List TAB1

/-- section::Type< 9 > and section::Type< 10 >: section/9/src/ctor.hpp 18-51, print.hpp 10-22, NC.hpp 4-12, section/10/src/ctor.hpp 18-52,
    print.hpp 10-22, NC.hpp 4-12 -/
def mfProducts (mf : Int) : SecDef Products where
  mf := mf
  fixedMT := none
  checksHead := false
  head := fun b => (b.lis, 0, b.products.length, 0)
  read := fun head t => do
    let b ← (seqC tab1C head.base.n1).read t
    pure ⟨toInt32 head.base.l1, b⟩
  body := fun _ b t => b.products.flatMap (fun x => x.print t)
  nc := fun b => (b.products.map TAB1.nc).sum
  Valid := fun b => IsInt32 b.lis ∧ (∀ x ∈ b.products, x.Fits) ∧ (b.products.length : Int) < 2147483648
  reals := fun b => b.products.flatMap tab1C.reals

def mf9 : SecDef Products := mfProducts 9
def mf10 : SecDef Products := mfProducts 10

theorem mfProducts_law {mf : Int} (hmf : 1 ≤ mf ∧ mf < 100) : (mfProducts mf).Law where
  mf_pos := hmf
  mt_fits := by simp [mfProducts]
  head_fits := fun hv => ⟨fits_of_int32 hv.1, fits0, fits_nat hv.2.2, fits0⟩
  round := by
    rintro b t awr head ⟨v1, v2, v3⟩ ha hr ht hh _
    simp only [mfProducts, Prod.mk.injEq] at hh
    refine Rd.bindPure ((seqC_law tab1C_law _).rd ⟨?_, v2⟩ hr ht) ?_
    · rw [hh.2.2.1]; exact toInt32_nat v3
    · rw [hh.1, toInt32_of v1]
  canon := fun _ hv ht => tab1C_law.flatMap hv.2.1 ht
  reads := fun head t _ => RvK.toReads (RvK.bind ((seqC_law tab1C_law _).reads t) fun b hb =>
    RvK.pure ⟨isInt32_toInt32 _, hb.2, lt_of_count hb.1.symm⟩ (by simp [mfProducts, seqC, tab1C]))

theorem mf9_law : mf9.Law := mfProducts_law (by decide)
theorem mf10_law : mf10.Law := mfProducts_law (by decide)

/-! ### MF12 and MF13 -/

/-- section/12/Multiplicities.hpp 23-24, section/13.hpp 39-40: the optional total and the partials; all of them are TAB1 records
    (section/12/TotalMultiplicity/src/ctor.hpp 45-54, PartialMultiplicity/src/ctor.hpp 53-61, section/13/TotalCrossSection/src/ctor.hpp 37-46,
    PartialCrossSection/src/ctor.hpp 46-55) -/
abbrev TotalPartials := Option TAB1 × List TAB1

/-- section/12/Multiplicities/src/ctor.hpp 6-11, 46-81, readTotalMultiplicity.hpp 1-18, verifyNK.hpp 1-11, print.hpp 11-19, NC.hpp 4-12;
    section/13/src/ctor.hpp 6-14, 57-90, readTotalCrossSection.hpp 1-18, verifyNK.hpp 1-11, print.hpp 16-20, NC.hpp 4-10.  NK is an `int`. -/
def totalPartialsC (nk : Int) : Comp TotalPartials :=
  ((optC (nk ≠ 1) tab1C).andThen (fun _ => seqC tab1C nk)).checked (fun b => 0 < asInt b.2.length)

theorem totalPartialsC_law (nk : Int) : (totalPartialsC nk).Law :=
  Comp.checked_law (Comp.andThen_law (optC_law tab1C_law) fun _ => seqC_law tab1C_law _) _

/-- The data can be read for the number of partials they have. -/
def TotalPartials.Ok (b : TotalPartials) : Prop := (totalPartialsC (asInt b.2.length)).Valid b

theorem asInt_of_valid {nk : Int} (hk : IsInt32 nk) {b : TotalPartials} (h : (totalPartialsC nk).Valid b) : asInt b.2.length = nk := by
  have h2 : toInt32 nk = b.2.length := h.1.2.1
  rw [asInt, ← h2, toInt32_toInt32, toInt32_of hk]

/-- section::Type< 13 >: section/13/src/ctor.hpp 80-95, print.hpp 10-22, NC.hpp 4-10, section/13.hpp 57 (`NK()` as `int`) -/
def mf13 : SecDef TotalPartials where
  mf := 13
  fixedMT := none
  checksHead := false
  head := fun b => (0, 0, asInt b.2.length, 0)
  read := fun head t => (totalPartialsC (toInt32 head.base.n1)).read t
  body := fun _ b t => (totalPartialsC (asInt b.2.length)).print b t
  nc := fun b => (totalPartialsC (asInt b.2.length)).nc b
  Valid := TotalPartials.Ok
  reals := fun b => (totalPartialsC (asInt b.2.length)).reals b

theorem mf13_law : mf13.Law where
  mf_pos := by simp [mf13]
  mt_fits := by simp [mf13]
  head_fits := fun hv => ⟨fits0, fits0, fits_asInt _, fits0⟩
  round := by
    intro b t awr head hv ha hr ht hh _
    simp only [mf13, Prod.mk.injEq] at hh
    show Rd ((totalPartialsC (toInt32 head.base.n1)).read t) _ _ _
    rw [hh.2.2.1, asInt, toInt32_toInt32]
    exact (totalPartialsC_law _).rd hv hr ht
  canon := fun _ hv ht => (totalPartialsC_law _).canon hv ht
  reads := fun head t _ => ((totalPartialsC_law _).reads t).post (by
    rintro b ls ⟨h1, h2, h3⟩
    have := asInt_of_valid (isInt32_toInt32 _) h1
    refine ⟨by unfold mf13 TotalPartials.Ok; simp only [this]; exact h1, h2, by simp only [mf13, this]; exact h3⟩)

/-- section/12/TransitionProbabilities.hpp 64: `LG()`, an `int` -/
def transitionLG (l : LIST) : Int := toInt32 (Int.tdiv l.npl l.n2 - 1)

/-- section/12/TransitionProbabilities/src/ctor.hpp 6-10, verifyLG.hpp 1-11: for NT = 0 there is a division by zero (undefined behaviour) -/
def transitionCheck (l : LIST) : Except Err Unit :=
  if l.n2 = 0 then .error .ub
  else if transitionLG l ≠ 1 ∧ transitionLG l ≠ 2 then .error .exc
  else .ok ()

/-- section/12/TransitionProbabilities: ctor.hpp 79-88 -/
def transitionC : Comp LIST := listC.checkedE transitionCheck

theorem transitionC_law : transitionC.Law UbErr := by
  refine Comp.checkedE_law (E1 := StdErr) listC_law _ ?_
  intro a e h
  unfold transitionCheck at h
  split at h
  · cases h; exact .inr rfl
  split at h
  · cases h; exact .inl rfl
  · cases h

/-- section/12.hpp 49-51 -/
inductive PhotonProduction where
  | multiplicities (b : TotalPartials)
  | transitions (b : LIST)

/-- section/12/src/print.hpp 13-35: L1, L2 and N1 (an `int`) of the HEAD line -/
def PhotonProduction.head : PhotonProduction → Int × Int × Int × Int
  | .multiplicities b => (1, 0, asInt b.2.length, 0)
  | .transitions l => (2, transitionLG l, toInt32 (l.n2 + 2), 0)

/-- section::Type< 12 >: section/12/src/ctor.hpp 31-46, readPhotonProduction.hpp 1-23 (LO and N are `int`), print.hpp 10-40, NC.hpp 4-9 -/
def mf12 : SecDef PhotonProduction where
  mf := 12
  fixedMT := none
  checksHead := false
  head := PhotonProduction.head
  read := fun head t =>
    if toInt32 head.base.l1 = 1 then do
      let b ← (totalPartialsC (toInt32 head.base.n1)).read t
      pure (.multiplicities b)
    else if toInt32 head.base.l1 = 2 then do
      let b ← transitionC.read t
      pure (.transitions b)
    else Parser.fail .exc
  body := fun _ b t => match b with
    | .multiplicities b => (totalPartialsC (asInt b.2.length)).print b t
    | .transitions b => transitionC.print b t
  nc := fun b => match b with
    | .multiplicities b => (totalPartialsC (asInt b.2.length)).nc b
    | .transitions b => transitionC.nc b
  Valid := fun b => match b with
    | .multiplicities b => TotalPartials.Ok b
    | .transitions b => transitionC.Valid b
  reals := fun b => match b with
    | .multiplicities b => (totalPartialsC (asInt b.2.length)).reals b
    | .transitions b => transitionC.reals b

theorem mf12_law : mf12.Law UbErr where
  mf_pos := by simp [mf12]
  mt_fits := by simp [mf12]
  head_fits := by
    intro b hv
    cases b with
    | multiplicities b => exact ⟨by show fits 11 1; decide, fits0, fits_asInt _, fits0⟩
    | transitions b => exact ⟨by show fits 11 2; decide, fits_toInt32 _, fits_toInt32 _, fits0⟩
  round := by
    intro b t awr head hv ha hr ht hh _
    cases b with
    | multiplicities b =>
      simp only [mf12, PhotonProduction.head, Prod.mk.injEq] at hh
      refine Rd.ite_pos (by rw [hh.1]; simp [toInt32]) (Rd.bindPure (a := b) ?_ rfl)
      rw [hh.2.2.1, asInt, toInt32_toInt32]
      exact (totalPartialsC_law _).rd hv hr ht
    | transitions b =>
      simp only [mf12, PhotonProduction.head, Prod.mk.injEq] at hh
      exact Rd.ite_neg (by rw [hh.1]; simp [toInt32]) (Rd.ite_pos (by rw [hh.1]; simp [toInt32]) (Rd.bindPure (transitionC_law.rd hv hr ht) rfl))
  canon := by
    intro b t awr hv ht
    cases b with
    | multiplicities b => exact (totalPartialsC_law _).canon hv ht
    | transitions b => exact transitionC_law.canon hv ht
  reads := fun head t _ => RvK.toReads (RvK.ite (fun _ => RvK.bind ((totalPartialsC_law _).reads t) fun b hb => by
      have := asInt_of_valid (isInt32_toInt32 _) hb
      exact RvK.pure (by show TotalPartials.Ok b; unfold TotalPartials.Ok; rw [this]; exact hb) (by simp [mf12, this])) fun _ =>
    RvK.ite (fun _ => RvK.bind (transitionC_law.reads t) fun b hb => RvK.pure hb (by simp [mf12])) fun _ => RvK.fail (.inl rfl))

/-! ### MF14 -/

/-- section/14.hpp 46-48; IsotropicDiscretePhoton: EG and ES (section/14/IsotropicDiscretePhoton.hpp 10-11) -/
inductive Photon where
  | isotropic (eg es : Dbl)
  | legendre (b : ISeq LIST)
  | tabulated (b : ISeq TAB1)

/-- section/14/IsotropicDiscretePhoton.hpp 55, LegendreDistributions.hpp 60, TabulatedDistributions.hpp 60 -/
def Photon.ltt : Photon → Int
  | .isotropic _ _ => 0
  | .legendre _ => 1
  | .tabulated _ => 2

/-- section/14.hpp 82-87 -/
def Photon.isIso : Photon → Bool
  | .isotropic _ _ => true
  | _ => false

/-- section/14/IsotropicDiscretePhoton/src/print.hpp 11-15, IsotropicDiscretePhoton.hpp 65, and the `print` and `NC` of the others (as in file 4) -/
def photonP : Printer Photon where
  print := fun v t => match v with
    | .isotropic eg es => printCont ⟨eg, es, 0, 0, 0, 0⟩ t
    | .legendre b => legendreC.print b t
    | .tabulated b => tabulatedC.print b t
  nc := fun v => match v with
    | .isotropic _ _ => 1
    | .legendre b => legendreC.nc b
    | .tabulated b => tabulatedC.nc b
  reals := fun v => match v with
    | .isotropic eg es => [eg, es]
    | .legendre b => legendreC.reals b
    | .tabulated b => tabulatedC.reals b

/-- section/14/IsotropicDiscretePhoton: ctor.hpp 16-50 (of the CONT record only C1 and C2 are kept) -/
def isotropicPhotonC : Comp Photon where
  read := fun t => do
    let c ← readCont t
    pure (.isotropic c.c1 c.c2)
  print := photonP.print
  nc := photonP.nc
  Valid := fun v => v.ltt = 0
  reals := photonP.reals

theorem isotropicPhotonC_law : isotropicPhotonC.Law where
  round := by
    intro v t hv hr ht
    cases v with
    | isotropic eg es => exact Rd.bindPure (contC_law.rd (a := ⟨eg, es, 0, 0, 0, 0⟩) ⟨fits0, fits0, fits0, fits0⟩ hr ht) rfl
    | legendre b => cases hv
    | tabulated b => cases hv
  canon := by
    intro v t hv ht
    cases v with
    | isotropic eg es => exact contC_law.canon (a := ⟨eg, es, 0, 0, 0, 0⟩) ⟨fits0, fits0, fits0, fits0⟩ ht
    | legendre b => cases hv
    | tabulated b => cases hv
  reads := fun t => RvK.toReads (RvK.bind (contC_law.reads t) fun c hc => RvK.pure rfl (by simp [isotropicPhotonC, contC, photonP]))

/-- The `switch` of section/14/src/readPhotons.hpp 31-52 (LTT is a `long`), section/14/LegendreDistributions/src/ctor.hpp 38-45,
    TabulatedDistributions/src/ctor.hpp 38-45 -/
def anisotropicC (ltt : Int) : Comp Photon :=
  if ltt = 1 then legendreC.via photonP .legendre
  else if ltt = 2 then tabulatedC.via photonP .tabulated
  else photonP.none

theorem anisotropicC_law (ltt : Int) : (anisotropicC ltt).Law :=
  Comp.ite_law (Comp.via_law legendreC_law (fun _ _ => rfl) (fun _ => rfl) (fun _ => rfl))
    (Comp.ite_law (Comp.via_law tabulatedC_law (fun _ _ => rfl) (fun _ => rfl) (fun _ => rfl)) (Printer.none_law _))

theorem anisotropicC_valid {ltt : Int} {v : Photon} (h : (anisotropicC ltt).Valid v) : v.ltt = ltt ∧ v.isIso = false := by
  unfold anisotropicC at h
  split at h
  · obtain ⟨a, rfl, _⟩ := h; exact ⟨by simp [Photon.ltt, *], rfl⟩
  split at h
  · obtain ⟨a, rfl, _⟩ := h; exact ⟨by simp [Photon.ltt, *], rfl⟩
  · exact h.elim

theorem anisotropicC_print (ltt : Int) :
    (anisotropicC ltt).print = photonP.print ∧ (anisotropicC ltt).nc = photonP.nc ∧ (anisotropicC ltt).reals = photonP.reals := by
  unfold anisotropicC
  split
  · exact ⟨rfl, rfl, rfl⟩
  split <;> exact ⟨rfl, rfl, rfl⟩

/-- section/14.hpp 63-64.  `nk` is kept as the `int` that `NK()` returns for it (section/14.hpp 99-102), and only if there are no photons: otherwise
    it cannot be observed. -/
structure MF14Data where
  nk : Int
  photons : List Photon

namespace MF14Data

/-- section/14.hpp 99-102 -/
def NK (b : MF14Data) : Int := if b.photons = [] then b.nk else asInt b.photons.length
/-- section/14.hpp 82-87 -/
def NI (b : MF14Data) : Int := asInt (b.photons.countP Photon.isIso)
/-- section/14.hpp 113 -/
def LI (b : MF14Data) : Int := if b.photons = [] then 1 else 0
/-- section/14.hpp 123-129 -/
def LTT (b : MF14Data) : Int := match b.photons.getLast? with
  | none => 0
  | some p => p.ltt

end MF14Data

instance (l : List Photon) : Decidable (l = []) := by cases l <;> (first | exact isTrue rfl | exact isFalse (by simp))

/-- section/14/src/readPhotons.hpp 1-57: `reserve( NK )` throws for NK < 0, and it is assumed to throw as well for 2^31 or more photons (more than
    200 GB); `while ( NI-- )` and `while ( NK-- )` with a negative number do not stop before an exception is thrown (each turn reads at least a
    line). -/
def readPhotons (li ni nk ltt : Int) (t : Nums) : Parser (List Photon) :=
  if li ≠ 1 then
    if nk < 0 ∨ 2147483648 ≤ nk then Parser.fail .exc
    else if ni < 0 then Parser.fail .exc
    else do
      let iso ← readSequenceL (isotropicPhotonC.read t) ni
      let rest ← readSequenceL ((anisotropicC ltt).read t) (nk - ni)
      pure (iso ++ rest)
  else pure []

/-- The photons: first the isotropic ones, then the others, which all have the LTT of the section. -/
def photonsOk (b : MF14Data) : Prop :=
  ∃ iso rest, b.photons = iso ++ rest ∧ (∀ x ∈ iso, isotropicPhotonC.Valid x) ∧ ∀ x ∈ rest, (anisotropicC b.LTT).Valid x

/-- section::Type< 14 >: section/14/src/ctor.hpp 68-107, print.hpp 10-23, NC.hpp 4-12 -/
def mf14 : SecDef MF14Data where
  mf := 14
  fixedMT := none
  checksHead := false
  recHeadMAT := true
  head := fun b => (b.LI, b.LTT, b.NK, b.NI)
  read := fun head t => do
    let p ← readPhotons head.base.l1 head.base.n2 head.base.n1 head.base.l2 t
    pure ⟨if p = [] then toInt32 head.base.n1 else 0, p⟩
  body := fun _ b t => b.photons.flatMap (fun x => photonP.print x t)
  nc := fun b => (b.photons.map photonP.nc).sum
  Valid := fun b => IsInt32 b.nk ∧ (b.photons = [] ∨ b.nk = 0) ∧ photonsOk b ∧ (b.photons.length : Int) < 2147483648
  reals := fun b => b.photons.flatMap photonP.reals

theorem isIso_of_ltt {v : Photon} (h : isotropicPhotonC.Valid v) : v.isIso = true := by
  cases v with
  | isotropic _ _ => rfl
  | legendre b => cases h
  | tabulated b => cases h

theorem countP_photons {l : Int} {iso rest : List Photon} (h1 : ∀ x ∈ iso, isotropicPhotonC.Valid x) (h2 : ∀ x ∈ rest, (anisotropicC l).Valid x) :
    (iso ++ rest).countP Photon.isIso = iso.length := by
  rw [List.countP_append, List.countP_eq_length.mpr (fun x hx => isIso_of_ltt (h1 x hx)),
    List.countP_eq_zero.mpr (fun x hx => by simp [(anisotropicC_valid (h2 x hx)).2]), Nat.add_zero]

theorem photon_canon {l : Int} {iso rest : List Photon} {t : Nums} (h1 : ∀ x ∈ iso, isotropicPhotonC.Valid x)
    (h2 : ∀ x ∈ rest, (anisotropicC l).Valid x) (ht : t.Fit) :
    CanonicalText t ((iso ++ rest).map photonP.nc).sum ((iso ++ rest).flatMap (fun x => photonP.print x t)) := by
  refine CanonicalText.flatMap (nc := photonP.nc) fun x hx => ?_
  rcases List.mem_append.mp hx with hx | hx
  · exact isotropicPhotonC_law.canon (h1 x hx) ht
  · have := (anisotropicC_law l).canon (h2 x hx) ht
    rw [(anisotropicC_print l).1, (anisotropicC_print l).2.1] at this
    exact this

theorem ltt_range (b : MF14Data) : fits 11 b.LTT := by
  unfold MF14Data.LTT
  split
  · decide
  · rename_i p _
    cases p
    · show fits 11 0; decide
    · show fits 11 1; decide
    · show fits 11 2; decide

theorem ltt_append {iso rest : List Photon} {l n : Int} (h1 : ∀ x ∈ iso, isotropicPhotonC.Valid x) (h2 : ∀ x ∈ rest, (anisotropicC l).Valid x) :
    ∀ x ∈ rest, (anisotropicC (MF14Data.LTT ⟨n, iso ++ rest⟩)).Valid x := by
  intro x hx
  have hne : rest ≠ [] := by rintro rfl; cases hx
  have : MF14Data.LTT ⟨n, iso ++ rest⟩ = l := by
    unfold MF14Data.LTT
    simp only [List.getLast?_append, List.getLast?_eq_some_getLast hne, Option.some_or]
    exact (anisotropicC_valid (h2 _ (List.getLast_mem hne))).1
  rw [this]; exact h2 x hx

theorem readPhotons_reads (li ni nk ltt : Int) (t : Nums) :
    Reads StdErr (fun p ls => ((∃ iso rest, p = iso ++ rest ∧ (∀ x ∈ iso, isotropicPhotonC.Valid x) ∧ ∀ x ∈ rest, (anisotropicC ltt).Valid x) ∧
      (p.length : Int) < 2147483648) ∧ AllTail t ls ∧ ls.length = (p.map photonP.nc).sum) (readPhotons li ni nk ltt t) :=
  RvK.toReads (RvK.ite (fun _ => RvK.ite (fun _ => RvK.fail rfl) fun h1 => RvK.ite (fun _ => RvK.fail rfl) fun h2 =>
      RvK.seqL isotropicPhotonC_law fun iso i1 i2 => RvK.seqL (anisotropicC_law ltt) fun rest r1 r2 =>
        RvK.pure ⟨⟨iso, rest, rfl, i2, r2⟩, by simp; omega⟩ (by rw [(anisotropicC_print ltt).2.1]; simp [isotropicPhotonC]))
    fun _ => RvK.pure ⟨⟨[], [], rfl, by simp, by simp⟩, by simp⟩ (by simp))

theorem mf14_law : mf14.Law where
  mf_pos := by simp [mf14]
  mt_fits := by simp [mf14]
  head_fits := by
    rintro b ⟨v1, v2, v3, v4⟩
    refine ⟨?_, ltt_range b, ?_, fits_asInt _⟩
    · show fits 11 b.LI
      unfold MF14Data.LI; split <;> decide
    · show fits 11 b.NK
      unfold MF14Data.NK; split
      · exact fits_of_int32 v1
      · exact fits_asInt _
  round := by
    rintro ⟨nk, photons⟩ t awr head ⟨v1, v2, ⟨iso, rest, h0, h1, h2⟩, v4⟩ ha hr ht hh _
    simp only at h0 v2
    subst h0
    simp only [mf14, Prod.mk.injEq] at hh
    refine Rd.bindPure (a := iso ++ rest) ?_ ?_
    · by_cases he : iso ++ rest = []
      · refine Rd.ite_neg (by rw [hh.1]; simp [MF14Data.LI, he]) ?_
        show Rd _ ((iso ++ rest).flatMap _) _ (((iso ++ rest).map _).sum)
        rw [he]; exact Rd.pure _
      · have e1 : head.base.n1 = (iso ++ rest).length := by
          rw [hh.2.2.1]; simp only [MF14Data.NK, if_neg he]; exact toInt32_nat v4
        have e2 : head.base.n2 = iso.length := by
          rw [hh.2.2.2]; simp only [MF14Data.NI, countP_photons h1 h2]
          simp only [List.length_append] at v4
          exact toInt32_nat (by omega)
        simp only [List.length_append] at v4 e1
        refine Rd.ite_pos (by rw [hh.1]; simp [MF14Data.LI, he]) (Rd.ite_neg (by omega) (Rd.ite_neg (by omega) ?_))
        have hr := reps_flatMap.mp hr
        refine Rd.bind' (Rd.seqL e2 (pr := fun x => photonP.print x t) fun x hx => isotropicPhotonC_law.rd (h1 x hx) (hr x (List.mem_append_left _ hx)) ht)
          (Rd.bindPure (Rd.seqL (xs := rest) (pr := fun x => photonP.print x t) (nc := photonP.nc) (by rw [e1, e2]; omega) fun x hx => ?_) rfl)
          (by simp [mf14]) (by simp [mf14, isotropicPhotonC])
        have := (anisotropicC_law (MF14Data.LTT ⟨nk, iso ++ rest⟩)).rd (h2 x hx)
          (by rw [(anisotropicC_print _).2.2]; exact hr x (List.mem_append_right _ hx)) ht
        rw [(anisotropicC_print _).1, (anisotropicC_print _).2.1] at this
        rw [hh.2.1]; exact this
    · by_cases he : iso ++ rest = []
      · rw [if_pos he, hh.2.2.1]; simp only [MF14Data.NK, if_pos he, toInt32_of v1]
      · rw [if_neg he, v2.resolve_left he]
  canon := by
    rintro ⟨nk, photons⟩ t awr ⟨v1, v2, ⟨iso, rest, h0, h1, h2⟩, v4⟩ ht
    simp only at h0
    subst h0
    exact photon_canon h1 h2 ht
  reads := fun head t _ => RvK.toReads (RvK.bind (readPhotons_reads _ _ _ _ t) fun p ⟨⟨iso, rest, h0, h1, h2⟩, h3⟩ => by
    refine RvK.pure ⟨?_, ?_, ⟨iso, rest, h0, h1, ?_⟩, h3⟩ (by simp [mf14])
    · simp only
      split
      · exact isInt32_toInt32 _
      · decide
    · by_cases he : p = [] <;> simp [he]
    · subst h0; exact ltt_append h1 h2)

/-! ### MF15 -/

/-- section/15/PartialDistribution.hpp 7-8: the probability (a TAB1 record, section/5/Probability/src/ctor.hpp) and the tabulated spectrum of file 5 -/
abbrev Partial15 := TAB1 × ISeq TAB1

/-- section/15/PartialDistribution: readPartialDistribution.hpp 1-24 (`LF` is an `int`, section/5/Probability.hpp 34), verifyLF.hpp 1-16, ctor.hpp 7-36,
    print.hpp 11-16, NC.hpp 4 -/
def partial15C : Comp Partial15 := (tab1C.checked (fun p => toInt32 p.base.l2 = 1)).andThen (fun _ => tabulatedC)

theorem partial15C_law : partial15C.Law := Comp.andThen_law (Comp.checked_law tab1C_law _) fun _ => tabulatedC_law

/-- section::Type< 15 >: section/15/src/ctor.hpp 35-52, section/5/src/verifyNK.hpp 1-10, section/5/src/print.hpp 10-18, NC.hpp 4-9,
    section/15.hpp 56 (`NK()` as `int`) -/
def mf15 : SecDef (List Partial15) where
  mf := 15
  fixedMT := none
  head := fun b => (0, 0, asInt b.length, 0)
  read := fun head t => do
    let b ← readSequence (partial15C.read t) head.base.n1
    if asInt b.length = 0 then Parser.fail .exc else pure b
  body := fun _ b t => b.flatMap (fun x => partial15C.print x t)
  nc := fun b => (b.map partial15C.nc).sum
  Valid := fun b => (∀ x ∈ b, partial15C.Valid x) ∧ (b.length : Int) = asInt b.length ∧ asInt b.length ≠ 0
  reals := fun b => b.flatMap partial15C.reals

theorem mf15_law : mf15.Law where
  mf_pos := by simp [mf15]
  mt_fits := by simp [mf15]
  head_fits := fun _ => ⟨fits0, fits0, fits_asInt _, fits0⟩
  round := by
    rintro b t awr head ⟨v1, v2, v3⟩ ha hr ht hh _
    simp only [mf15, Prod.mk.injEq] at hh
    refine Rd.bindPure (Rd.seq (pr := fun x => partial15C.print x t) ?_ fun x hx => partial15C_law.rd (v1 x hx) (reps_flatMap.mp hr x hx) ht) (if_neg v3)
    rw [hh.2.2.1]; exact toInt32_asInt v2
  canon := fun _ hv ht => partial15C_law.flatMap hv.1 ht
  reads := fun head t _ => RvK.toReads (RvK.seq partial15C_law fun xs h1 h2 => RvK.ite (fun _ => RvK.fail rfl) fun h3 =>
    RvK.pure ⟨h2, asInt_of_count h1, h3⟩ (by simp [mf15]))

/-! ### MF26 -/

/-- section/26.hpp 52-54 -/
inductive Law26 where
  | continuum (b : ISeq LIST)
  | twoBody (b : ISeq LIST)
  | transfer (b : TAB1)

/-- section/26/ContinuumEnergyAngle.hpp 39, DiscreteTwoBodyScattering.hpp 34, EnergyTransfer.hpp 22 -/
def Law26.law : Law26 → Int
  | .continuum _ => 1
  | .twoBody _ => 2
  | .transfer _ => 8

/-- section/26/ContinuumEnergyAngle/src/readSequence.hpp 1-30 (only LANG = 1; for another LANG the code throws before it reads the LIST record),
    section/6/ContinuumEnergyAngle/LegendreCoefficients/src/ctor.hpp 43-52, verifyLANG.hpp 1-18 (always satisfied) -/
def continuum26ElemC (r : TAB2) : Comp LIST := (if r.l1 = 1 then listC else listC.checked (fun _ => False)).checkedE (continuumCheck 1)

/-- The TAB2 record and the elements: section/26/ContinuumEnergyAngle/src/ctor.hpp 12-18, 51-91, section/6/ContinuumEnergyAngle/src/print.hpp 11-15.
    For an unknown LANG the code throws even if there is no element to read; then there would be an exception as well
    (`InterpolationSequenceRecord` requires at least one element). -/
def continuum26C : Comp (ISeq LIST) := iseqD continuum26ElemC

/-- section/6/DiscreteTwoBodyScattering/TabulatedDistribution/src/ctor.hpp 12-17, verifyLANG.hpp 1-11, verifySize.hpp 1-12 -/
def twoBody26Ok (l : LIST) : Prop := (toInt32 l.l1 = 12 ∨ toInt32 l.l1 = 14) ∧ toInt32 l.npl = 2 * toInt32 l.n2

instance (l : LIST) : Decidable (twoBody26Ok l) := by unfold twoBody26Ok; exact inferInstance

/-- 2 * NL overflows: section/6/DiscreteTwoBodyScattering/TabulatedDistribution/src/verifySize.hpp 4 -/
def twoBody26Ov (l : LIST) : Prop := (toInt32 l.l1 = 12 ∨ toInt32 l.l1 = 14) ∧ Over (2 * toInt32 l.n2)

instance : DecidablePred twoBody26Ov := fun l => by unfold twoBody26Ov; exact inferInstance

/-- section/26/DiscreteTwoBodyScattering: ctor.hpp 13-15, 44-85 (the count is converted to `int` by readSequence.hpp),
    section/6/DiscreteTwoBodyScattering/src/print.hpp -/
def twoBody26C : Comp (ISeq LIST) := iseqC (listC.checked twoBody26Ok twoBody26Ov)

/-- The `print` and `NC` of the alternatives -/
def law26P : Printer Law26 where
  print := fun v t => match v with
    | .continuum b => continuum26C.print b t
    | .twoBody b => twoBody26C.print b t
    | .transfer b => b.print t
  nc := fun v => match v with
    | .continuum b => continuum26C.nc b
    | .twoBody b => twoBody26C.nc b
    | .transfer b => b.nc
  reals := fun v => match v with
    | .continuum b => continuum26C.reals b
    | .twoBody b => twoBody26C.reals b
    | .transfer b => tab1C.reals b

/-- section/26/ReactionProduct/src/readDistribution.hpp 1-25 (LAW is an `int`); EnergyTransfer is a TAB1 record (EnergyTransfer/src/ctor.hpp 37-45) -/
def law26C (law : Int) : Comp Law26 :=
  if law = 1 then continuum26C.via law26P .continuum
  else if law = 2 then twoBody26C.via law26P .twoBody
  else if law = 8 then tab1C.via law26P .transfer
  else law26P.none

/-- section/26/ReactionProduct.hpp 14-15; the multiplicity is a TAB1 record (section/26/Multiplicity/src/ctor.hpp 41-49) -/
structure Product26 where
  multiplicity : TAB1
  dist : Law26

/-- section/26/ReactionProduct: section/6/ReactionProduct/src/ctor.hpp 7-51, verifyLAW.hpp 1-10, print.hpp 11-17, section/26/ReactionProduct.hpp 66-69 -/
def product26C : Comp Product26 where
  read := fun t => do
    let m ← readTAB1 t
    let d ← (law26C (toInt32 m.base.l2)).read t
    if toInt32 m.base.l2 ≠ d.law then Parser.fail .exc else pure ⟨m, d⟩
  print := fun b t => b.multiplicity.print t ++ law26P.print b.dist t
  nc := fun b => b.multiplicity.nc + law26P.nc b.dist
  Valid := fun b => b.multiplicity.Fits ∧ toInt32 b.multiplicity.base.l2 = b.dist.law ∧ (law26C b.dist.law).Valid b.dist
  reals := fun b => tab1C.reals b.multiplicity ++ law26P.reals b.dist

/-- section::Type< 26 >: section/26/src/ctor.hpp 33-50, print.hpp 10-18, NC.hpp 4-9, section/26.hpp 75 (`NK()` as `int`) -/
def mf26 : SecDef (List Product26) where
  mf := 26
  fixedMT := none
  head := fun b => (0, 0, asInt b.length, 0)
  read := fun head t => readSequence (product26C.read t) head.base.n1
  body := fun _ b t => b.flatMap (fun x => product26C.print x t)
  nc := fun b => (b.map product26C.nc).sum
  Valid := fun b => (∀ x ∈ b, product26C.Valid x) ∧ (b.length : Int) = asInt b.length
  reals := fun b => b.flatMap product26C.reals

theorem continuum26C_law : continuum26C.Law UbErr := by
  refine iseqD_law fun r => ?_
  have he : ∀ a e, continuumCheck 1 a = .error e → UbErr e := by
    intro a e h
    unfold continuumCheck at h
    split at h
    · cases h
    split at h
    · cases h; exact .inr rfl
    split at h
    · cases h; exact .inl rfl
    split at h
    · cases h; exact .inr rfl
    split at h
    · cases h; exact .inl rfl
    split at h
    · cases h; exact .inl rfl
    · cases h
  unfold continuum26ElemC
  split
  · exact Comp.checkedE_law (E1 := StdErr) listC_law _ he
  · exact Comp.checkedE_law (E1 := StdErr) (Comp.checked_law listC_law _) _ he

theorem twoBody26C_law : twoBody26C.Law UbErr := iseqC_law (Comp.checked_lawU (E1 := StdErr) listC_law _)

theorem law26C_law (l : Int) : (law26C l).Law UbErr :=
  Comp.ite_law (Comp.via_law (E1 := UbErr) continuum26C_law (fun _ _ => rfl) (fun _ => rfl) (fun _ => rfl))
    (Comp.ite_law (Comp.via_law (E1 := UbErr) twoBody26C_law (fun _ _ => rfl) (fun _ => rfl) (fun _ => rfl))
      (Comp.ite_law (Comp.via_law (E1 := StdErr) tab1C_law (fun _ _ => rfl) (fun _ => rfl) (fun _ => rfl)) (Printer.none_law _)))

theorem law26C_print (l : Int) : (law26C l).print = law26P.print ∧ (law26C l).nc = law26P.nc ∧ (law26C l).reals = law26P.reals := by
  unfold law26C
  split
  · exact ⟨rfl, rfl, rfl⟩
  split
  · exact ⟨rfl, rfl, rfl⟩
  split <;> exact ⟨rfl, rfl, rfl⟩

theorem product26C_law : product26C.Law UbErr where
  round := by
    rintro a t ⟨v1, v2, v3⟩ hr ht
    obtain ⟨r1, r2⟩ := reps_append.mp hr
    refine Rd.bind (tab1C_law.rd v1 r1 ht) (Rd.bindPure (a := a.dist) ?_ (if_neg (not_not_intro v2)))
    have := (law26C_law a.dist.law).rd v3 (by rw [(law26C_print _).2.2]; exact r2) ht
    rw [(law26C_print _).1, (law26C_print _).2.1] at this
    rw [v2]; exact this
  canon := by
    rintro a t ⟨v1, v2, v3⟩ ht
    have := (law26C_law a.dist.law).canon v3 ht
    rw [(law26C_print _).1, (law26C_print _).2.1] at this
    exact (tab1C_law.canon v1 ht).append this
  reads := fun t => RvK.toReads (RvK.bind (tab1C_law.reads t) fun m hm => RvK.bind ((law26C_law _).reads t) fun d hd =>
    RvK.ite (fun _ => RvK.fail (.inl rfl)) fun h => by
      have h : toInt32 m.base.l2 = d.law := by simpa using h
      rw [h] at hd
      exact RvK.pure ⟨hm, h, hd⟩ (by rw [(law26C_print _).2.1]; simp [product26C, tab1C]))

theorem mf26_law : mf26.Law UbErr where
  mf_pos := by simp [mf26]
  mt_fits := by simp [mf26]
  head_fits := fun _ => ⟨fits0, fits0, fits_asInt _, fits0⟩
  round := by
    rintro b t awr head ⟨v1, v2⟩ ha hr ht hh _
    simp only [mf26, Prod.mk.injEq] at hh
    refine Rd.seq (pr := fun x => product26C.print x t) ?_ fun x hx => product26C_law.rd (v1 x hx) (reps_flatMap.mp hr x hx) ht
    rw [hh.2.2.1]; exact toInt32_asInt v2
  canon := fun _ hv ht => product26C_law.flatMap hv.1 ht
  reads := fun head t _ => ((seqC_law product26C_law _).reads t).post (by
    rintro b ls ⟨h1, h2⟩
    exact ⟨⟨h1.2, asInt_of_count h1.1.symm⟩, h2⟩)

/-! ### MF28 -/

/-- section/28/SubshellData/src/ctor.hpp 6-10, verifySize.hpp 1-12 (NTR is an `unsigned int` converted to `int`) -/
def subshellOk (l : LIST) : Prop := toInt32 l.npl = (toInt32 l.n2 + 1) * 6

instance (l : LIST) : Decidable (subshellOk l) := by unfold subshellOk; exact inferInstance

/-- NTR + 1 or ( NTR + 1 ) * 6 overflows: section/28/SubshellData/src/verifySize.hpp 4 -/
def subshellOv (l : LIST) : Prop := Over (toInt32 l.n2 + 1) ∨ Over ((toInt32 l.n2 + 1) * 6)

instance : DecidablePred subshellOv := fun l => by unfold subshellOv; exact inferInstance

/-- section/28/SubshellData: SubshellData/src/ctor.hpp 55-63 -/
def subshellC : Comp LIST := listC.checked subshellOk subshellOv

/-- section::Type< 28 >: section/28/src/ctor.hpp 32-50, print.hpp 10-21, NC.hpp 4-12 -/
def mf28 : SecDef (List LIST) where
  mf := 28
  fixedMT := none
  checksHead := false
  head := fun b => (0, 0, b.length, 0)
  read := fun head t => (seqC subshellC head.base.n1).read t
  body := fun _ b t => b.flatMap (fun x => x.print t)
  nc := fun b => (b.map LIST.nc).sum
  Valid := fun b => (∀ x ∈ b, subshellC.Valid x) ∧ (b.length : Int) < 2147483648
  reals := fun b => b.flatMap listC.reals

theorem subshellC_law : subshellC.Law UbErr := Comp.checked_lawU (E1 := StdErr) listC_law _

theorem mf28_law : mf28.Law UbErr where
  mf_pos := by simp [mf28]
  mt_fits := by simp [mf28]
  head_fits := fun hv => ⟨fits0, fits0, fits_nat hv.2, fits0⟩
  round := by
    rintro b t awr head ⟨v1, v2⟩ ha hr ht hh _
    simp only [mf28, Prod.mk.injEq] at hh
    exact (seqC_law subshellC_law _).rd ⟨by rw [hh.2.2.1]; exact toInt32_nat v2, v1⟩ hr ht
  canon := fun _ hv ht => subshellC_law.flatMap hv.1 ht
  reads := fun head t _ => ((seqC_law subshellC_law _).reads t).post (by
    rintro b ls ⟨h1, h2⟩
    exact ⟨⟨h1.2, lt_of_count h1.1.symm⟩, h2⟩)

end ENDFtk

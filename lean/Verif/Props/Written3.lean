import Verif.Props.Written2
import Verif.Props.CovGetters5
import Verif.Props.Records
/-
  C68 for file 32.
-/
set_option linter.unusedVariables false
set_option linter.unusedSectionVars false
set_option linter.unusedSimpArgs false
namespace ENDFtk.Props
open ENDFtk

section
variable [Disco]

theorem no_other_length {α : Type} {cs : List (List α)} {n : Nat} (h : ¬∃ c ∈ cs, c.length ≠ n) : ∀ c ∈ cs, c.length = n := fun c hc => by
  apply Decidable.byContradiction; intro hn; exact h ⟨c, hc, hn⟩

/-- LCOMP = 0: [AWRI, 0, L, 0, 18 NRS, NRS / ER, AJ, GT, GN, GG, GF, DE2, DN2, DNDG, DG2, DNDF, DGDF, DF2, DJDN, DJDG, DJDF, DJ2, 0].
    If the array DJDF is longer than the others the rest of it is not used. -/
theorem C68_limited {awri : Dbl} {l : Int} {er aj gt gn gg gf de2 dn2 dndg dg2 dndf dgdf df2 djdn djdg djdf dj2 : List Dbl} {r : LIST}
    (h : LimitedBreitWignerLValue.make awri l er aj gt gn gg gf de2 dn2 dndg dg2 dndf dgdf df2 djdn djdg djdf dj2 = .ok r) :
    Head r awri Disco.zero l 0 (18 * er.length) er.length ∧
    Table r.data er.length [er, aj, gt, gn, gg, gf, de2, dn2, dndg, dg2, dndf, dgdf, df2, djdn, djdg, djdf.take er.length, dj2,
      List.replicate er.length Disco.zero] := by
  unfold LimitedBreitWignerLValue.make at h
  simp only [] at h
  split at h
  · cases h
  split at h
  · cases h
  rename_i hs hd
  have hs := no_other_length hs
  obtain ⟨rfl, _⟩ := verified_ok h
  have e : rows er.length [er, aj, gt, gn, gg, gf, de2, dn2, dndg, dg2, dndf, dgdf, df2, djdn, djdg, djdf, dj2, List.replicate er.length Disco.zero] =
      rows er.length [er, aj, gt, gn, gg, gf, de2, dn2, dndg, dg2, dndf, dgdf, df2, djdn, djdg, djdf.take er.length, dj2,
        List.replicate er.length Disco.zero] := by
    unfold rows
    simp only [List.flatMap_def]
    congr 1
    refine List.map_congr_left fun i hi => ?_
    have : (djdf.take er.length).getD i Disco.zero = djdf.getD i Disco.zero := by
      rw [List.getD_eq_getElem?_getD, List.getD_eq_getElem?_getD, List.getElem?_take_of_lt (List.mem_range.mp hi)]
    simp only [List.map_cons, List.map_nil, this]
  have t : Table (rows er.length [er, aj, gt, gn, gg, gf, de2, dn2, dndg, dg2, dndf, dgdf, df2, djdn, djdg, djdf, dj2,
      List.replicate er.length Disco.zero]) er.length [er, aj, gt, gn, gg, gf, de2, dn2, dndg, dg2, dndf, dgdf, df2, djdn, djdg, djdf.take er.length, dj2,
      List.replicate er.length Disco.zero] := by
    rw [e]
    refine table_rows ?_
    have hm : (djdf.take er.length).length = er.length := by simp; omega
    have hz : (List.replicate er.length (Disco.zero : Dbl)).length = er.length := by simp
    intro c hc
    simp only [List.mem_cons, List.not_mem_nil, or_false] at hc
    rcases hc with rfl | rfl | rfl | rfl | rfl | rfl | rfl | rfl | rfl | rfl | rfl | rfl | rfl | rfl | rfl | rfl | rfl | rfl
    all_goals first
      | rfl
      | exact hm
      | exact hz
      | exact hs _ (by simp)
  exact ⟨⟨rfl, rfl, rfl, rfl, by have := t.1; simp only [List.length_cons, List.length_nil] at this ⊢; omega, rfl⟩, t⟩

theorem shortRange_written {mpar : Int} {er aj a b c d v : List Dbl} {r : LIST} (h : ShortRangeBlock.make mpar er aj a b c d v = .ok r) :
    Head r Disco.zero Disco.zero mpar 0 (6 * er.length + v.length) er.length ∧
    ∃ t, r.data = t ++ v ∧ Table t er.length [er, aj, a, b, c, d] := by
  unfold ShortRangeBlock.make at h
  simp only [] at h
  split at h
  · cases h
  rename_i hs
  have hs := no_other_length hs
  obtain ⟨rfl, _⟩ := verified_ok h
  have t : Table (rows er.length [er, aj, a, b, c, d]) er.length [er, aj, a, b, c, d] := table_rows (by simp at hs ⊢; omega)
  exact ⟨⟨rfl, rfl, rfl, rfl, by have := t.1; simp at this ⊢; omega, rfl⟩, _, rfl, t⟩

/-- LCOMP = 1, LRF = 1, 2: [0, 0, MPAR, 0, NVS + 6 NRB, NRB / ER, AJ, GT, GN, GG, GF, ..., V(1,1), ...] -/
theorem C68_shortRangeBreitWigner {mpar : Int} {er aj gt gn gg gf v : List Dbl} {r : LIST} (h : ShortRangeBreitWignerBlock.make mpar er aj gt gn gg gf v = .ok r) :
    Head r Disco.zero Disco.zero mpar 0 (6 * er.length + v.length) er.length ∧
    ∃ t, r.data = t ++ v ∧ Table t er.length [er, aj, gt, gn, gg, gf] := shortRange_written h

/-- LCOMP = 1, LRF = 3 -/
theorem C68_shortRangeReichMoore {mpar : Int} {er aj gn gg gfa gfb v : List Dbl} {r : LIST} (h : ShortRangeReichMooreBlock.make mpar er aj gn gg gfa gfb v = .ok r) :
    Head r Disco.zero Disco.zero mpar 0 (6 * er.length + v.length) er.length ∧
    ∃ t, r.data = t ++ v ∧ Table t er.length [er, aj, gn, gg, gfa, gfb] := shortRange_written h

/-- Upper triangles of covariance matrices: [0, 0, MPAR, 0, N (N + 1) / 2, N / V11, V12, ...], for fewer than 2^29 - 1 values -/
theorem C68_triangularMatrix {mpar : Int} {v : List Dbl} {r : LIST} (h : TriangularMatrix.make mpar v = .ok r) (hs : v.length < 2 ^ 29 - 1) :
    ∃ n : Nat, 1 ≤ n ∧ 2 * v.length = n * (n + 1) ∧ Head r Disco.zero Disco.zero mpar 0 v.length n ∧ r.data = v := by
  obtain ⟨n, h1, h2, _⟩ := (C60_triangularMatrix h).2.2.1 hs
  obtain ⟨rfl, _⟩ := verified_ok h
  exact ⟨n, h1, h2, ⟨rfl, rfl, rfl, rfl, rfl, by rw [order_eq h2 hs]⟩, rfl⟩

/-- LCOMP = 1, LRF = 7: [0, 0, NCH, NRB, 6 NX, NX / ER, GAM1, ..., GAMNCH, 0, ...] -/
theorem C68_shortRangeParameters {er : List Dbl} {gam : List (List Dbl)} {r : LIST} (h : ShortRangeParameters.make er gam = .ok r) :
    ∃ nch nx : Int, (∀ g ∈ gam, (g.length : Int) = nch) ∧ Head r Disco.zero Disco.zero nch er.length (6 * nx) nx ∧
      Stack r.data er.length (ResonanceRow er gam) := by
  unfold ShortRangeParameters.make at h
  simp only [] at h
  split at h
  · cases h
  split at h
  · cases h
  split at h
  · cases h
  rename_i h1 h0 h2
  simp only [Decidable.not_not] at h1
  obtain ⟨rfl, _⟩ := verified_ok h
  have hp := padding_fills (gam.headD []).length
  have h2 := no_other_length h2
  obtain ⟨a, b⟩ := rmlParameters_written h1 h0 h2
  refine ⟨_, _, fun g hg => by rw [h2 g hg], ⟨rfl, rfl, rfl, rfl, ?_, rfl⟩, a⟩
  simp only [b]
  have : 6 ∣ er.length * (1 + (gam.headD []).length + ResonanceParameters.padding (gam.headD []).length) :=
    Nat.dvd_trans (Nat.dvd_of_mod_eq_zero hp.2) (Nat.dvd_mul_left _ _)
  have e := Nat.div_mul_cancel this
  have : ((er.length * (1 + (gam.headD []).length + ResonanceParameters.padding (gam.headD []).length) : Nat) : Int) =
      ((er.length * (1 + (gam.headD []).length + ResonanceParameters.padding (gam.headD []).length) / 6 * 6 : Nat) : Int) := by rw [e]
  rw [this]; push_cast; omega

/-- LCOMP = 2, LRF = 1, 2: [AWRI, QX, 0, LRX, 12 NRSA, NRSA / ER, AJ, GT, GN, GG, GF, DER, 0, 0, DGN, DGG, DGF] -/
theorem C68_compactBreitWigner {awri qx : Dbl} {lrx : Bool} {er aj gt gn gg gf der dgn dgg dgf : List Dbl} {r : LIST}
    (h : CompactBreitWignerUncertainties.make awri qx lrx er aj gt gn gg gf der dgn dgg dgf = .ok r) :
    Head r awri qx 0 (if lrx then 1 else 0) (12 * er.length) er.length ∧
    Table r.data er.length [er, aj, gt, gn, gg, gf, der, List.replicate er.length Disco.zero, List.replicate er.length Disco.zero, dgn, dgg, dgf] := by
  unfold CompactBreitWignerUncertainties.make at h
  simp only [] at h
  split at h
  · cases h
  rename_i hs
  have hs := no_other_length hs
  obtain ⟨rfl, _⟩ := verified_ok h
  have t : Table (rows er.length [er, aj, gt, gn, gg, gf, der, List.replicate er.length Disco.zero, List.replicate er.length Disco.zero, dgn, dgg, dgf])
      er.length [er, aj, gt, gn, gg, gf, der, List.replicate er.length Disco.zero, List.replicate er.length Disco.zero, dgn, dgg, dgf] :=
    table_rows (by simp at hs ⊢; omega)
  exact ⟨⟨rfl, rfl, rfl, by cases lrx <;> rfl, by have := t.1; simp at this ⊢; omega, rfl⟩, t⟩

/-- LCOMP = 2, LRF = 3: [AWRI, APL, 0, 0, 12 NRSA, NRSA / ER, AJ, GN, GG, GFA, GFB, DER, 0, DGN, DGG, DGFA, DGFB] -/
theorem C68_compactReichMoore {awri apl : Dbl} {er aj gn gg gfa gfb der dgn dgg dgfa dgfb : List Dbl} {r : LIST}
    (h : CompactReichMooreUncertainties.make awri apl er aj gn gg gfa gfb der dgn dgg dgfa dgfb = .ok r) :
    Head r awri apl 0 0 (12 * er.length) er.length ∧
    Table r.data er.length [er, aj, gn, gg, gfa, gfb, der, List.replicate er.length Disco.zero, dgn, dgg, dgfa, dgfb] := by
  unfold CompactReichMooreUncertainties.make at h
  simp only [] at h
  split at h
  · cases h
  rename_i hs
  have hs := no_other_length hs
  obtain ⟨rfl, _⟩ := verified_ok h
  have t : Table (rows er.length [er, aj, gn, gg, gfa, gfb, der, List.replicate er.length Disco.zero, dgn, dgg, dgfa, dgfb])
      er.length [er, aj, gn, gg, gfa, gfb, der, List.replicate er.length Disco.zero, dgn, dgg, dgfa, dgfb] := table_rows (by simp at hs ⊢; omega)
  exact ⟨⟨rfl, rfl, rfl, rfl, by have := t.1; simp at this ⊢; omega, rfl⟩, t⟩

/-- LCOMP = 2, LRF = 7: [0, 0, NPP, NJSX, 12 NPP, 2 NPP / MA, MB, ZA, ZB, IA, IB, Q, PNT, SHF, MT, PA, PB] -/
theorem C68_compactParticlePairs {njsx : Int} {ma mb za zb ia ib pa pb q : List Dbl} {pnt shf mt : List Int} {r : LIST}
    (h : CompactParticlePairs.make njsx ma mb za zb ia ib pa pb q pnt shf mt = .ok r) :
    Head r Disco.zero Disco.zero ma.length njsx (12 * ma.length) (2 * ma.length) ∧
    Table r.data ma.length [ma, mb, za, zb, ia, ib, q, pnt.map Disco.ofInt, shf.map Disco.ofInt, mt.map Disco.ofInt, pa, pb] := by
  unfold CompactParticlePairs.make at h
  simp only [] at h
  split at h
  · cases h
  rename_i hs
  obtain ⟨rfl, _⟩ := verified_ok h
  have t : Table (rows ma.length [ma, mb, za, zb, ia, ib, q, ofInts pnt, ofInts shf, ofInts mt, pa, pb]) ma.length
      [ma, mb, za, zb, ia, ib, q, ofInts pnt, ofInts shf, ofInts mt, pa, pb] := table_rows (by simp [ofInts_length'] at hs ⊢; omega)
  exact ⟨⟨rfl, rfl, rfl, rfl, by have := t.1; simp at this ⊢; omega, rfl⟩, t⟩

/-- For each resonance a set of lines with the energy and the parameters and a set of lines with their uncertainties; both end with `k` zeros. -/
def UncertaintyRow (er : List Dbl) (gam : List (List Dbl)) (der : List Dbl) (dgam : List (List Dbl)) (k i : Nat) (r : List Dbl) : Prop :=
  ∃ e g d dg, er[i]? = some e ∧ gam[i]? = some g ∧ der[i]? = some d ∧ dgam[i]? = some dg ∧
    r = (e :: g ++ List.replicate k Disco.zero) ++ (d :: dg ++ List.replicate k Disco.zero)

/-- LCOMP = 2, LRF = 7: [0, 0, 0, NRSA, 12 NX, NX / ER, GAM1, ..., GAMNCH, 0, ..., DER, DGAM1, ..., DGAMNCH, 0, ...] (NX is the number of lines of the
    parameters; the code does not verify the sizes of the arrays in DGAM) -/
theorem C68_compactParameters {er der : List Dbl} {gam dgam : List (List Dbl)} {r : LIST} (h : CompactParameters.make er gam der dgam = .ok r)
    (hd : ∀ g ∈ gam, ∀ dg ∈ dgam, dg.length = g.length) :
    ∃ nch k nx : Nat, k < 6 ∧ 6 * nx = er.length * (1 + nch + k) ∧ (1 + nch + k) % 6 = 0 ∧ (∀ g ∈ gam, g.length = nch) ∧
      Head r Disco.zero Disco.zero 0 er.length (12 * nx) nx ∧ Stack r.data er.length (UncertaintyRow er gam der dgam k) := by
  unfold CompactParameters.make at h
  simp only [] at h
  split at h
  · cases h
  split at h
  · cases h
  split at h
  · cases h
  rename_i h1 h0 h2
  simp only [not_or, Decidable.not_not] at h1
  have h2 := no_other_length h2
  obtain ⟨rfl, _⟩ := verified_ok h
  have hp := padding_fills (gam.headD []).length
  have hz : (List.zip (List.zip er gam) (List.zip der dgam)).length = er.length := by simp; omega
  have hst := stack_flatMap (List.zip (List.zip er gam) (List.zip der dgam))
    (fun r => (r.1.1 :: r.1.2 ++ List.replicate (ResonanceParameters.padding (gam.headD []).length) Disco.zero) ++
      (r.2.1 :: r.2.2 ++ List.replicate (ResonanceParameters.padding (gam.headD []).length) Disco.zero))
    (row := fun i r => UncertaintyRow er gam der dgam (ResonanceParameters.padding (gam.headD []).length) i r ∧
      r.length = 2 * (1 + (gam.headD []).length + ResonanceParameters.padding (gam.headD []).length)) (fun i a ha => by
    obtain ⟨⟨x, y⟩, u, v⟩ := a
    simp only [List.getElem?_zip_eq_some] at ha
    have m1 := List.mem_iff_getElem?.mpr ⟨i, ha.1.2⟩
    have m2 := List.mem_iff_getElem?.mpr ⟨i, ha.2.2⟩
    have l1 := h2 _ m1
    have l2 := hd _ m1 _ m2
    exact ⟨⟨x, y, u, v, ha.1.1, ha.1.2, ha.2.1, ha.2.2, rfl⟩, by simp only [List.length_append, List.length_cons, List.length_replicate]; omega⟩)
  have hlen := stack_length hst (fun _ _ h => h.2)
  rw [hz] at hst hlen
  have : 6 ∣ er.length * (1 + (gam.headD []).length + ResonanceParameters.padding (gam.headD []).length) :=
    Nat.dvd_trans (Nat.dvd_of_mod_eq_zero hp.2) (Nat.dvd_mul_left _ _)
  have e := Nat.mul_div_cancel' this
  refine ⟨(gam.headD []).length, ResonanceParameters.padding (gam.headD []).length,
    er.length * (1 + (gam.headD []).length + ResonanceParameters.padding (gam.headD []).length) / 6, hp.1, e, hp.2, h2, ⟨rfl, rfl, rfl, rfl, ?_, rfl⟩, ?_⟩
  · simp only [hlen, Nat.mul_left_comm _ 2]; omega
  · obtain ⟨rs, e, l, hr⟩ := hst
    exact ⟨rs, e, l, fun i hi => by obtain ⟨r, e, h, _⟩ := hr i hi; exact ⟨r, e, h⟩⟩

/-- ISR: [0, 0, 0, 0, MLS, 0 / DAP, DAPL1, ...] -/
theorem C68_radiusUncertainties {dap : Dbl} {dapl : List Dbl} {r : LIST} (h : RadiusUncertainties.make dap dapl = .ok r) :
    Head r Disco.zero Disco.zero 0 0 (dapl.length + 1) 0 ∧ r.data = dap :: dapl := by
  cases h
  exact ⟨⟨rfl, rfl, rfl, rfl, by simp, rfl⟩, rfl⟩

/-- LRU = 2: [AWRI, 0, L, 0, 6 NJS, NJS / D, AJ, GNO, GG, GF, GX] -/
theorem C68_unresolvedCovariances {awri : Dbl} {l : Int} {aj d gno gg gf gx : List Dbl} {r : LIST} (h : UnresolvedCovLValue.make awri l aj d gno gg gf gx = .ok r) :
    Head r awri Disco.zero l 0 (6 * aj.length) aj.length ∧ Table r.data aj.length [d, aj, gno, gg, gf, gx] := by
  unfold UnresolvedCovLValue.make at h
  simp only [] at h
  split at h
  · cases h
  rename_i hs
  have hs := no_other_length hs
  obtain ⟨rfl, _⟩ := verified_ok h
  have t : Table (rows aj.length [d, aj, gno, gg, gf, gx]) aj.length [d, aj, gno, gg, gf, gx] := table_rows (by simp at hs ⊢; omega)
  exact ⟨⟨rfl, rfl, rfl, rfl, by have := t.1; simp at this ⊢; omega, rfl⟩, t⟩

/-- What is printed: the six numbers of the head in the columns of a control record, and behind it the numbers, six to a line. -/
theorem C68_text {r : LIST} {c1 c2 : Dbl} {l1 l2 n1 n2 : Int} {t : Nums} (h : Head r c1 c2 l1 l2 n1 n2) (hr : r.Ok) (ht : t.Fit) :
    ∃ hd ds, Lines (hd :: ds) (r.print t) [] ∧ ShowsCont ⟨c1, c2, l1, l2, n1, n2⟩ hd ∧
      BlockSpec realField 11 6 (fun x => Disco.eqD x Disco.zero) ds r.data := by
  have := C28_list_round_trip hr ht [] 0
  rw [List.append_nil] at this
  obtain ⟨hd, ds, a, b, c⟩ := C34_list_fields this
  refine ⟨hd, ds, a, ?_, c⟩
  obtain ⟨rfl, rfl, rfl, rfl, rfl, rfl⟩ := h
  exact b

end
end ENDFtk.Props

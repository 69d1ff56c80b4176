import Verif.Props.Getters9
/-
  C68: the LIST record that a constructor from arrays makes is the one of the ENDF-6 format: the six numbers of its head, with zeros in the fields that the
  format does not use and with the counts the format asks for, and behind them the numbers of the arrays in the order of the format.

  Specification: `Head l c1 c2 l1 l2 n1 n2` are the six numbers on the first line of the record, `Table data n cols` says that `data` are `n` rows with one
  number from each of the arrays `cols`, which all have `n` numbers, and `Stack data n row` that `data` are `n` rows, where `row i r` describes row `i`.
-/
set_option linter.unusedVariables false
set_option linter.unusedSectionVars false
set_option linter.unusedSimpArgs false
namespace ENDFtk.Props
open ENDFtk

section
variable [Disco]

/-- The numbers on the first line of a LIST record (N1 is the number of values). -/
structure Head (l : LIST) (c1 c2 : Dbl) (l1 l2 n1 n2 : Int) : Prop where
  c1 : l.c1 = c1
  c2 : l.c2 = c2
  l1 : l.l1 = l1
  l2 : l.l2 = l2
  n1 : (l.data.length : Int) = n1
  n2 : l.n2 = n2

/-- Row by row, one number from each array. -/
def Table (data : List Dbl) (n : Nat) (cols : List (List Dbl)) : Prop :=
  data.length = n * cols.length ∧ (∀ c ∈ cols, c.length = n) ∧
  ∀ i < n, ∀ j c, cols[j]? = some c → data[i * cols.length + j]? = c[i]?

/-- Row by row. -/
def Stack (data : List Dbl) (n : Nat) (row : Nat → List Dbl → Prop) : Prop :=
  ∃ rs : List (List Dbl), data = rs.flatten ∧ rs.length = n ∧ ∀ i < n, ∃ r, rs[i]? = some r ∧ row i r

theorem table_rows {n : Nat} {cols : List (List Dbl)} (hl : ∀ c ∈ cols, c.length = n) : Table (rows n cols) n cols := by
  refine ⟨rows_length _ _, hl, fun i hi j c hc => ?_⟩
  obtain ⟨hj, rfl⟩ := List.getElem?_eq_some_iff.mp hc
  rw [rows_getElem? hj, if_pos hi]
  have := hl _ (List.getElem_mem hj)
  rw [List.getD_eq_getElem?_getD, List.getElem?_eq_getElem (by omega)]; rfl

theorem table_length {data : List Dbl} {n : Nat} {cols : List (List Dbl)} (h : Table data n cols) : data.length = n * cols.length := h.1

theorem stack_flatMap {α : Type} (l : List α) (f : α → List Dbl) {row : Nat → List Dbl → Prop} (h : ∀ i a, l[i]? = some a → row i (f a)) :
    Stack (l.flatMap f) l.length row := by
  refine ⟨l.map f, (List.flatMap_def).trans rfl, by simp, fun i hi => ⟨f l[i], by simp [List.getElem?_eq_getElem hi], h i _ (List.getElem?_eq_getElem hi)⟩⟩

theorem ofInts_length' (l : List Int) : (ofInts l).length = l.length := by simp [ofInts]

/-! ### File 1 -/

/-- 1/455: [0, E, 0, 0, 2 NNF, 0 / LAMBDA1, ALPHA1, LAMBDA2, ...] -/
theorem C68_decayConstants {e : Dbl} {lam alp : List Dbl} {l : LIST} (h : DecayConstants.make e lam alp = .ok l) :
    Head l Disco.zero e 0 0 (2 * lam.length) 0 ∧ Table l.data lam.length [lam, alp] := by
  unfold DecayConstants.make at h
  split at h
  · cases h
  split at h
  · cases h
  cases h
  have t : Table (rows lam.length [lam, alp]) lam.length [lam, alp] := table_rows (by simp; omega)
  exact ⟨⟨rfl, rfl, rfl, rfl, by have := t.1; simp at this ⊢; omega, rfl⟩, t⟩

/-- 1/458, LFC = 0: [0, 0, 0, NPLY, 18 (NPLY + 1), 9 (NPLY + 1) / EFR, DEFR, ENP, DENP, ...], a row for each power of the energy -/
theorem C68_polynomialComponents {efr enp end' egp egd eb enu er et : List (Dbl × Dbl)} {l : LIST}
    (h : PolynomialComponents.make efr enp end' egp egd eb enu er et = .ok l) :
    Head l Disco.zero Disco.zero 0 (efr.length - 1) (18 * efr.length) (9 * efr.length) ∧
    Table l.data efr.length [efr.map (·.1), efr.map (·.2), enp.map (·.1), enp.map (·.2), end'.map (·.1), end'.map (·.2), egp.map (·.1), egp.map (·.2),
      egd.map (·.1), egd.map (·.2), eb.map (·.1), eb.map (·.2), enu.map (·.1), enu.map (·.2), er.map (·.1), er.map (·.2), et.map (·.1), et.map (·.2)] := by
  unfold PolynomialComponents.make at h
  simp only [] at h
  split at h
  · cases h
  cases h
  rename_i hs
  simp only [not_or, Decidable.not_not] at hs
  have t : Table (rows efr.length ([efr, enp, end', egp, egd, eb, enu, er, et].flatMap PolynomialComponents.pairCols)) efr.length
      ([efr, enp, end', egp, egd, eb, enu, er, et].flatMap PolynomialComponents.pairCols) :=
    table_rows (by simp [PolynomialComponents.pairCols]; omega)
  have hl := t.1
  have e : ([efr, enp, end', egp, egd, eb, enu, er, et].flatMap PolynomialComponents.pairCols).length = 18 := by simp [PolynomialComponents.pairCols]
  rw [e] at hl
  exact ⟨⟨rfl, rfl, rfl, by simp only [hl]; omega, by simp only [hl]; omega, by simp only [hl]; omega⟩, t⟩

/-! ### File 2 -/

theorem resolved_written {awri c2 : Dbl} {l : Int} {l2 : Bool} {er aj a b c d : List Dbl} {r : LIST}
    (h : ResolvedLValue.make awri c2 l l2 er aj a b c d = .ok r) :
    Head r awri c2 l (if l2 then 1 else 0) (6 * er.length) er.length ∧ Table r.data er.length [er, aj, a, b, c, d] := by
  unfold ResolvedLValue.make at h
  simp only [] at h
  split at h
  · cases h
  rename_i hs
  simp only [not_or, Decidable.not_not] at hs
  obtain ⟨rfl, _⟩ := verified_ok h
  have t : Table (rows er.length [er, aj, a, b, c, d]) er.length [er, aj, a, b, c, d] := table_rows (by simp; omega)
  exact ⟨⟨rfl, rfl, rfl, by cases l2 <;> rfl, by have := t.1; simp at this ⊢; omega, rfl⟩, t⟩

/-- 2/151, LRF = 1, 2: [AWRI, QX, L, LRX, 6 NRS, NRS / ER, AJ, GT, GN, GG, GF] -/
theorem C68_breitWigner {awri qx : Dbl} {l : Int} {lrx : Bool} {er aj gt gn gg gf : List Dbl} {r : LIST}
    (h : BreitWignerLValue.make awri qx l lrx er aj gt gn gg gf = .ok r) :
    Head r awri qx l (if lrx then 1 else 0) (6 * er.length) er.length ∧ Table r.data er.length [er, aj, gt, gn, gg, gf] := resolved_written h

/-- 2/151, LRF = 3: [AWRI, APL, L, 0, 6 NRS, NRS / ER, AJ, GN, GG, GFA, GFB] -/
theorem C68_reichMoore {awri apl : Dbl} {l : Int} {er aj gn gg gfa gfb : List Dbl} {r : LIST}
    (h : ReichMooreLValue.make awri apl l er aj gn gg gfa gfb = .ok r) :
    Head r awri apl l 0 (6 * er.length) er.length ∧ Table r.data er.length [er, aj, gn, gg, gfa, gfb] := resolved_written h

/-- 2/151, LRU = 2, case A: [AWRI, 0, L, 0, 6 NJS, NJS / D, AJ, AMUN, GN, GG, 0] -/
theorem C68_unresolvedA {awri : Dbl} {l : Int} {aj d : List Dbl} {amun : List Int} {gn gg : List Dbl} {r : LIST}
    (h : UnresolvedALValue.make awri l aj d amun gn gg = .ok r) :
    Head r awri Disco.zero l 0 (6 * aj.length) aj.length ∧
    Table r.data aj.length [d, aj, amun.map Disco.ofInt, gn, gg, List.replicate aj.length Disco.zero] := by
  unfold UnresolvedALValue.make at h
  simp only [] at h
  split at h
  · cases h
  rename_i hs
  simp only [not_or, Decidable.not_not] at hs
  obtain ⟨rfl, _⟩ := verified_ok h
  have t : Table (rows aj.length [d, aj, ofInts amun, gn, gg, List.replicate aj.length Disco.zero]) aj.length
      [d, aj, ofInts amun, gn, gg, List.replicate aj.length Disco.zero] := table_rows (by simp [ofInts_length']; omega)
  exact ⟨⟨rfl, rfl, rfl, rfl, by have := t.1; simp at this ⊢; omega, rfl⟩, t⟩

/-- 2/151, LRU = 2, case B: [0, 0, L, MUF, NE + 6, 0 / D, AJ, AMUN, GN0, GG, 0, GF1, GF2, ...] -/
theorem C68_unresolvedB {l : Int} {aj d : Dbl} {amun amuf : Int} {gn gg : Dbl} {gf : List Dbl} {r : LIST}
    (h : UnresolvedBJValue.make l aj d amun amuf gn gg gf = .ok r) :
    Head r Disco.zero Disco.zero l amuf (gf.length + 6) 0 ∧ r.data = [d, aj, Disco.ofInt amun, gn, gg, Disco.zero] ++ gf := by
  obtain ⟨rfl, _⟩ := verified_ok h
  exact ⟨⟨rfl, rfl, rfl, rfl, by simp; omega, rfl⟩, rfl⟩

/-- 2/151, LRU = 2, case C: [AJ, 0, INT, 0, 6 NE + 6, NE / 0, 0, AMUX, AMUN, AMUG, AMUF, E1, D1, GX1, GN1, GG1, GF1, E2, ...] -/
theorem C68_unresolvedC {aj : Dbl} {amun amug amuf amux int : Int} {es d gn gg gf gx : List Dbl} {r : LIST}
    (h : UnresolvedCJValue.make aj amun amug amuf amux int es d gn gg gf gx = .ok r) :
    Head r aj Disco.zero int 0 (6 * es.length + 6) es.length ∧
    ∃ t, r.data = [Disco.zero, Disco.zero, Disco.ofInt amux, Disco.ofInt amun, Disco.ofInt amug, Disco.ofInt amuf] ++ t ∧
      Table t es.length [es, d, gx, gn, gg, gf] := by
  unfold UnresolvedCJValue.make at h
  simp only [] at h
  split at h
  · cases h
  rename_i hs
  simp only [not_or, Decidable.not_not] at hs
  obtain ⟨rfl, _⟩ := verified_ok h
  have t : Table (rows es.length [es, d, gx, gn, gg, gf]) es.length [es, d, gx, gn, gg, gf] := table_rows (by simp; omega)
  exact ⟨⟨rfl, rfl, rfl, rfl, by have := t.1; simp at this ⊢; omega, rfl⟩, _, rfl, t⟩

/-- 2/151, LRF = 7: [0, 0, NPP, 0, 12 NPP, 2 NPP / MA, MB, ZA, ZB, IA, IB, Q, PNT, SHF, MT, PA, PB] -/
theorem C68_particlePairs {ma mb za zb ia ib pa pb q : List Dbl} {pnt shf mt : List Int} {r : LIST}
    (h : ParticlePairs.make ma mb za zb ia ib pa pb q pnt shf mt = .ok r) :
    Head r Disco.zero Disco.zero ma.length 0 (12 * ma.length) (2 * ma.length) ∧
    Table r.data ma.length [ma, mb, za, zb, ia, ib, q, pnt.map Disco.ofInt, shf.map Disco.ofInt, mt.map Disco.ofInt, pa, pb] := by
  unfold ParticlePairs.make at h
  simp only [] at h
  split at h
  · cases h
  rename_i hs
  simp only [not_or, Decidable.not_not] at hs
  obtain ⟨rfl, _⟩ := verified_ok h
  have t : Table (rows ma.length [ma, mb, za, zb, ia, ib, q, ofInts pnt, ofInts shf, ofInts mt, pa, pb]) ma.length
      [ma, mb, za, zb, ia, ib, q, ofInts pnt, ofInts shf, ofInts mt, pa, pb] := table_rows (by simp [ofInts_length']; omega)
  exact ⟨⟨rfl, rfl, rfl, rfl, by have := t.1; simp at this ⊢; omega, rfl⟩, t⟩

/-- 2/151, LRF = 7: [AJ, PJ, KBK, KPS, 6 NCH, NCH / PPI, L, SCH, BND, APE, APT] -/
theorem C68_resonanceChannels {aj pj : Dbl} {ppi l : List Int} {s b apt ape : List Dbl} {kbk kps : Int} {r : LIST}
    (h : ResonanceChannels.make aj pj ppi l s b apt ape kbk kps = .ok r) :
    Head r aj pj kbk kps (6 * l.length) l.length ∧ Table r.data l.length [ppi.map Disco.ofInt, l.map Disco.ofInt, s, b, ape, apt] := by
  unfold ResonanceChannels.make at h
  simp only [] at h
  split at h
  · cases h
  rename_i hs
  simp only [not_or, Decidable.not_not] at hs
  obtain ⟨rfl, _⟩ := verified_ok h
  have t : Table (rows l.length [ofInts ppi, ofInts l, s, b, ape, apt]) l.length [ofInts ppi, ofInts l, s, b, ape, apt] :=
    table_rows (by simp [ofInts_length']; omega)
  exact ⟨⟨rfl, rfl, rfl, rfl, by have := t.1; simp at this ⊢; omega, rfl⟩, t⟩

/-- The constructor with one array of radii uses it for both. -/
theorem C68_resonanceChannels_one_radius {aj pj : Dbl} {ppi l : List Int} {s b ap : List Dbl} {kbk kps : Int} {r : LIST}
    (h : ResonanceChannels.make1 aj pj ppi l s b ap kbk kps = .ok r) :
    Head r aj pj kbk kps (6 * l.length) l.length ∧ Table r.data l.length [ppi.map Disco.ofInt, l.map Disco.ofInt, s, b, ap, ap] := by
  unfold ResonanceChannels.make1 at h
  simp only [] at h
  split at h
  · cases h
  rename_i hs
  simp only [not_or, Decidable.not_not] at hs
  obtain ⟨rfl, _⟩ := verified_ok h
  have t : Table (rows l.length [ofInts ppi, ofInts l, s, b, ap, ap]) l.length [ofInts ppi, ofInts l, s, b, ap, ap] :=
    table_rows (by simp [ofInts_length']; omega)
  exact ⟨⟨rfl, rfl, rfl, rfl, by have := t.1; simp at this ⊢; omega, rfl⟩, t⟩

/-- Each resonance begins a line: the energy and the parameters, with zeros up to the end of the line (NX is the number of lines). -/
def ResonanceRow (er : List Dbl) (gam : List (List Dbl)) (i : Nat) (r : List Dbl) : Prop :=
  ∃ e g k, er[i]? = some e ∧ gam[i]? = some g ∧ r = e :: g ++ List.replicate k Disco.zero ∧ k < 6 ∧ r.length % 6 = 0

theorem padding_fills (n : Nat) : ResonanceParameters.padding n < 6 ∧ (1 + n + ResonanceParameters.padding n) % 6 = 0 := by
  unfold ResonanceParameters.padding; omega

theorem stack_length {data : List Dbl} {n w : Nat} {row : Nat → List Dbl → Prop} (h : Stack data n row) (hw : ∀ i r, row i r → r.length = w) :
    data.length = n * w := by
  obtain ⟨rs, rfl, hl, hr⟩ := h
  have : ∀ r ∈ rs, r.length = w := fun r hm => by
    obtain ⟨i, hi⟩ := List.mem_iff_getElem?.mp hm
    obtain ⟨r', e, h'⟩ := hr i (by have := (List.getElem?_eq_some_iff.mp hi).1; omega)
    rw [hi] at e; cases e
    exact hw _ _ h'
  clear hr
  induction rs generalizing n with
  | nil => simp at hl; subst hl; simp
  | cons r rs ih =>
    have e := ih (n := rs.length) rfl (fun r hr => this r (by simp [hr]))
    simp only [List.flatten_cons, List.length_append, e, this r (by simp)]
    simp at hl; subst hl
    rw [Nat.succ_mul]; omega

theorem rmlParameters_written {er : List Dbl} {gam : List (List Dbl)} (h1 : gam.length = er.length) (h0 : er.length ≠ 0)
    (h2 : ∀ p ∈ gam, p.length = (gam.headD []).length) :
    Stack ((List.zip er gam).flatMap (fun r => r.1 :: r.2 ++ List.replicate (ResonanceParameters.padding (gam.headD []).length) Disco.zero)) er.length
      (ResonanceRow er gam) ∧
    ((List.zip er gam).flatMap (fun r => r.1 :: r.2 ++ List.replicate (ResonanceParameters.padding (gam.headD []).length) Disco.zero)).length =
      er.length * (1 + (gam.headD []).length + ResonanceParameters.padding (gam.headD []).length) := by
  have hp := padding_fills (gam.headD []).length
  have key : ∀ (i : Nat) (a : Dbl × List Dbl), (List.zip er gam)[i]? = some a → er[i]? = some a.1 ∧ gam[i]? = some a.2 ∧ a.2.length = (gam.headD []).length := fun i a ha => by
    obtain ⟨x, y⟩ := a
    rw [List.getElem?_zip_eq_some] at ha
    exact ⟨ha.1, ha.2, h2 _ (List.mem_iff_getElem?.mpr ⟨i, ha.2⟩)⟩
  have hz : (List.zip er gam).length = er.length := by simp; omega
  refine ⟨hz ▸ stack_flatMap _ _ (fun i a ha => ?_), ?_⟩
  · obtain ⟨ea, eg, hl⟩ := key i a ha
    exact ⟨a.1, a.2, _, ea, eg, rfl, hp.1, by simp only [List.length_append, List.length_cons, List.length_replicate, hl]; omega⟩
  · have := stack_length (w := 1 + (gam.headD []).length + ResonanceParameters.padding (gam.headD []).length)
      (stack_flatMap (List.zip er gam) (fun r => r.1 :: r.2 ++ List.replicate (ResonanceParameters.padding (gam.headD []).length) Disco.zero)
        (row := fun i r => r.length = 1 + (gam.headD []).length + ResonanceParameters.padding (gam.headD []).length)
        (fun i a ha => by simp only [List.length_append, List.length_cons, List.length_replicate, (key i a ha).2.2]; omega)) (fun _ _ h => h)
    rw [hz] at this; exact this

/-- 2/151, LRF = 7: [0, 0, 0, NRS, 6 NX, NX / ER, GAM1, GAM2, ..., GAMNCH, 0, ...] -/
theorem C68_resonanceParameters {er : List Dbl} {gam : List (List Dbl)} {r : LIST} (h : ResonanceParameters.make er gam = .ok r) :
    ∃ nx : Int, Head r Disco.zero Disco.zero 0 er.length (6 * nx) nx ∧ Stack r.data er.length (ResonanceRow er gam) := by
  unfold ResonanceParameters.make at h
  simp only [] at h
  split at h
  · cases h
  split at h
  · cases h
  split at h
  · cases h
  rename_i h1 h0 h2
  simp only [Decidable.not_not] at h1
  obtain ⟨rfl, _⟩ := verified_ok h
  have hp := padding_fills (gam.headD []).length
  obtain ⟨a, b⟩ := rmlParameters_written h1 h0 (fun p hm => by
    apply Decidable.byContradiction; intro hc; exact h2 ⟨p, hm, hc⟩)
  refine ⟨_, ⟨rfl, rfl, rfl, rfl, ?_, rfl⟩, a⟩
  simp only [b]
  have : 6 ∣ er.length * (1 + (gam.headD []).length + ResonanceParameters.padding (gam.headD []).length) :=
    Nat.dvd_trans (Nat.dvd_of_mod_eq_zero hp.2) (Nat.dvd_mul_left _ _)
  have e := Nat.div_mul_cancel this
  have : ((er.length * (1 + (gam.headD []).length + ResonanceParameters.padding (gam.headD []).length) : Nat) : Int) =
      ((er.length * (1 + (gam.headD []).length + ResonanceParameters.padding (gam.headD []).length) / 6 * 6 : Nat) : Int) := by rw [e]
  rw [this]; push_cast; omega

/-- One energy of 2/152: the energy, and for each of the five reactions the values for all dilutions. -/
def DilutionRow (es : List Dbl) (tot el fis cap cw : List (List Dbl)) (i : Nat) (r : List Dbl) : Prop :=
  ∃ e a b c d f, es[i]? = some e ∧ tot[i]? = some a ∧ el[i]? = some b ∧ fis[i]? = some c ∧ cap[i]? = some d ∧ cw[i]? = some f ∧
    r = [e] ++ a ++ b ++ c ++ d ++ f

/-- 2/152: [TEMZ, 0, 5, NSIGZ, NSIGZ + NUNR (1 + 5 NSIGZ), NUNR / SIGZ1, ..., SIGZNSIGZ, E1, SIGU(1,1,1), ...] -/
theorem C68_dilutionTables {temp : Dbl} {sigz es : List Dbl} {tot el fis cap cw : List (List Dbl)} {r : LIST}
    (h : DilutionTables.make temp sigz es tot el fis cap cw = .ok r) :
    Head r temp Disco.zero 5 sigz.length (sigz.length + es.length * (1 + 5 * sigz.length)) es.length ∧
    ∃ t, r.data = sigz ++ t ∧ Stack t es.length (DilutionRow es tot el fis cap cw) := by
  unfold DilutionTables.make at h
  simp only [] at h
  split at h
  · cases h
  split at h
  · cases h
  rename_i hs hx
  simp only [not_or, Decidable.not_not] at hs hx
  obtain ⟨rfl, _⟩ := verified_ok h
  have hz : (DilutionTables.zipped es tot el fis cap cw).length = es.length := by simp [DilutionTables.zipped]; omega
  have key : ∀ (i : Nat) (a : Dbl × List Dbl × List Dbl × List Dbl × List Dbl × List Dbl), (DilutionTables.zipped es tot el fis cap cw)[i]? = some a →
      DilutionRow es tot el fis cap cw i (DilutionTables.block a) ∧ (DilutionTables.block a).length = 1 + 5 * sigz.length := fun i a ha => by
    obtain ⟨e, a, b, c, d, f⟩ := a
    unfold DilutionTables.zipped at ha
    simp only [List.getElem?_zip_eq_some] at ha
    obtain ⟨g1, g2, g3, g4, g5, g6⟩ := ha
    have mem : ∀ {ls : List (List Dbl)} {x : List Dbl}, (¬∃ x ∈ ls, x.length ≠ sigz.length) → ls[i]? = some x → x.length = sigz.length :=
      fun hn hi => by apply Decidable.byContradiction; intro hc; exact hn ⟨_, List.mem_iff_getElem?.mpr ⟨i, hi⟩, hc⟩
    have l1 := mem hx.1 g2
    have l2 := mem hx.2.1 g3
    have l3 := mem hx.2.2.1 g4
    have l4 := mem hx.2.2.2.1 g5
    have l5 := mem hx.2.2.2.2 g6
    refine ⟨⟨e, a, b, c, d, f, g1, g2, g3, g4, g5, g6, by simp [DilutionTables.block]⟩, ?_⟩
    simp [DilutionTables.block]; omega
  have hst := stack_flatMap (DilutionTables.zipped es tot el fis cap cw) DilutionTables.block (row := fun i r => DilutionRow es tot el fis cap cw i r ∧ r.length = 1 + 5 * sigz.length) key
  have hlen := stack_length hst (fun _ _ h => h.2)
  rw [hz] at hst hlen
  refine ⟨⟨rfl, rfl, rfl, rfl, ?_, rfl⟩, _, rfl, ?_⟩
  · simp only [List.length_append, hlen]; push_cast; rfl
  · obtain ⟨rs, e, l, hr⟩ := hst
    exact ⟨rs, e, l, fun i hi => by obtain ⟨r, e, h, _⟩ := hr i hi; exact ⟨r, e, h⟩⟩

/-- The constructor without dilutions writes the values for infinite dilution (1e10 barns). -/
theorem C68_dilutionTables_infinite {temp : Dbl} {es tot el fis cap cw : List Dbl} {r : LIST}
    (h : DilutionTables.make1 temp es tot el fis cap cw = .ok r) :
    Head r temp Disco.zero 5 1 (1 + 6 * es.length) es.length ∧
    ∃ t, r.data = Disco.ofInt 10000000000 :: t ∧ Table t es.length [es, tot, el, fis, cap, cw] := by
  unfold DilutionTables.make1 at h
  simp only [] at h
  split at h
  · cases h
  rename_i hs
  simp only [not_or, Decidable.not_not] at hs
  obtain ⟨rfl, _⟩ := verified_ok h
  have t : Table (rows es.length [es, tot, el, fis, cap, cw]) es.length [es, tot, el, fis, cap, cw] := table_rows (by simp; omega)
  exact ⟨⟨rfl, rfl, rfl, rfl, by have := t.1; simp at this ⊢; omega, rfl⟩, _, rfl, t⟩

end
end ENDFtk.Props

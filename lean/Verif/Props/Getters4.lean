import Verif.Props.Getters3
/-
  C48, continued: section 2/152.
-/
set_option linter.unusedVariables false
set_option linter.unusedSectionVars false
set_option linter.unusedSimpArgs false
namespace ENDFtk.Props
open ENDFtk

section
variable [Disco]

open DilutionTables

theorem zipped_maps {es : List Dbl} {t e f c w : List (List Dbl)} (h : t.length = es.length ∧ e.length = es.length ∧ f.length = es.length ∧ c.length = es.length ∧ w.length = es.length) :
    (zipped es t e f c w).map (·.1) = es ∧ (zipped es t e f c w).map (·.2.1) = t ∧ (zipped es t e f c w).map (·.2.2.1) = e ∧
    (zipped es t e f c w).map (·.2.2.2.1) = f ∧ (zipped es t e f c w).map (·.2.2.2.2.1) = c ∧ (zipped es t e f c w).map (·.2.2.2.2.2) = w ∧
    (zipped es t e f c w).length = es.length := by
  obtain ⟨h1, h2, h3, h4, h5⟩ := h
  unfold zipped
  have r5 : (c.zip w).map (·.1) = c ∧ (c.zip w).map (·.2) = w := ⟨zip_left (by omega), zip_right (by omega)⟩
  have r4 : (f.zip (c.zip w)).map (·.1) = f ∧ (f.zip (c.zip w)).map (·.2) = c.zip w := ⟨zip_left (by simp; omega), zip_right (by simp; omega)⟩
  have r3 : (e.zip (f.zip (c.zip w))).map (·.1) = e ∧ (e.zip (f.zip (c.zip w))).map (·.2) = f.zip (c.zip w) := ⟨zip_left (by simp; omega), zip_right (by simp; omega)⟩
  have r2 : (t.zip (e.zip (f.zip (c.zip w)))).map (·.1) = t ∧ (t.zip (e.zip (f.zip (c.zip w)))).map (·.2) = e.zip (f.zip (c.zip w)) := ⟨zip_left (by simp; omega), zip_right (by simp; omega)⟩
  have r1 : (es.zip (t.zip (e.zip (f.zip (c.zip w))))).map (·.1) = es ∧ (es.zip (t.zip (e.zip (f.zip (c.zip w))))).map (·.2) = t.zip (e.zip (f.zip (c.zip w))) := ⟨zip_left (by simp; omega), zip_right (by simp; omega)⟩
  generalize es.zip (t.zip (e.zip (f.zip (c.zip w)))) = z at *
  refine ⟨r1.1, ?_, ?_, ?_, ?_, ?_, ?_⟩
  · rw [← r2.1, ← r1.2, List.map_map]; rfl
  · rw [← r3.1, ← r2.2, ← r1.2, List.map_map, List.map_map]; rfl
  · rw [← r4.1, ← r3.2, ← r2.2, ← r1.2, List.map_map, List.map_map, List.map_map]; rfl
  · rw [← r5.1, ← r4.2, ← r3.2, ← r2.2, ← r1.2, List.map_map, List.map_map, List.map_map, List.map_map]; rfl
  · rw [← r5.2, ← r4.2, ← r3.2, ← r2.2, ← r1.2, List.map_map, List.map_map, List.map_map, List.map_map]; rfl
  · rw [← List.length_map (·.1), r1.1]

theorem mem_zipped {es : List Dbl} {t e f c w : List (List Dbl)} {r : Dbl × List Dbl × List Dbl × List Dbl × List Dbl × List Dbl} (h : r ∈ zipped es t e f c w) :
    r.2.1 ∈ t ∧ r.2.2.1 ∈ e ∧ r.2.2.2.1 ∈ f ∧ r.2.2.2.2.1 ∈ c ∧ r.2.2.2.2.2 ∈ w := by
  unfold zipped at h
  have h1 := (List.of_mem_zip h).2
  have h2 := (List.of_mem_zip h1).2
  have h3 := (List.of_mem_zip h2).2
  have h4 := (List.of_mem_zip h3).2
  exact ⟨(List.of_mem_zip h1).1, (List.of_mem_zip h2).1, (List.of_mem_zip h3).1, (List.of_mem_zip h4).1, (List.of_mem_zip h4).2⟩

/-- the parts of the block of an energy -/
def parts (r : Dbl × List Dbl × List Dbl × List Dbl × List Dbl × List Dbl) : List (List Dbl) := [r.2.1, r.2.2.1, r.2.2.2.1, r.2.2.2.2.1, r.2.2.2.2.2]

theorem block_eq (r : Dbl × List Dbl × List Dbl × List Dbl × List Dbl × List Dbl) : block r = [r.1] ++ (parts r).flatMap id := by
  simp [block, parts]

theorem reaction_zipped {temp : Dbl} {n2 : Int} {dil : List Dbl} {z : List (Dbl × List Dbl × List Dbl × List Dbl × List Dbl × List Dbl)} {i : Nat}
    (hi : i < 5) (hd : dil.length ≠ 0) (hs : (dil.length : Int) < 2147483648) (hz : ∀ r ∈ z, ∀ p ∈ parts r, p.length = dil.length) :
    reaction i ⟨temp, Disco.zero, 5, dil.length, n2, dil ++ z.flatMap block⟩ = .ok (z.map fun r => (parts r).getD i []) := by
  unfold reaction
  simp only
  rw [toUInt32_nat hs, dropE_append (by omega)]
  show (chunkE _ _).bind _ = _
  have h5 : toUInt32 5 = 5 := by decide
  have hbl : ∀ r ∈ z, (block r).length = 1 + dil.length * 5 := fun r hr => by
    rw [block_eq, List.length_append, flatMap_length (f := id) (k := dil.length) (hz r hr)]
    simp [parts]; omega
  rw [h5, chunkE_ok (by omega)]
  show mapE _ (chunkL (1 + (dil.length : Int) * 5).toNat _) = _
  have e : (1 + (dil.length : Int) * 5).toNat = 1 + dil.length * 5 := by omega
  rw [e, chunkL_flatMap (by omega) hbl]
  rw [mapE_ok (g := fun b => ((chunkL dil.length (b.drop 1)).getD i [])) ?_]
  · rw [List.map_map]
    congr 1
    apply List.map_congr_left
    intro r hr
    have e : (block r).drop 1 = (parts r).flatMap id := by rw [block_eq]; rfl
    simp only [Function.comp]
    rw [e, chunkL_flatMap (f := id) (by omega) (hz r hr), List.map_id]
  · intro b hb
    obtain ⟨r, hr, rfl⟩ := List.mem_map.mp hb
    have e : block r = [r.1] ++ (parts r).flatMap id := block_eq r
    have e2 : (block r).drop 1 = (parts r).flatMap id := by rw [e]; rfl
    rw [e2, e, dropE_append (n := 1) (a := [r.1]) rfl]
    show (chunkE _ _).bind _ = _
    rw [chunkE_ok (by omega)]
    show atE (chunkL ((dil.length : Int)).toNat _) i = _
    rw [show ((dil.length : Int)).toNat = dil.length from by omega, chunkL_flatMap (f := id) (by omega) (hz r hr), List.map_id]
    unfold atE
    rw [getD_of (n := 5) (d := []) rfl hi]

/-- Self-shielded cross sections. -/
theorem C48_dilutionTables {temp : Dbl} {dil es : List Dbl} {t e f c w : List (List Dbl)} {l : LIST}
    (h : DilutionTables.make temp dil es t e f c w = .ok l) (hs : Small l) :
    DilutionTables.temperature l = temp ∧ DilutionTables.numberReactions l = 5 ∧ DilutionTables.numberDilutions l = dil.length ∧
    (es.length < 2147483648 → DilutionTables.numberEnergies l = es.length) ∧ DilutionTables.dilutions l = .ok dil ∧ DilutionTables.energies l = .ok es ∧
    (dil ≠ [] → DilutionTables.total l = .ok t ∧ DilutionTables.elastic l = .ok e ∧ DilutionTables.fission l = .ok f ∧
      DilutionTables.capture l = .ok c ∧ DilutionTables.currentWeightedTotal l = .ok w) ∧
    (l.Fits → dilutionC.Valid l) := by
  unfold DilutionTables.make at h
  simp only at h
  split at h
  · cases h
  split at h
  · cases h
  obtain ⟨rfl, hv⟩ := verified_require h
  rename_i h1 h2
  obtain ⟨m1, m2, m3, m4, m5, m6, m7⟩ := zipped_maps (es := es) (t := t) (e := e) (f := f) (c := c) (w := w) (by omega)
  have hz : ∀ r ∈ zipped es t e f c w, ∀ p ∈ parts r, p.length = dil.length := by
    intro r hr
    obtain ⟨a1, a2, a3, a4, a5⟩ := mem_zipped hr
    unfold parts
    simp only [List.forall_mem_cons, List.not_mem_nil, false_implies, implies_true, and_true]
    refine ⟨?_, ?_, ?_, ?_, ?_⟩ <;> refine Decidable.byContradiction fun hne => h2 ?_
    · exact .inl ⟨_, a1, hne⟩
    · exact .inr (.inl ⟨_, a2, hne⟩)
    · exact .inr (.inr (.inl ⟨_, a3, hne⟩))
    · exact .inr (.inr (.inr (.inl ⟨_, a4, hne⟩)))
    · exact .inr (.inr (.inr (.inr ⟨_, a5, hne⟩)))
  have hd32 : (dil.length : Int) < 2147483648 := by
    unfold Small LIST.npl at hs; simp only [List.length_append] at hs; omega
  have hbl : ∀ r ∈ zipped es t e f c w, (block r).length = 1 + dil.length * 5 := fun r hr => by
    rw [block_eq, List.length_append, flatMap_length (f := id) (k := dil.length) (hz r hr)]
    simp [parts]; omega
  refine ⟨rfl, toInt32_of (n := 5) ⟨by decide, by decide⟩, nat32 hd32, fun h => nat32 (by omega), ?_, ?_, fun hd => ?_, fun hf => ⟨hf, hv⟩⟩
  · unfold DilutionTables.dilutions
    simp only
    rw [nat32 hd32, takeE_append rfl]
  · unfold DilutionTables.energies
    simp only
    rw [nat32 hd32, dropE_append rfl]
    show strideE _ _ = _
    rw [stride_flatMap (g := (·.1)) (k := 1 + dil.length * 5) (by omega) hbl (fun _ _ => rfl) (by omega), m1]
  · have hd' : dil.length ≠ 0 := by simpa using hd
    refine ⟨?_, ?_, ?_, ?_, ?_⟩
    · exact (reaction_zipped (by decide) hd' hd32 hz).trans (congrArg Except.ok m2)
    · exact (reaction_zipped (by decide) hd' hd32 hz).trans (congrArg Except.ok m3)
    · exact (reaction_zipped (by decide) hd' hd32 hz).trans (congrArg Except.ok m4)
    · exact (reaction_zipped (by decide) hd' hd32 hz).trans (congrArg Except.ok m5)
    · exact (reaction_zipped (by decide) hd' hd32 hz).trans (congrArg Except.ok m6)

theorem C48_dilutionTables_accepts {temp : Dbl} {dil es : List Dbl} {t e f c w : List (List Dbl)} (hd : 5 * (dil.length : Int) + 1 < 2147483648)
    (hs : (5 * (dil.length : Int) + 1) * es.length + dil.length < 2147483648) :
    let ok := ∀ x ∈ [t, e, f, c, w], x.length = es.length ∧ ∀ y ∈ x, y.length = dil.length
    (ok → ∃ l, DilutionTables.make temp dil es t e f c w = .ok l) ∧ (¬ok → DilutionTables.make temp dil es t e f c w = .error .exc) := by
  intro ok
  unfold DilutionTables.make
  simp only
  constructor
  · intro h
    simp only [ok, List.forall_mem_cons, List.not_mem_nil, false_implies, implies_true, and_true] at h
    obtain ⟨⟨a1, b1⟩, ⟨a2, b2⟩, ⟨a3, b3⟩, ⟨a4, b4⟩, a5, b5⟩ := h
    rw [if_neg (by omega), if_neg]
    · refine ⟨_, verified_pos ?_⟩
      obtain ⟨m1, m2, m3, m4, m5, m6, m7⟩ := zipped_maps (es := es) (t := t) (e := e) (f := f) (c := c) (w := w) (by omega)
      have hbl : ∀ r ∈ zipped es t e f c w, (block r).length = 1 + dil.length * 5 := fun r hr => by
        obtain ⟨c1, c2, c3, c4, c5⟩ := mem_zipped hr
        unfold block
        simp only [List.length_cons, List.length_append, b1 _ c1, b2 _ c2, b3 _ c3, b4 _ c4, b5 _ c5]; omega
      have hlen : (dil ++ (zipped es t e f c w).flatMap block).length = dil.length + es.length * (1 + dil.length * 5) := by
        rw [List.length_append, flatMap_length hbl, m7]
      have hmul : (5 * (dil.length : Int) + 1) * es.length = ((es.length * (1 + dil.length * 5) : Nat) : Int) := by
        rw [Int.natCast_mul, Int.mul_comm]
        congr 1
        omega
      have hle : es.length ≤ es.length * (1 + dil.length * 5) := Nat.le_mul_of_pos_right _ (by omega)
      rw [hmul] at hs
      unfold dilutionSizeOk dilutionOv LIST.npl
      simp only [hlen, Over]
      rw [nat32 (n := es.length) (by omega), nat32 (n := dil.length) (by omega), nat32 (by omega), toInt32_of (n := 5) (by decide), hmul]
      omega
    · rintro (⟨x, hx, hne⟩ | ⟨x, hx, hne⟩ | ⟨x, hx, hne⟩ | ⟨x, hx, hne⟩ | ⟨x, hx, hne⟩)
      · exact hne (b1 x hx)
      · exact hne (b2 x hx)
      · exact hne (b3 x hx)
      · exact hne (b4 x hx)
      · exact hne (b5 x hx)
  · intro h
    split
    · rfl
    split
    · rfl
    · rename_i h1 h2
      exfalso
      apply h
      simp only [ok, List.forall_mem_cons, List.not_mem_nil, false_implies, implies_true, and_true]
      refine ⟨⟨by omega, fun y hy => ?_⟩, ⟨by omega, fun y hy => ?_⟩, ⟨by omega, fun y hy => ?_⟩, ⟨by omega, fun y hy => ?_⟩, by omega, fun y hy => ?_⟩ <;>
        refine Decidable.byContradiction fun hne => h2 ?_
      · exact .inl ⟨_, hy, hne⟩
      · exact .inr (.inl ⟨_, hy, hne⟩)
      · exact .inr (.inr (.inl ⟨_, hy, hne⟩))
      · exact .inr (.inr (.inr (.inl ⟨_, hy, hne⟩)))
      · exact .inr (.inr (.inr (.inr ⟨_, hy, hne⟩)))

theorem rows_unzipped {es t e f c w : List Dbl} (h : t.length = es.length ∧ e.length = es.length ∧ f.length = es.length ∧ c.length = es.length ∧ w.length = es.length) :
    rows es.length [es, t, e, f, c, w] = (zipped es (t.map ([·])) (e.map ([·])) (f.map ([·])) (c.map ([·])) (w.map ([·]))).flatMap block := by
  obtain ⟨h1, h2, h3, h4, h5⟩ := h
  induction es generalizing t e f c w with
  | nil => simp [rows, zipped]
  | cons x es ih =>
    match t, e, f, c, w with
    | a1 :: t, a2 :: e, a3 :: f, a4 :: c, a5 :: w =>
      have := ih (t := t) (e := e) (f := f) (c := c) (w := w) (by simpa using h1) (by simpa using h2) (by simpa using h3) (by simpa using h4) (by simpa using h5)
      unfold zipped at *
      simp only [List.map_cons, List.zip_cons_cons, List.flatMap_cons]
      rw [← this]
      simp only [rows, List.length_cons, List.range_succ_eq_map, List.flatMap_cons, List.flatMap_map]
      simp [block]
    | [], _, _, _, _ => simp at h1
    | _, [], _, _, _ => simp at h2
    | _, _, [], _, _ => simp at h3
    | _, _, _, [], _ => simp at h4
    | _, _, _, _, [] => simp at h5

/-- The constructor for infinite dilution is the other one with the single dilution 1e+10. -/
theorem C48_dilutionTables_infinite {temp : Dbl} {es t e f c w : List Dbl} :
    DilutionTables.make1 temp es t e f c w =
      DilutionTables.make temp [Disco.ofInt 10000000000] es (t.map ([·])) (e.map ([·])) (f.map ([·])) (c.map ([·])) (w.map ([·])) := by
  unfold DilutionTables.make1 DilutionTables.make
  simp only [List.length_map]
  split
  · rfl
  · rename_i h
    rw [if_neg (by simp), ← rows_unzipped (by omega)]
    rfl

end

end ENDFtk.Props

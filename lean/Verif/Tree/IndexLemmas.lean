import Verif.Tree.ReadLemmas2
import Verif.Tree.MapLemmas
import Verif.Tree.TreeSpec
/-
  The tree of a layout indexes it.
-/
set_option linter.unusedVariables false
set_option linter.unusedSectionVars false
set_option linter.unusedSimpArgs false
namespace ENDFtk
variable [Disco]

theorem SMap.at'_ok {α : Type} {m : SMap α} {k : Int} {v : α} : m.at' k = .ok v ↔ m.get? k = some v := by
  unfold SMap.at'
  cases m.get? k <;> simp

theorem SMap.at'_error {α : Type} {m : SMap α} {k : Int} : m.at' k = .error .outOfRange ↔ m.get? k = none := by
  unfold SMap.at'
  cases m.get? k <;> simp

theorem FileL.tree_indexed {F : FileL} (hF : F.Valid) : FileIndexed F F.tree := by
  obtain ⟨b1, b2⟩ := SMap.build (fun S : SecL => S.nums.mt) SecL.tree hF.2.1
  refine ⟨rfl, rfl, ?_, ?_, ?_⟩
  · intro S hS
    exact ⟨S.tree, SMap.at'_ok.mpr ((b2 _ _).mpr ⟨S, hS, rfl, rfl⟩), rfl, rfl, rfl, rfl⟩
  · exact SMap.sorted_iff_keys.mp b1
  · intro k
    show k ∈ SMap.keys _ ↔ _
    rw [← SMap.has_iff_keys, SMap.has_eq_isSome, Option.isSome_iff_exists]
    constructor
    · rintro ⟨v, hv⟩
      obtain ⟨S, hS, h1, h2⟩ := (b2 _ _).mp hv
      exact ⟨S, hS, h1⟩
    · rintro ⟨S, hS, rfl⟩
      exact ⟨S.tree, (b2 _ _).mpr ⟨S, hS, rfl, rfl⟩⟩

theorem MatL.tree_indexed {M : MatL} (hM : M.Valid) : MatIndexed M M.tree := by
  obtain ⟨b1, b2⟩ := SMap.build FileL.mf FileL.tree hM.2.1
  refine ⟨rfl, ?_, ?_, ?_⟩
  · intro F hF
    exact ⟨F.tree, SMap.at'_ok.mpr ((b2 _ _).mpr ⟨F, hF, rfl, rfl⟩), FileL.tree_indexed (hM.1 F hF).1⟩
  · exact SMap.sorted_iff_keys.mp b1
  · intro k
    show k ∈ SMap.keys _ ↔ _
    rw [← SMap.has_iff_keys, SMap.has_eq_isSome, Option.isSome_iff_exists]
    constructor
    · rintro ⟨v, hv⟩
      obtain ⟨S, hS, h1, h2⟩ := (b2 _ _).mp hv
      exact ⟨S, hS, h1⟩
    · rintro ⟨S, hS, rfl⟩
      exact ⟨S.tree, (b2 _ _).mpr ⟨S, hS, rfl, rfl⟩⟩

theorem TTape.numberMAT_eq (t : TTape) (k : Int) : t.numberMAT k = (SMap.getAll t.materials k).length := by
  simp [TTape.numberMAT, SMap.getAll, SMap.values]

theorem TTape.material_eq (t : TTape) (k : Int) :
    t.material k = if SMap.getAll t.materials k = [] then .error .outOfRange else .ok (SMap.getAll t.materials k) := by
  unfold TTape.material
  rw [TTape.numberMAT_eq]
  by_cases h : SMap.getAll t.materials k = []
  · simp [h]
  · rw [if_neg (by simpa using h), if_neg h]; rfl

theorem TapeL.tree_indexed {L : TapeL} (hL : L.Valid) : TapeIndexed L L.tree := by
  obtain ⟨b1, b2⟩ := SMap.buildMulti MatL.mat MatL.tree L.mats
  have b2' : ∀ k, SMap.getAll L.tree.materials k = (L.mats.filter (fun M => M.mat == k)).map MatL.tree := b2
  refine ⟨rfl, fun k => ?_⟩
  rw [TTape.numberMAT_eq, TTape.material_eq, b2']
  refine ⟨by simp, ?_, ?_⟩
  · intro h
    rw [if_neg (by intro hh; rw [hh] at h; simp at h)]
    refine ⟨_, rfl, ?_⟩
    have hv : ∀ M ∈ L.mats.filter (fun M => M.mat == k), M.Valid := fun M hM => hL.2.1 M (List.mem_filter.mp hM).1
    generalize L.mats.filter (fun M => M.mat == k) = l at hv
    clear h
    induction l with
    | nil => exact .nil
    | cons M l ih => exact .cons (MatL.tree_indexed (hv M (by simp))) (ih fun X hX => hv X (by simp [hX]))
  · intro h
    rw [if_pos (by simpa using h)]

/-- All lines before the TEND line. -/
def TapeL.front (t : TapeL) : Text := unlines (t.tpid :: t.mats.flatMap MatL.lines)

theorem TapeL.textWith_eq (t : TapeL) (g : Text) : t.textWith g = t.front ++ g := by
  simp [TapeL.textWith, TapeL.front]

/-! ### prefixes -/

omit [Disco] in
theorem unlines_ends (l : Text) (ls : List Text) : ∃ x, unlines (l :: ls) = x ++ ['\n'] := by
  induction ls generalizing l with
  | nil => exact ⟨l, by simp⟩
  | cons m ms ih =>
    obtain ⟨x, hx⟩ := ih m
    exact ⟨l ++ '\n' :: x, by rw [unlines_cons, hx]; simp⟩

omit [Disco] in
/-- A text has one last line. -/
theorem last_line_unique {x y a b : Text} (hx : ∃ x', x = x' ++ ['\n']) (hy : ∃ y', y = y' ++ ['\n']) (ha : '\n' ∉ a) (hb : '\n' ∉ b)
    (h : x ++ a = y ++ b) : x = y ∧ a = b := by
  have key : ∀ {x y a b : Text}, (∃ y', y = y' ++ ['\n']) → '\n' ∉ a → (∃ c, y = x ++ c ∧ a = c ++ b) → x = y ∧ a = b := by
    rintro x y a b ⟨y', hy'⟩ ha ⟨c, h1, h2⟩
    rcases List.eq_nil_or_concat c with rfl | ⟨c', z, rfl⟩
    · simp_all
    · exfalso
      rw [h1] at hy'
      simp only [List.concat_eq_append] at hy' h2
      rw [← List.append_assoc] at hy'
      have := List.append_inj_right' hy' rfl
      simp only [List.cons.injEq, and_true] at this
      subst this
      exact ha (by rw [h2]; simp)
  rcases List.append_eq_append_iff.mp h with h' | h'
  · exact key hy ha h'
  · obtain ⟨e1, e2⟩ := key hx hb h'
    exact ⟨e1.symm, e2.symm⟩

omit [Disco] in
theorem cols_append {a b : Nat} {l x : Text} (h1 : 1 ≤ a) (h : b ≤ l.length) : cols a b (l ++ x) = cols a b l := by
  simp only [cols]
  by_cases ha : a - 1 ≤ l.length
  · rw [List.drop_append_of_le_length ha, List.take_append_of_le_length (by simp; omega)]
  · have : b + 1 - a = 0 := by omega
    simp [this]

theorem DivLine.extend {d : Division} {l x : Text} (h : DivLine d l) (hl : 80 ≤ l.length) (hx : '\n' ∉ x) : DivLine d (l ++ x) := by
  obtain ⟨⟨h1, ⟨h2, h3, h4⟩, n, h5⟩, ⟨h6, h7, h8, h9, h10, h11⟩, h12⟩ := h
  refine ⟨⟨by simp [h1, hx], ⟨?_, ?_, ?_⟩, n, ?_⟩, ⟨?_, ?_, ?_, ?_, ?_, ?_⟩, h12⟩ <;> rw [cols_append (by omega) (by omega)] <;> assumption

/-- Any accepted beginning of a well formed tape contains its TEND record. -/
theorem prefix_accepted {L : TapeL} (hL : L.Valid) {g r p q : Text} (hg : At L.tend.text g r) (hpq : p ++ q = L.front ++ g) {n : Int}
    {t : TTape} {s : St} (h : readTTape ⟨p, n⟩ = .ok (t, s)) :
    L.front ++ L.tend.text ++ ['\n'] <+: p ∨ (80 ≤ L.tend.text.length ∧ L.front ++ L.tend.text.take 80 <+: p) := by
  obtain ⟨m, hm⟩ := readTTape_run hL hg n
  rw [TapeL.textWith_eq, ← hpq] at hm
  have hfront := unlines_ends L.tpid (L.mats.flatMap MatL.lines)
  have hinv := readTTape_inv ⟨p, n⟩
  rw [h] at hinv
  obtain ⟨L', g', v1, v2, v3, v4⟩ := hinv
  have hfront' := unlines_ends L'.tpid (L'.mats.flatMap MatL.lines)
  simp only at v2 v3
  rw [TapeL.textWith_eq] at v2
  rcases v3 with ⟨v3, v5 | ⟨v5, v6, v7⟩⟩
  · -- the TEND record of the beginning ends with a newline
    left
    have e : p ++ q = L'.front ++ (L'.tend.text ++ '\n' :: (s.rest ++ q)) := by rw [v2, v5]; simp
    obtain ⟨m', hm'⟩ := readTTape_run v1 (At.nl v3 (r := s.rest ++ q)) n
    rw [TapeL.textWith_eq, ← e, hm] at hm'
    have hr : r = s.rest ++ q := by
      simp only [Except.ok.injEq, Prod.mk.injEq, St.mk.injEq] at hm'
      exact hm'.2.1
    rcases hg with ⟨hgn, hg | ⟨hg, hr0, h80⟩⟩
    · rw [hg, hr] at hpq
      have : p = L.front ++ L.tend.text ++ '\n' :: s.rest := by
        apply List.append_cancel_right (bs := q)
        rw [hpq]; simp
      rw [this]
      exact ⟨s.rest, by simp⟩
    · -- both unterminated: impossible, the beginning is terminated
      exfalso
      rw [hr0] at hr
      have hr := hr.symm
      simp only [List.append_eq_nil_iff] at hr
      rw [hr.1] at v5
      rw [hr.2, v2, v5] at hpq
      simp only [List.append_nil] at hpq
      have := last_line_unique (x := L'.front ++ (L'.tend.text ++ ['\n'])) (y := L.front) (a := []) (b := g)
        ⟨L'.front ++ L'.tend.text, by simp⟩ hfront (by simp) (by rw [hg]; exact hgn) (by simpa using hpq)
      have hne : g ≠ [] := by
        intro h0; rw [hg] at h0; rw [h0] at h80; simp at h80
      exact hne this.2.symm
  · obtain ⟨q1, q2, rfl, hq1, hq2⟩ := split_line q
    have htd := v1.2.2.2
    have hext : DivLine L'.tend.div (L'.tend.text ++ q1) := htd.1.extend v7 hq1
    let L2 : TapeL := { L' with tend := ⟨L'.tend.text ++ q1, L'.tend.div⟩ }
    have hL2 : L2.Valid := ⟨v1.1, v1.2.1, v1.2.2.1, hext, htd.2⟩
    have e : p ++ (q1 ++ q2) = L2.front ++ (L'.tend.text ++ q1 ++ q2) := by
      rw [v2, v5]; simp [L2, TapeL.front]
    have hat2 : ∃ r2, At (L'.tend.text ++ q1) (L'.tend.text ++ q1 ++ q2) r2 ∧ (q2 = '\n' :: r2 ∨ (q2 = [] ∧ r2 = [])) := by
      rcases hq2 with rfl | ⟨r2, rfl⟩
      · exact ⟨[], ⟨hext.1.1, .inr ⟨by simp, rfl, by simp; omega⟩⟩, .inr ⟨rfl, rfl⟩⟩
      · exact ⟨r2, At.nl hext.1.1, .inl rfl⟩
    obtain ⟨r2, hat2, hq2'⟩ := hat2
    obtain ⟨m', hm'⟩ := readTTape_run hL2 hat2 n
    rw [TapeL.textWith_eq, ← e, hm] at hm'
    have hr : r = r2 := by
      simp only [Except.ok.injEq, Prod.mk.injEq, St.mk.injEq] at hm'
      exact hm'.2.1
    have hfin : L'.front = L.front ∧ L'.tend.text ++ q1 = L.tend.text := by
      have e' : L'.front ++ (L'.tend.text ++ q1) ++ q2 = L.front ++ g := by
        rw [← hpq, v2, v5]; simp
      rcases hg with ⟨hg0, hg | ⟨hg, hr0, hg80⟩⟩
      · rcases hq2' with hq2' | ⟨hq2', hr2⟩
        · rw [hg, hq2', hr] at e'
          have e'' : L'.front ++ (L'.tend.text ++ q1) = L.front ++ L.tend.text := by
            apply List.append_cancel_right (bs := '\n' :: r2)
            rw [e']; simp
          exact last_line_unique hfront' hfront hext.1.1 hg0 e''
        · exfalso
          rw [hq2', List.append_nil, hg, hr, hr2] at e'
          have := last_line_unique (x := L'.front) (y := L.front ++ (L.tend.text ++ ['\n'])) (b := []) hfront' ⟨L.front ++ L.tend.text, by simp⟩
            hext.1.1 (by simp) (by simpa using e')
          have h0 := this.2
          have : (L'.tend.text ++ q1).length = 0 := by rw [h0]; rfl
          simp at this
          have := this.1
          rw [this] at v7
          simp at v7
      · rcases hq2' with hq2' | ⟨hq2', hr2⟩
        · exfalso
          rw [hg, hq2', ← hr, hr0] at e'
          have := last_line_unique (x := L'.front ++ (L'.tend.text ++ q1) ++ ['\n']) (y := L.front) (a := []) ⟨_, rfl⟩ hfront
            (by simp) hg0 (by simpa using e')
          have h0 := this.2
          rw [← h0] at hg80
          simp at hg80
        · rw [hq2', List.append_nil, hg] at e'
          exact last_line_unique hfront' hfront hext.1.1 hg0 e'
    right
    refine ⟨by rw [← hfin.2]; simp; omega, ?_⟩
    rw [v2, v5, hfin.1, ← hfin.2, List.take_append_of_le_length v7]
    exact ⟨L'.tend.text.drop 80, by rw [List.append_assoc, List.take_append_drop]⟩

end ENDFtk

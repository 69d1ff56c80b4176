import Verif.Format.Proof1
import Verif.Format.Proof2
import Verif.Format.Proof3
import Verif.Format.Proof4
/-
  The readers of all section types accept exactly the formats of `Fmt`.
-/
set_option linter.unusedVariables false
set_option linter.unusedSectionVars false
set_option linter.unusedSimpArgs false
namespace ENDFtk
variable [Disco]

theorem body_is (t : Nums) (head : Division) : (T : SectionType) → Is (T.defn.read head t) t (Fmt.body T head.base t.mt)
  | .mf1mt451 => mf1mt451_is head
  | .mf1mt452 => mf1nubar_is 452 head
  | .mf1mt455 => mf1mt455_is head
  | .mf1mt456 => mf1nubar_is 456 head
  | .mf1mt458 => mf1mt458_is head
  | .mf1mt460 => mf1mt460_is head
  | .mf2mt151 => mf2mt151_is head
  | .mf2mt152 => mf2mt152_is head
  | .mf3 => mf3_is head
  | .mf4 => mf4_is head
  | .mf5 => mf5_is head
  | .mf6 => mf6_is head
  | .mf7mt2 => mf7mt2_is head
  | .mf7mt4 => mf7mt4_is head
  | .mf7mt451 => mf7mt451_is head
  | .mf8mt454 => mf8yields_is 454 head
  | .mf8mt457 => mf8mt457_is head
  | .mf8mt459 => mf8yields_is 459 head
  | .mf9 => mfProducts_is 9 head
  | .mf10 => mfProducts_is 10 head
  | .mf12 => mf12_is head
  | .mf13 => mf13_is head
  | .mf14 => mf14_is head
  | .mf15 => mf15_is head
  | .mf23 => mfTable_is 23 head
  | .mf26 => mf26_is head
  | .mf27 => mfTable_is 27 head
  | .mf28 => mf28_is head
  | .mf31 => mf31_is head
  | .mf33 => mf33_is head
  | .mf34 => mf34_is head
  | .mf35 => mf35_is head
  | .mf40 => mf40_is head

theorem numbers_eq (T : SectionType) : Fmt.numbers T = (T.defn.mf, T.defn.fixedMT) := by cases T <;> rfl

theorem fmt_mt (T : SectionType) (head : Division) : Fmt.mt T head = T.defn.mtOf head := by
  simp only [Fmt.mt, SecDef.mtOf, numbers_eq]

theorem compares_eq (T : SectionType) : Fmt.comparesHead T ↔ T.defn.checksHead = true := by
  cases T <;> simp [Fmt.comparesHead, SectionType.defn] <;> rfl

theorem headMT_eq (T : SectionType) : Fmt.headMT T = T.defn.recHeadMT := by cases T <;> rfl

theorem headMAT_eq (T : SectionType) : T.defn.recHeadMAT = true → Fmt.headMAT T = true ∨ T.defn.checksHead = true := by
  cases T <;> first | (intro h; exact absurd h Bool.false_ne_true) | (intro _; exact .inl rfl) | (intro _; exact .inr rfl)

theorem headMAT_eq' (T : SectionType) : Fmt.headMAT T = true → T.defn.recHeadMAT = true := by
  cases T <;> first | (intro h; exact absurd h Bool.false_ne_true) | (intro _; rfl)

theorem headOk_eq (T : SectionType) (head : Division) (mat : Int) :
    (if T.defn.checksHead then checkHead head mat T.defn.mf (T.defn.mtCheck head) else checkBase (headZA head) head.base.c2 (T.defn.mtCheck head)) = .ok () ↔
      Fmt.headOk T head mat := by
  unfold Fmt.headOk
  rw [compares_eq, numbers_eq]
  have hb : checkBase (headZA head) head.base.c2 (T.defn.mtCheck head) = .ok () ↔
      1 ≤ headZA head ∧ Disco.ltD head.base.c2 Disco.zero = false ∧ (T.defn.fixedMT = none → 1 ≤ head.tail.mt) := by
    unfold checkBase SecDef.mtCheck
    cases hf : T.defn.fixedMT with
    | some m =>
      simp only [Option.isSome_some, if_true, reduceCtorEq, false_implies, and_true]
      split
      · simp only [reduceCtorEq, false_iff]; omega
      · split <;> rename_i h1 h2
        · simp [h2]
        · simp only [Bool.not_eq_true] at h2; simp only [h2, true_iff, and_true]; omega
    | none =>
      simp only [Option.isSome_none, Bool.false_eq_true, if_false, true_implies]
      split
      · simp only [reduceCtorEq, false_iff]; omega
      · split <;> rename_i h1 h2
        · simp [h2]
        · simp only [Bool.not_eq_true] at h2
          split
          · simp only [reduceCtorEq, false_iff]; omega
          · simp only [h2, true_iff]; refine ⟨by omega, trivial, by omega⟩
  cases hc : T.defn.checksHead with
  | false => simp [hb]
  | true =>
    simp only [if_true, true_implies]
    unfold checkHead
    cases hk : checkBase (headZA head) head.base.c2 (T.defn.mtCheck head) with
    | error e =>
      simp only [reduceCtorEq, false_iff]
      rintro ⟨h1, h2, h3, -⟩
      rw [hb.mpr ⟨h1, h2, h3⟩] at hk; cases hk
    | ok u =>
      obtain ⟨h1, h2, h3⟩ := hb.mp hk
      simp only []
      split
      · rename_i h; simp only [reduceCtorEq, false_iff]; rintro ⟨-, -, -, h4, -⟩; exact h h4.symm
      · split
        · rename_i h; simp only [reduceCtorEq, false_iff]; rintro ⟨-, -, -, -, h4⟩; exact h h4.symm
        · rename_i ha hb'
          simp only [true_iff]
          exact ⟨h1, h2, h3, by simpa using Eq.symm (Decidable.not_not.mp ha), Eq.symm (Decidable.not_not.mp hb')⟩

theorem recNums_eq {T : SectionType} {head : Division} {mat : Int} (h : Fmt.headOk T head mat) : T.defn.recNums head mat = Fmt.recNums T head mat := by
  unfold SecDef.recNums Fmt.recNums
  rw [fmt_mt, headMT_eq, numbers_eq]
  have : (if T.defn.recHeadMAT then head.tail.mat else mat) = if Fmt.headMAT T then head.tail.mat else mat := by
    cases h1 : T.defn.recHeadMAT with
    | false =>
      cases h2 : Fmt.headMAT T with
      | false => rfl
      | true => rw [headMAT_eq' T h2] at h1; cases h1
    | true =>
      rcases headMAT_eq T h1 with h2 | h2
      · rw [h2]
      · rw [((h.2.2.2) ((compares_eq T).mpr h2)).1]; simp
  rw [this]

theorem sendAt_eq (mat mf : Int) (s s' : St) : readSEND mat mf s = .ok ((), s') ↔ Fmt.sendAt mat mf s s' := by
  unfold readSEND Fmt.sendAt
  simp only [Parser.mapErr]
  cases h : readDivision s with
  | error e =>
    simp [bind, Parser.bind, h]
  | ok p =>
    obtain ⟨d, s1⟩ := p
    simp only [bind, Parser.bind, h]
    by_cases h1 : d.isSend = true
    · by_cases h2 : mat = d.tail.mat
      · by_cases h3 : mf = d.tail.mf
        · simp [h1, h2, h3, pure, Parser.pure]
          constructor
          · rintro rfl; exact ⟨d, ⟨rfl, rfl⟩, h1, rfl, rfl⟩
          · rintro ⟨_, ⟨_, h⟩, _⟩; exact h
        · simp [h1, h2, h3, Parser.fail]
          intros; simp_all; exact fun e => h3 e.symm
      · simp [h1, h2, Parser.fail]
        intros; simp_all
    · simp [h1, Parser.fail]
      try (rintro x rfl _ h; exact absurd h (by simp [h1]))

theorem readSect_iff (T : SectionType) (head : Division) (mat : Int) (s : St) (x : Sect T.Data) (s' : St) :
    T.defn.readSect head mat s = .ok (x, s') ↔
      Fmt.headOk T head mat ∧ x.za = headZA head ∧ x.awr = head.base.c2 ∧ x.mt = Fmt.mt T head ∧
      ∃ rs s1, Recs (Fmt.recNums T head mat) rs s s1 ∧ Fmt.body T head.base (Fmt.recNums T head mat).mt x.data rs ∧
        Fmt.sendAt mat (Fmt.numbers T).1 s1 s' := by
  have hbody := body_is (Fmt.recNums T head mat) head T
  unfold SecDef.readSect
  rw [Parser.mapErr_ok]
  constructor
  · intro h
    obtain ⟨u, s0, h0, k1⟩ := Parser.bind_eq_ok.mp h
    clear h
    obtain ⟨b, s1, h1, k2⟩ := Parser.bind_eq_ok.mp k1
    clear k1
    obtain ⟨u', s2, h2, k3⟩ := Parser.bind_eq_ok.mp k2
    clear k2
    have hl : (if T.defn.checksHead then checkHead head mat T.defn.mf (T.defn.mtCheck head) else checkBase (headZA head) head.base.c2 (T.defn.mtCheck head)) = .ok () ∧ s0 = s := by
      unfold liftE at h0
      split at h0 <;> rename_i hx
      · rw [hx]; injection h0 with h0; injection h0 with h0 h0'; exact ⟨rfl, h0'.symm⟩
      · cases h0
    obtain ⟨hl, rfl⟩ := hl
    have hok := (headOk_eq T head mat).mp hl
    rw [recNums_eq hok] at h1
    obtain ⟨rs, hr, hb⟩ := (hbody _ _ _).mp h1
    rw [Parser.pure_run] at k3; injection k3 with k3; injection k3 with h3 h4
    subst h4; subst h3
    refine ⟨hok, rfl, rfl, (fmt_mt T head).symm, rs, s1, hr, hb, ?_⟩
    rw [numbers_eq]
    exact (sendAt_eq _ _ _ _).mp h2
  · rintro ⟨hok, h1, h2, h3, rs, s1, hr, hb, hs⟩
    refine Parser.bind_eq_ok.mpr ⟨(), s, ?_, Parser.bind_eq_ok.mpr ⟨x.data, s1, ?_, Parser.bind_eq_ok.mpr ⟨(), s', ?_, ?_⟩⟩⟩
    · unfold liftE; rw [(headOk_eq T head mat).mpr hok]
    · rw [recNums_eq hok]; exact (hbody _ _ _).mpr ⟨rs, hr, hb⟩
    · rw [numbers_eq] at hs; exact (sendAt_eq _ _ _ _).mpr hs
    · rw [← fmt_mt, ← h1, ← h2, ← h3]; rfl

end ENDFtk

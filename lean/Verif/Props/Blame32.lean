import Verif.Props.Blame
import Verif.Section.LocalW
import Verif.Props.ResCov
/-
  C49, C55: what must be in a text for the behaviour of the parser of section 32/151 to be undefined.
-/
set_option linter.unusedVariables false
set_option linter.unusedSectionVars false
set_option linter.unusedSimpArgs false
namespace ENDFtk.Props
variable [Disco]

/-! ### specification -/

/-- A rectangular matrix without rows, or large counts. -/
def Culprit32 (c : Cont) : Prop := (c.l2 = 6 ∧ c.n2 = 0) ∨ Beyond 2000000000 c.n1 ∨ Beyond 9000 c.n2

/-- The text from line `k` on. -/
def linesFrom : Nat → Text → Text
  | 0, txt => txt
  | k + 1, txt => linesFrom k (afterLine txt)

/-- The first line of the text shows such a record, or it is a line with less than 66 columns. -/
def BadLine32 (rest : Text) : Prop := (rest ≠ [] ∧ (firstLine rest).length < 66) ∨ ∃ c, ShowsCont c (firstLine rest) ∧ Culprit32 c

theorem lineAt_from (k : Nat) (s : Text) : lineAt k s = firstLine (linesFrom k s) := by
  induction k generalizing s with
  | zero => rfl
  | succ k ih => exact ih _

theorem from_lines {ls : List Text} {s r : Text} (h : Lines ls s r) (k : Nat) : linesFrom (k + ls.length) s = linesFrom k r := by
  induction h with
  | nil => rfl
  | cons hl h ih => show linesFrom (k + _) (afterLine _) = _; rw [(firstLine_cons hl).2]; exact ih
  | last hl _ => show linesFrom k (afterLine _) = _; rw [(firstLine_last hl).2]

/-! ### the records -/

instance {σ α : Type} {Q : Cont → Prop} (f : Cont → σ) (g : σ → α → Cont) (c : Cont → Comp α) [∀ r, CLocal (c r)] [∀ r, CBlames Q (c r)] :
    CBlames Q (hdrC f g c) := by cblam hdrC

theorem blame9000 {l : LIST} {P : Prop} (hp : P) (h : toInt32 l.n2 = l.n2 → -9000 ≤ l.n2 → l.n2 ≤ 9000 → ¬P) : Culprit32 (listLine l) :=
  .inr (.inr (beyond_of (by decide) hp h))

instance : CBlames Culprit32 limitedLValueC := list_checked fun l _ h => by
  obtain ⟨-, -, h⟩ : limitedLValueOv l := h
  exact blame9000 h fun e _ _ => by rw [e]; simp only [Over]; omega

instance : CBlames Culprit32 compactUncertaintiesC := list_checked fun l _ h => by
  obtain ⟨-, -, h⟩ : compactOv l := h
  exact blame9000 h fun e _ _ => by rw [e]; simp only [Over]; omega

instance : CBlames Culprit32 (listC.checked lvalueAOk lvalueAOv) := list_checked fun l _ h => by
  have h : Over (6 * toInt32 l.n2) := h
  exact blame9000 h fun e _ _ => by rw [e]; simp only [Over]; omega

instance : CBlames Culprit32 triangleC := list_checked fun l _ h => by
  obtain ⟨-, -, h⟩ : triangleOv l := h
  refine blame9000 h fun e h1 h2 => ?_
  have := mul_bound (A := 9000) (B := 9001) (a := l.n2) (b := l.n2 + 1) (by omega) (by omega)
  rw [e]; simp only [Over]; omega

instance : CBlames Culprit32 shortRangeC := list_checked fun l _ h => by
  obtain ⟨-, g1, g2, -, h⟩ : shortRangeOv l := h
  refine blame9000 h fun e h1 h2 => ?_
  rw [e]
  have b1 := mul_bound (A := 5) (B := 9000) (a := toInt32 l.l1) (b := l.n2) (by omega) (by omega)
  generalize toInt32 l.l1 * l.n2 = m at b1 ⊢
  have b2 := mul_bound (A := 45000) (B := 45001) (a := m) (b := m + 1) (by omega) (by omega)
  generalize m * (m + 1) = q at b2 ⊢
  have b3 : -1013000000 ≤ Int.tdiv q 2 ∧ Int.tdiv q 2 ≤ 1013000000 := by
    rw [Int.tdiv_eq_ediv]; split <;> (try simp only [Int.sign]) <;> omega
  simp only [Over]; omega

instance : CBlames Culprit32 explicitC := CBlames.mono (fun c h => by
  rcases h with h | h | h
  · exact .inl h
  · exact .inr (.inl h)
  · exact .inr (.inr (beyond_mono h (by decide)))) (explicit_blame (m := 2000000000) (by decide))

instance : CBlames Culprit32 longRangeC := list_checkedE fun l h => by
  unfold longRangeCheck at h
  split at h
  · unfold covariancePairsCheck at h
    have ho : Over (2 * toInt32 l.n2) := by
      simp only at h
      repeat' split at h
      all_goals first | assumption | (cases h; done)
    exact blame9000 ho fun e _ _ => by rw [e]; simp only [Over]; omega
  · split at h
    · unfold squareMatrixCheck at h
      split at h
      · cases h
      · rcases square_blame h with h | h
        · exact .inr (.inl h)
        · exact .inr (.inr (beyond_mono h (by decide)))
    · cases h

instance {Q : Cont → Prop} : CBlames Q dapC := by cblam dapC
instance {Q : Cont → Prop} : CBlames Q dapListC := by cblam dapListC
instance {Q : Cont → Prop} : CBlames Q dapNoneC := by cblam dapNoneC
instance {Q : Cont → Prop} : CBlames Q channelsC := by cblam channelsC
instance {Q : Cont → Prop} : CBlames Q particlePairsC := by cblam particlePairsC
instance {Q : Cont → Prop} : CBlames Q rmlParametersC := by cblam rmlParametersC
instance : CBlames Culprit32 limitedC := by cblam limitedC
instance {δ α : Type} (dap : Comp δ) (short : Comp α) [CLocal dap] [CLocal short] [CBlames Culprit32 dap] [CBlames Culprit32 short] :
    CBlames Culprit32 (generalC dap short) := by cblam generalC
instance : CBlames Culprit32 shortRangeRmlC := by cblam shortRangeRmlC
instance : CBlames Culprit32 unresolvedC := by cblam unresolvedC
instance : CBlames Culprit32 compactGroupC := by cblam compactGroupC
instance : CBlames Culprit32 compactRmlC := by cblam compactRmlC
instance : CBlames Culprit32 radiusCovC := by cblam radiusCovC

/-! ### correlation matrices and the section -/

/-- Whenever the behaviour of the reading function is undefined, some line of the text is bad. -/
class WBlames (Q : Text → Prop) {α : Type} (p : Parser α) : Prop where
  blame : ∀ {s}, p s = .error .ub → ∃ k, Q (linesFrom k s.rest)

namespace WBlames
variable {α β : Type} {Q : Text → Prop}

instance (priority := low) ofBlames (p : Parser α) [h : Blames Culprit32 p] : WBlames BadLine32 p where
  blame := fun hs => by
    obtain ⟨k, c, h1, h2⟩ := h.blame hs
    exact ⟨k, .inr ⟨c, by rw [← lineAt_from]; exact h1, h2⟩⟩

instance pure (a : α) : WBlames Q (Pure.pure a : Parser α) := ⟨fun h => by cases h⟩
instance fail : WBlames Q (Parser.fail .exc : Parser α) := ⟨fun h => by cases h⟩

theorem bind {p : Parser α} {f : α → Parser β} [hl : LocalW p] (hp : WBlames Q p) (hf : ∀ a, WBlames Q (f a)) : WBlames Q (p >>= f) where
  blame := by
    intro s h
    cases hps : p s with
    | error e =>
      rw [Parser.bind_err hps] at h
      cases h
      exact hp.blame hps
    | ok r =>
      obtain ⟨a, s'⟩ := r
      rw [Parser.bind_ok hps] at h
      obtain ⟨k, h1⟩ := (hf a).blame h
      obtain ⟨ls, m, k1, -, -⟩ := hl.run hps
      exact ⟨k + ls.length, by rw [from_lines k1]; exact h1⟩

theorem mapErr {p : Parser α} {g : Err → Err} (hg : ∀ e, g e = .ub → e = .ub) (hp : WBlames Q p) : WBlames Q (Parser.mapErr g p) where
  blame := by
    intro s h
    obtain ⟨e, h1, h2⟩ := Parser.mapErr_error.mp h
    cases hg e h2
    exact hp.blame h1

theorem ite {p q : Parser α} {c : Prop} {inst : Decidable c} (hp : WBlames Q p) (hq : WBlames Q q) : WBlames Q (if c then p else q) := by
  split
  · exact hp
  · exact hq

theorem readMany {p : Parser α} [LocalW p] (hp : WBlames Q p) : ∀ n, WBlames Q (ENDFtk.readMany p n)
  | 0 => .pure _
  | n + 1 => .bind hp fun _ => .bind (readMany hp n) fun _ => .pure _

instance (p : Parser α) [LocalW p] [hp : WBlames Q p] (n : Int) : WBlames Q (readSequence p n) := .ite .fail (hp.readMany _)
instance (p : Parser α) [LocalW p] [hp : WBlames Q p] (n : Nat) : WBlames Q (ENDFtk.readMany p n) := hp.readMany n

end WBlames

/-- Follows the structure of a reading function. -/
macro "wblam" : tactic => `(tactic| repeat' (first
  | assumption
  | infer_instance
  | apply WBlames.bind
  | apply WBlames.mapErr catchStd_isUb
  | apply WBlames.ite
  | intro _
  | split))

/-- Undefined behaviour of reading an INTG record: the line is too short. -/
theorem intg_blame {nd : Nat} (hnd : 2 ≤ nd ∧ nd ≤ 6) (t : Nums) : WBlames BadLine32 (readINTG nd (intgN nd) t) where
  blame := by
    intro s h
    refine ⟨0, .inl ?_⟩
    cases s with
    | mk s n =>
    obtain ⟨l, tt, hs, hl, ht⟩ := split_line s
    subst hs
    have hf : firstLine (l ++ tt) = l := by
      rcases ht with rfl | ⟨r, rfl⟩
      · rw [List.append_nil]; exact (firstLine_last hl).1
      · exact (firstLine_cons hl).1
    show l ++ tt ≠ [] ∧ (firstLine (l ++ tt)).length < 66
    rw [hf]
    refine ⟨?_, ?_⟩
    · intro h0
      obtain ⟨rfl, rfl⟩ := List.append_eq_nil_iff.mp h0
      have h1 := readInt_cols 5 [] [] n (by simp) ht
      rw [if_pos (by simp)] at h1
      have h2 : readINTG nd (intgN nd) t ⟨[] ++ [], n⟩ = .error .exc := by
        unfold readINTG Parser.mapErr
        rw [Parser.bind_err h1]; rfl
      rw [h2] at h
      cases h
    · refine Classical.byContradiction fun hw => ?_
      have := readINTG_full_line hnd t l tt n hl ht (by omega)
      rw [h] at this
      exact stdErr_ub this

variable [CorrOps]

instance (t : Nums) : WBlames BadLine32 (CorrMatrix.read t) := by
  unfold CorrMatrix.read
  refine WBlames.bind inferInstance fun c => ?_
  dsimp only
  split
  · infer_instance
  · rename_i h
    have := intg_blame (nd := (CorrMatrix.asUnsigned c.l1).toNat) (by omega) t
    wblam

instance (t : Nums) : WBlames BadLine32 (corrC.read t) := by show WBlames BadLine32 (CorrMatrix.read t); infer_instance

theorem andThen_blame {α β : Type} (c : Comp α) (d : α → Comp β) [CLocalW c] [∀ a, CLocalW (d a)] (t : Nums) (hc : WBlames BadLine32 (c.read t))
    (hd : ∀ a, WBlames BadLine32 ((d a).read t)) : WBlames BadLine32 ((c.andThen d).read t) := by
  unfold Comp.andThen
  exact WBlames.bind hc fun a => WBlames.bind (hd a) fun _ => inferInstance

theorem compact_blame {δ α : Type} (dap : Comp δ) (unc : Comp α) [CLocal dap] [CLocal unc] [CBlames Culprit32 dap] [CBlames Culprit32 unc] (t : Nums) :
    WBlames BadLine32 ((compactC dap unc).read t) := by
  unfold compactC hdrC
  exact WBlames.bind inferInstance fun r => WBlames.bind (andThen_blame _ _ t inferInstance fun _ => andThen_blame _ _ t inferInstance fun _ => inferInstance)
    fun _ => inferInstance

theorem cov_blame (k : CovType) (t : Nums) : WBlames BadLine32 (k.comp.read t) := by
  cases k
  case compactSLBW => exact compact_blame _ _ t
  case compactMLBW => exact compact_blame _ _ t
  case compactRM => exact compact_blame _ _ t
  case compactRML => exact compact_blame _ _ t
  case limitedSLBW => exact WBlames.ofBlames (limitedC.read t)
  case limitedMLBW => exact WBlames.ofBlames (limitedC.read t)
  case generalSLBW => exact WBlames.ofBlames ((generalC dapC shortRangeC).read t)
  case generalMLBW => exact WBlames.ofBlames ((generalC dapC shortRangeC).read t)
  case generalRM => exact WBlames.ofBlames ((generalC dapListC shortRangeC).read t)
  case generalRML => exact WBlames.ofBlames ((generalC dapNoneC shortRangeRmlC).read t)
  case unresolved => exact WBlames.ofBlames (unresolvedC.read t)

instance (lru lrf : Int) (t : Nums) : WBlames BadLine32 (CovParams.read lru lrf t) where
  blame := by
    intro s h
    unfold CovParams.read at h
    split at h
    · rename_i e he
      cases h
      exact WBlames.blame (p := readCont t) he
    · split at h
      · cases h
      · rename_i k _
        have hb : WBlames BadLine32 (do let x ← k.comp.read t; pure ⟨k, x⟩ : Parser CovParams) :=
          WBlames.bind (cov_blame k t) fun _ => inferInstance
        obtain ⟨j, hj⟩ := hb.blame h
        exact ⟨j, hj⟩

instance (t : Nums) : WBlames BadLine32 (CovRange.read t) := by unfold CovRange.read; wblam
instance (t : Nums) : WBlames BadLine32 (CovIsotope.read t) := by unfold CovIsotope.read; wblam

/-- If the behaviour of parsing section 32/151 is undefined, then a line of the text is too short or shows a record that is to blame for it. -/
theorem C55_blame {s : St} (h : mf32mt151.parse s = .error .ub) : ∃ k, BadLine32 (linesFrom k s.rest) := by
  obtain ⟨head, t, s', h1, h2, h3⟩ := parse_ub h
  have hb : WBlames BadLine32 (mf32mt151.read head t) := by dsimp only [mf32mt151]; wblam
  obtain ⟨k, hk⟩ := hb.blame h3
  exact ⟨k + 1, by rw [h2] at hk; exact hk⟩

/-- On all other texts section 32/151 is read, or there is a `std::exception`. -/
theorem C55_safe_texts {s : St} (hs : ∀ k, ¬BadLine32 (linesFrom k s.rest)) {er : Err} (h : mf32mt151.parse s = .error er) : er.isStd = true := by
  have h1 := C55_total_partial s
  rw [h] at h1
  rcases h1 with h1 | rfl
  · exact h1
  · obtain ⟨k, hk⟩ := C55_blame h
    exact (hs k hk).elim

end ENDFtk.Props

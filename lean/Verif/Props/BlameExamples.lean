import Verif.Props.Blame
import Verif.Props.SectionCounterexamples
/-
  C49: texts that meet the hypothesis of `C49_safe_texts`, with the concrete number format `concDisco`.
-/
set_option linter.unusedVariables false
set_option maxRecDepth 100000
namespace ENDFtk.Props.BlameExamples
attribute [local instance] concDisco

instance (m n : Int) : Decidable (Beyond m n) := by unfold Beyond; exact inferInstance

instance (T : SectionType) (h : Cont) (k : Nat) (c : Cont) : Decidable (Culprit T h k c) := by
  cases T <;> simp only [Culprit] <;> exact inferInstance

/-- What a line shows. -/
def shown (l : Text) : Option Cont := do
  let c1 ← parseReal (cols 1 11 l)
  let c2 ← parseReal (cols 12 22 l)
  let l1 ← parseInt (cols 23 33 l)
  let l2 ← parseInt (cols 34 44 l)
  let n1 ← parseInt (cols 45 55 l)
  let n2 ← parseInt (cols 56 66 l)
  pure ⟨c1, c2, l1, l2, n1, n2⟩

theorem shown_of {c : Cont} {l : Text} (h : ShowsCont c l) : shown l = some c := by
  obtain ⟨h1, h2, h3, h4, h5, h6⟩ := h
  unfold shown
  rw [h1, h2, h3, h4, h5, h6]; rfl

/-- The text after `n` lines. -/
def afterLines : Nat → Text → Text
  | 0, s => s
  | n + 1, s => afterLines n (afterLine s)

theorem lineAt_after (n k : Nat) (s : Text) : lineAt (k + n) s = lineAt k (afterLines n s) := by
  induction n generalizing s with
  | zero => rfl
  | succ n ih => exact ih (afterLine s)

theorem lineAt_nil (k : Nat) : lineAt k [] = [] := by
  induction k with
  | zero => rfl
  | succ k ih => exact ih

/-- The text has `n` lines, and no line of it is to blame. -/
def Harmless (T : SectionType) (s : Text) (n : Nat) : Prop :=
  2 ≤ n ∧ afterLines n s = [] ∧ ∀ head ∈ shown (lineAt 0 s), ∀ k < n, ∀ c ∈ shown (lineAt k s), ¬Culprit T head k c

instance (T : SectionType) (s : Text) (n : Nat) : Decidable (Harmless T s n) := by unfold Harmless; exact inferInstance

theorem blank_harmless (T : SectionType) (head : Cont) {k : Nat} (hk : 2 ≤ k) (x y : Dbl) : ¬Culprit T head k ⟨x, y, 0, 0, 0, 0⟩ := by
  have e : toInt32 0 = 0 := toInt32_of (show IsInt32 0 by decide)
  cases T <;> simp only [Culprit, Beyond, e] <;> first | exact id | (simp; done) | (simp; omega)

theorem shown_nil : ∃ x y, shown [] = some ⟨x, y, 0, 0, 0, 0⟩ := ⟨_, _, by unfold shown; rfl⟩

/-- The hypothesis of `C49_safe_texts` is met. -/
theorem harmless_safe {T : SectionType} {s : Text} {n : Nat} (h : Harmless T s n) (line : Int) :
    ∀ head k c, LineShows 0 ⟨s, line⟩ head → LineShows k ⟨s, line⟩ c → ¬Culprit T head k c := by
  intro head k c h0 hk
  obtain ⟨h1, h2, h3⟩ := h
  by_cases hn : k < n
  · exact h3 head (shown_of h0) k hn c (shown_of hk)
  · have hk := shown_of hk
    rw [show k = (k - n) + n by omega, lineAt_after, h2, lineAt_nil] at hk
    obtain ⟨x, y, e⟩ := shown_nil
    rw [e] at hk
    cases hk
    exact blank_harmless T head (by omega) x y

theorem safe_mf8mt454_chunk : Harmless .mf8mt454 (txt
    " 9.223500+4 2.330250+2          2          0          0          09228 8454     \n"
    " 2.530000-2 0.000000+0          1          0         12          39228 8454     \n"
    " 2.306600+4 0.000000+0 2.05032-19 1.31220-19 5.413500+4 0.000000+09228 8454     \n"
    " 7.851250-4 4.710750-5 7.217100+4 0.000000+0 0.000000+0 0.000000+09228 8454     \n"
    " 5.000000+5 0.000000+0          3          0         12          39228 8454     \n"
    " 2.306600+4 0.000000+0 4.48456-18 2.87012-18 5.413500+4 0.000000+09228 8454     \n"
    " 1.196100-3 2.751030-4 7.217100+4 0.000000+0 0.000000+0 0.000000+09228 8454     \n"
    "                                                                  9228 8  0     \n") 8 := by decide +kernel

theorem safe_mf33_chunk : Harmless .mf33 (txt
    " 9.423900+4 2.369986+2          0          0          0          1943733  2     \n"
    " 1.000000+0 2.000000+0          3          4          1          1943733  2     \n"
    " 0.000000+0 0.000000+0          0          0          0          0943733  2     \n"
    " 2.500000+3 2.000000+7          0          0         14          7943733  2     \n"
    " 1.000000+0 1.000000+0-1.000000+0 4.000000+0-1.000000+0 1.600000+1943733  2     \n"
    "-1.000000+0 1.700000+1-1.000000+0 1.800000+1-1.000000+0 3.700000+1943733  2     \n"
    "-1.000000+0 1.020000+2                                            943733  2     \n"
    " 0.000000+0 0.000000+0          0          5          7          3943733  2     \n"
    " 0.000000+0 1.000000+2 2.000000+2 1.000000+0 2.000000+0 3.000000+0943733  2     \n"
    " 4.000000+0                                                       943733  2     \n"
    "                                                                  943733  0     \n") 11 := by decide +kernel

theorem safe_mf6_chunk : Harmless .mf6 (txt
    " 9.223500+4 2.330248+2          0          2          3          09228 6  5     \n"
    " 1.001000+3 9.986234-1          0          1          1          49228 6  5     \n"
    "          4          2                                            9228 6  5     \n"
    " 1.000000-5 0.000000+0 1.100000+7 8.45368-11 1.147000+7 6.622950-89228 6  5     \n"
    " 2.000000+7 2.149790-1                                            9228 6  5     \n"
    " 0.000000+0 0.000000+0          1          2          1          29228 6  5     \n"
    "          2          1                                            9228 6  5     \n"
    " 0.000000+0 1.000000-5          0          1         12          49228 6  5     \n"
    " 1.000000+0 2.000000+0 3.000000+0 4.000000+0 5.000000+0 6.000000+09228 6  5     \n"
    " 7.000000+0 8.000000+0 9.000000+0 1.000000+1 1.100000+1 1.200000+19228 6  5     \n"
    " 0.000000+0 2.000000+7          0          1          6          29228 6  5     \n"
    " 1.000000+0 2.000000+0 3.000000+0 4.000000+0 5.000000+0 6.000000+09228 6  5     \n"
    " 1.000000+0 1.000000+0          0          1          1          29228 6  5     \n"
    "          2          2                                            9228 6  5     \n"
    " 1.858639+7 4.000000+0 2.000000+7 4.000000+0                      9228 6  5     \n"
    " 0.000000+0 0.000000+0          1          2          1          29228 6  5     \n"
    "          2         22                                            9228 6  5     \n"
    " 0.000000+0 1.858639+7          0          0          6          39228 6  5     \n"
    " 0.000000+0 0.000000+0 5.000000-1 2.000000+0 1.000000+0 0.000000+09228 6  5     \n"
    " 0.000000+0 2.000000+7          0          0          6          39228 6  5     \n"
    " 0.000000+0 0.000000+0 5.000000-1 2.000000+0 1.000000+0 0.000000+09228 6  5     \n"
    " 0.000000+0 0.000000+0          0          1          1          39228 6  5     \n"
    "          3          2                                            9228 6  5     \n"
    " 1.858639+7 1.000000+0 1.900000+7 2.000000+0 2.000000+7 3.000000+09228 6  5     \n"
    " 0.000000+0 0.000000+0          1          2          1          29228 6  5     \n"
    "          2          5                                            9228 6  5     \n"
    " 0.000000+0 1.858639+7          0          0          6          39228 6  5     \n"
    " 0.000000+0 0.000000+0 1.000000+0 1.000000+0 2.000000+0 0.000000+09228 6  5     \n"
    " 0.000000+0 2.000000+7          0          0          6          39228 6  5     \n"
    " 0.000000+0 0.000000+0 1.000000+0 1.000000+0 2.000000+0 0.000000+09228 6  5     \n"
    "                                                                  9228 6  0     \n") 31 := by decide +kernel

theorem safe_mf2mt151_chunkResolvedSLBW : Harmless .mf2mt151 (txt
    " 6.114800+4 1.466500+2          0          0          1          0 125 2151     \n"
    " 6.114800+4 1.000000+0          0          0          1          0 125 2151     \n"
    " 1.000000-5 1.000000+0          1          1          0          0 125 2151     \n"
    " 6.000000+0 6.380900-1          0          0          1          0 125 2151     \n"
    " 1.466470+2 0.000000+0          0          0          6          1 125 2151     \n"
    " 1.690000-1 6.000000+0 8.018800-2 5.880000-4 7.960000-2 0.000000+0 125 2151     \n"
    "                                                                   125 2  0     \n") 7 := by decide +kernel

/-- For example: whatever happens to this text, the behaviour is defined. -/
example {er : Err} (h : SectionType.mf8mt454.defn.parse ⟨txt
    " 9.223500+4 2.330250+2          2          0          0          09228 8454     \n"
    " 2.530000-2 0.000000+0          1          0         12          39228 8454     \n"
    " 2.306600+4 0.000000+0 2.05032-19 1.31220-19 5.413500+4 0.000000+09228 8454     \n", 0⟩ = .error er) : er.isStd = true :=
  C49_safe_texts _ (harmless_safe (n := 3) (by decide +kernel) 0) h

end ENDFtk.Props.BlameExamples

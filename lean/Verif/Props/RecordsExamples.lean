import Verif.Props.Records
/-
  Counterexamples to the parts of C31, C35, C40 that the code does not satisfy, and concrete cases that meet the hypotheses of the theorems
  of `Verif/Props/Records.lean`.  All use the concrete number format `concDisco`.
-/
set_option linter.unusedVariables false
namespace ENDFtk.Props
attribute [local instance] concDisco

/-- Counterexample to C31: I = -1 is accepted (as an unsigned number). -/
theorem C31_negative_index_accepted :
    ∃ line : Text, ∃ r, readINTG 2 18 ⟨9228, 32, 151⟩ ⟨line, 0⟩ = .ok (r, ⟨[], 1⟩) ∧ line.take 10 = "   -1    2".toList ∧ r.i = 4294967295 :=
  ⟨"   -1    2   3                                                    922832151     \n".toList, ⟨4294967295, 2, [3]⟩, by decide +kernel, by decide +kernel,
    by decide +kernel⟩

/-- Counterexample to C31: a line that ends after J is not rejected: the numbers of the next line are taken instead. -/
theorem C31_reads_next_line :
    ∃ l1 l2 : Text, '\n' ∉ l1 ∧ '\n' ∉ l2 ∧
      readINTG 6 8 ⟨0, 0, 0⟩ ⟨l1 ++ '\n' :: l2 ++ ['\n'], 0⟩ ≠ readINTG 2 18 ⟨9228, 32, 151⟩ ⟨l1 ++ '\n' :: l2 ++ ['\n'], 0⟩ ∧
      readINTG 2 18 ⟨9228, 32, 151⟩ ⟨l1 ++ '\n' :: l2 ++ ['\n'], 0⟩ = .ok (⟨1, 2, [7]⟩, ⟨[], 1⟩) :=
  ⟨"    1    2".toList, "  7                                                    922832151     ".toList, by decide +kernel, by decide +kernel,
    by decide +kernel, by decide +kernel⟩

/-- Counterexample to C31: a buffer that ends after J makes the code increment the end iterator. -/
theorem C31_past_the_end : readINTG 2 18 ⟨9228, 32, 151⟩ ⟨"    1    2".toList, 0⟩ = .error .ub := by decide +kernel

/-- Counterexample to C35: boundaries are compared with the number of points as 32 bit unsigned numbers. -/
theorem C35_boundary_wraps : ∃ r : TAB1, @TAB1.make concDisco ⟨0, 0⟩ ⟨0, 0⟩ 0 0 [4294967298] [2] [⟨1, 0⟩, ⟨2, 0⟩] [⟨3, 0⟩, ⟨4, 0⟩] = .ok r ∧
    r.base.bounds.getLast? ≠ some (r.x.length : Int) :=
  ⟨⟨⟨⟨0, 0⟩, ⟨0, 0⟩, 0, 0, [4294967298], [2]⟩, [⟨1, 0⟩, ⟨2, 0⟩], [⟨3, 0⟩, ⟨4, 0⟩]⟩, by decide +kernel, by decide +kernel⟩

/-- Counterexample to C35: empty boundaries are not rejected, `back()` of the empty vector is evaluated. -/
theorem C35_empty_boundaries : TAB1.make (Disco.zero : DecReal) Disco.zero 0 0 [] [] [] [] = .error .ub := by decide +kernel


/-- Counterexample to C40: a table announcing 2^32 + 1 records is satisfied with one. -/
theorem C40_boundary_wraps : ∃ r : ISeq LIST, (ISeq.make ⟨⟨0, 0⟩, ⟨0, 0⟩, 0, 0, [4294967297], [2]⟩ [⟨⟨0, 0⟩, ⟨0, 0⟩, 0, 0, 0, []⟩] = .ok r) ∧
    r.tab2.bounds.getLast? ≠ some (r.seq.length : Int) :=
  ⟨_, rfl, by decide⟩

/-! ### concrete cases that meet the hypotheses -/

def exNums : Nums := ⟨9228, 3, 102⟩
def exCont : Cont := ⟨Conc.ofInt 92235, ⟨233025, -3⟩, 0, -12, 99, 3⟩
def exLIST : LIST := ⟨Conc.ofInt 92235, ⟨233025, -3⟩, 1, 2, 3, [1, 2, 3, 4, 5, 6, 7, 8].map Conc.ofInt⟩
def exTAB2 : TAB2 := ⟨⟨0, 0⟩, ⟨1500000, -6⟩, 1, 2, [2, 4], [1, 5]⟩
def exTAB1 : TAB1 := ⟨exTAB2, [Conc.ofInt 1, Conc.ofInt 2, Conc.ofInt 2, Conc.ofInt 3], [Conc.ofInt 5, ⟨600000, -16⟩, Conc.ofInt (-7), ⟨8000000, -3⟩]⟩
def exINTG : INTG := ⟨1, 30, [12, -3, 0, 9, 0, 0]⟩

/- The reals of the examples are in the normal form of `Conc.parseReal` (six or five decimals), so `nf` does not change them. -/
def nf (x : DecReal) : DecReal := (Conc.parseReal (Conc.writeReal x)).getD ⟨0, 0⟩
def nfTAB1 : TAB1 := ⟨{ exTAB2 with c1 := nf exTAB2.c1, c2 := nf exTAB2.c2 }, exTAB1.x.map nf, exTAB1.y.map nf⟩
def nfLIST : LIST := { exLIST with c1 := nf exLIST.c1, c2 := nf exLIST.c2, data := exLIST.data.map nf }
def nfCont : Cont := { exCont with c1 := nf exCont.c1, c2 := nf exCont.c2 }

example : exNums.Fit := by decide +kernel
example : nfCont.Ok := by decide +kernel
example : nfLIST.Ok ∧ nfLIST.nc = 3 := by decide +kernel
example : nfTAB1.base.Ok ∧ nfTAB1.Ok ∧ nfTAB1.nc = 4 := by decide +kernel
example : nfLIST = exLIST ∧ nfTAB1 = exTAB1 ∧ nfCont = exCont := by decide +kernel
example : exINTG.Ok 2 := by decide +kernel
example : ∀ b ∈ nfTAB1.base.bounds, 0 < b := by decide
example : (Dir.mk 3 102 46 1).Ok := by decide +kernel
/-- The concrete LIST is indeed read back from its three lines. -/
example : readLIST exNums ⟨nfLIST.print exNums, 10⟩ = .ok (nfLIST, ⟨[], 13⟩) := by decide +kernel
/-- A text with a wrong MT on the second data line meets the hypotheses of C33_list_wrong_tail. -/
example : readLIST exNums ⟨nfLIST.print exNums, 0⟩ ≠ readLIST ⟨9228, 3, 103⟩ ⟨nfLIST.print exNums, 0⟩ ∧
    readLIST ⟨9228, 3, 103⟩ ⟨nfLIST.print exNums, 0⟩ = .error .exc := by decide +kernel

end ENDFtk.Props

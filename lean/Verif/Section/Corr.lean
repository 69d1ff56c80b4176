import Verif.Section.MF2
import Verif.Record.IntgLemmas
/-
  The compact correlation matrix: section/32/151/CompactCorrelationMatrix.
-/
set_option linter.unusedVariables false
set_option linter.unusedSectionVars false
set_option linter.unusedSimpArgs false
namespace ENDFtk
variable [Disco]

/-- The arithmetic in `double` of a compact correlation matrix.
  * `corrOf nd v`: the correlation for the integer `v`, `( v + 0.5 ) / 10^nd` or `( v - 0.5 ) / 10^nd`
    (section/32/151/CompactCorrelationMatrix/src/readMatrixElements.hpp 30-39);
  * `corrTo nd c`: the integer for the correlation `c` (compact.hpp 35-50).
  The law is what is assumed about it (D8 of DESIGN.md); `Props/Rounding.lean` shows that it follows from the rounding of IEEE 754. -/
class CorrOps where
  corrOf : Nat → Int → Dbl
  corrTo : Nat → Dbl → Int
  corrTo_corrOf : ∀ nd v, 2 ≤ nd → nd ≤ 6 → v ≠ 0 → v.natAbs < 10000000 → corrTo nd (corrOf nd v) = v

export CorrOps (corrOf corrTo)

variable [CorrOps]

/-- section/32/151/CompactCorrelationMatrix.hpp 16-20.  The constructor (ctor.hpp 18-35) requires the three vectors to have the same size: they are one
    list of elements here; the coordinates are of type `unsigned int`. -/
structure CorrMatrix where
  ndigit : Nat
  nnn : Int
  elems : List (Int × Int × Dbl)

namespace CorrMatrix

/-- section/32/151/CompactCorrelationMatrix/src/ctor.hpp 18-35, verifySize.hpp 1-12, verifyDigits.hpp 1-11.  (The sizes are compared as `unsigned int`
    in the code.) -/
def make (order : Int) (i j : List Int) (c : List Dbl) (ndigit : Nat) : Except Err CorrMatrix :=
  if ¬(i.length = j.length ∧ i.length = c.length) then .error .exc
  else if ndigit < 2 ∨ 6 < ndigit then .error .exc
  else .ok ⟨ndigit, order, i.zip (j.zip c)⟩

/-- The elements of an INTG record: readMatrixElements.hpp 21-42, the element `index` being the first one of `k`. -/
def elemsFrom (nd : Nat) (i j : Int) : Nat → List Int → List (Int × Int × Dbl)
  | _, [] => []
  | index, v :: k =>
    if v ≠ 0 then (i, toUnsigned (j + index), corrOf nd v) :: elemsFrom nd i j (index + 1) k
    else elemsFrom nd i j (index + 1) k

/-- readMatrixElements.hpp 21-42 -/
def elemsOf (nd : Nat) (r : INTG) : List (Int × Int × Dbl) := elemsFrom nd r.i r.j 0 r.k

/-- section/32/151/CompactCorrelationMatrix/src/verifyUnsigned.hpp 1-12: a negative value is only logged -/
def asUnsigned (n : Int) : Int := toUnsigned (toInt32 n)

/-- section/32/151/CompactCorrelationMatrix/src/ctor.hpp 42-88, readMatrixElements.hpp 1-107 (NNN is stored as an `int`) -/
def read (t : Nums) : Parser CorrMatrix := do
  let c ← readCont t
  let nd := asUnsigned c.l1
  if nd < 2 ∨ 6 < nd then Parser.fail .exc
  else do
    let rs ← readMany (readINTG nd.toNat (intgN nd.toNat) t) (asUnsigned c.n1).toNat
    pure ⟨nd.toNat, toInt32 c.l2, rs.flatMap (elemsOf nd.toNat)⟩

/-- A turn of the loop of section/32/151/CompactCorrelationMatrix/src/compact.hpp 52-86: `ls` are the lines so far, the last one first; `n` is the
    maximum number of values on a line.  The arithmetic is that of `unsigned int`; `pad` is converted to `int`. -/
def compactStep (n : Nat) (ls : List INTG) (i j v : Int) : List INTG :=
  match ls with
  | [] => [⟨i, j, [v]⟩]
  | l :: ls =>
    if i = l.i ∧ l.k.length < n ∧ j < toUnsigned (l.j + n) then
      let pad := toInt32 (toUnsigned (j - l.j) - l.k.length)
      ⟨l.i, l.j, l.k ++ List.replicate pad.toNat 0 ++ [v]⟩ :: ls
    else ⟨i, j, [v]⟩ :: l :: ls

/-- The lines, the last one first. -/
def compactRev (nd : Nat) (ls : List INTG) : List (Int × Int × Dbl) → List INTG
  | [] => ls
  | e :: es => compactRev nd (compactStep (intgN nd) ls e.1 e.2.1 (corrTo nd e.2.2)) es

/-- section/32/151/CompactCorrelationMatrix/src/compact.hpp 1-90 -/
def compact (m : CorrMatrix) : List INTG := (compactRev m.ndigit [] m.elems).reverse

/-- section/32/151/CompactCorrelationMatrix/src/print.hpp 13-44: for NDIGIT = 3 the records are printed as `IntegerBase< 2, 13 >` -/
def printINTG (nd : Nat) (r : INTG) (t : Nums) : Text := if nd = 3 then r.print 2 13 t else r.print nd (intgN nd) t

/-- section/32/151/CompactCorrelationMatrix/src/print.hpp 1-45 (`NNN()` is an `unsigned int`) -/
def print (m : CorrMatrix) (t : Nums) : Text :=
  printCont ⟨Disco.zero, Disco.zero, m.ndigit, toUnsigned m.nnn, m.compact.length, 0⟩ t ++ m.compact.flatMap (fun r => printINTG m.ndigit r t)

/-- section/32/151/CompactCorrelationMatrix/src/NC.hpp 4-7 -/
def nc (m : CorrMatrix) : Nat := 1 + m.compact.length

/-! ### specification -/

/-- Elements in the same row follow each other with increasing column. -/
def Ordered : List (Int × Int × Dbl) → Prop
  | [] => True
  | [_] => True
  | a :: b :: es => (a.1 = b.1 → a.2.1 < b.2.1) ∧ Ordered (b :: es)

def decOrdered : (l : List (Int × Int × Dbl)) → Decidable (Ordered l)
  | [] => .isTrue trivial
  | [_] => .isTrue trivial
  | a :: b :: es => match decOrdered (b :: es) with
    | .isTrue h => if h' : a.1 = b.1 → a.2.1 < b.2.1 then .isTrue ⟨h', h⟩ else .isFalse (fun x => h' x.1)
    | .isFalse h => .isFalse (fun x => h x.2)

instance : DecidablePred Ordered := decOrdered

/-- The matrix can be printed: the number of digits is 2, 4, 5 or 6, the coordinates fit in five columns and the integers in `ndigit + 1`. -/
def Printable (m : CorrMatrix) : Prop :=
  (m.ndigit = 2 ∨ m.ndigit = 4 ∨ m.ndigit = 5 ∨ m.ndigit = 6) ∧ IsInt32 m.nnn ∧ (m.elems.length : Int) < 2147483648 ∧
  ∀ e ∈ m.elems, 0 ≤ e.1 ∧ e.1 < 100000 ∧ 0 ≤ e.2.1 ∧ e.2.1 < 100000 ∧ fits (m.ndigit + 1) (corrTo m.ndigit e.2.2)

/-- What remains of an element. -/
def quantised (nd : Nat) (e : Int × Int × Dbl) : Int × Int × Dbl := (e.1, e.2.1, corrOf nd (corrTo nd e.2.2))

/-- The elements that remain: those whose correlation is not converted to 0. -/
def remaining (nd : Nat) (es : List (Int × Int × Dbl)) : List (Int × Int × Dbl) :=
  (es.filter (fun e => corrTo nd e.2.2 != 0)).map (quantised nd)

/-- Every correlation is one that stands for an integer other than 0 of `ndigit + 1` columns. -/
def Exact (m : CorrMatrix) : Prop := ∀ e ∈ m.elems, ∃ v, v ≠ 0 ∧ fits (m.ndigit + 1) v ∧ e.2.2 = corrOf m.ndigit v

/-- What holds for a matrix that was read. -/
def Inv (m : CorrMatrix) : Prop :=
  2 ≤ m.ndigit ∧ m.ndigit ≤ 6 ∧ IsInt32 m.nnn ∧
  (∀ e ∈ m.elems, 0 ≤ e.1 ∧ e.1 < 4294967296 ∧ 0 ≤ e.2.1 ∧ e.2.1 < 4294967296) ∧ m.Exact

/-! ### compacting -/

/-- The elements on a line, zeros removed; the last element of the line is in column `l.j + l.k.length - 1`. -/
theorem elemsFrom_append (nd : Nat) (i j : Int) (a b : List Int) (n : Nat) :
    elemsFrom nd i j n (a ++ b) = elemsFrom nd i j n a ++ elemsFrom nd i j (n + a.length) b := by
  induction a generalizing n with
  | nil => simp [elemsFrom]
  | cons v a ih =>
    simp only [List.cons_append, elemsFrom, List.length_cons, ih]
    have : n + 1 + a.length = n + (a.length + 1) := by omega
    split <;> simp [this]

theorem elemsFrom_zeros (nd : Nat) (i j : Int) (m n : Nat) : elemsFrom nd i j n (List.replicate m 0) = [] := by
  induction m generalizing n with
  | zero => rfl
  | succ m ih => simp [List.replicate_succ, elemsFrom, ih]

theorem elemsFrom_strip (nd : Nat) (i j : Int) (k : List Int) (n : Nat) : elemsFrom nd i j n (stripZeros k) = elemsFrom nd i j n k := by
  obtain ⟨m, h, _⟩ := stripZeros_spec k
  conv => rhs; rw [h]
  rw [elemsFrom_append, elemsFrom_zeros, List.append_nil]

/-- The element `v` in row `i`, column `j`, if it is not zero. -/
def one (nd : Nat) (i j v : Int) : List (Int × Int × Dbl) := if v ≠ 0 then [(i, j, corrOf nd v)] else []

theorem toUnsigned_id {n : Int} (h0 : 0 ≤ n) (h1 : n < 4294967296) : toUnsigned n = n := Int.emod_eq_of_lt h0 h1

/-- What holds for a line made from elements with small coordinates. -/
def LineOk (nd n : Nat) (l : INTG) : Prop :=
  0 ≤ l.i ∧ l.i < 100000 ∧ 0 ≤ l.j ∧ l.j < 100000 ∧ 1 ≤ l.k.length ∧ l.k.length ≤ n ∧ ∀ v ∈ l.k, fits (nd + 1) v

theorem compactStep_ok {nd n : Nat} (hn : 1 ≤ n ∧ n ≤ 18) {ls : List INTG} (h : ∀ l ∈ ls, LineOk nd n l) {i j v : Int}
    (hi : 0 ≤ i ∧ i < 100000) (hj : 0 ≤ j ∧ j < 100000) (hv : fits (nd + 1) v) : ∀ l ∈ compactStep n ls i j v, LineOk nd n l := by
  have h1 : LineOk nd n ⟨i, j, [v]⟩ := ⟨hi.1, hi.2, hj.1, hj.2, by simp, by simpa using hn.1, by simpa using hv⟩
  unfold compactStep
  cases ls with
  | nil => simpa using h1
  | cons l ls =>
    simp only [List.mem_cons, forall_eq_or_imp] at h
    obtain ⟨a1, a2, a3, a4, a5, a6, a7⟩ := h.1
    simp only
    split
    · rename_i hc
      obtain ⟨c1, c2, c3⟩ := hc
      rw [toUnsigned_id (by omega) (by omega)] at c3
      simp only [List.mem_cons, forall_eq_or_imp]
      refine ⟨⟨a1, a2, a3, a4, by simp only [List.length_append, List.length_cons]; omega, ?_, ?_⟩, h.2⟩
      · simp only [List.length_append, List.length_replicate, List.length_cons, List.length_nil]
        by_cases hlt : j < l.j
        · have : toInt32 (toUnsigned (j - l.j) - l.k.length) = j - l.j - l.k.length := by
            have e : toUnsigned (j - l.j) = j - l.j + 4294967296 := by unfold toUnsigned; omega
            rw [e]
            unfold toInt32
            omega
          rw [this]; omega
        · have : toInt32 (toUnsigned (j - l.j) - l.k.length) = j - l.j - l.k.length := by
            rw [toUnsigned_id (by omega) (by omega)]
            exact toInt32_id (by omega) (by omega)
          rw [this]; omega
      · intro x hx
        simp only [List.mem_append, List.mem_replicate, List.mem_singleton] at hx
        rcases hx with (hx | ⟨_, rfl⟩) | rfl
        · exact a7 x hx
        · exact fits_zero _
        · exact hv
    · simp only [List.mem_cons, forall_eq_or_imp]
      exact ⟨h1, h.1, h.2⟩

/-- The column of the last element of the last line. -/
def lastCol (ls : List INTG) (i j : Int) : Prop := match ls with
  | [] => False
  | l :: _ => l.i = i ∧ l.j + l.k.length = j + 1

theorem compactStep_elems {nd n : Nat} (hn : 1 ≤ n ∧ n ≤ 18) {ls : List INTG} (h : ∀ l ∈ ls, LineOk nd n l) {i j v : Int}
    (hi : 0 ≤ i ∧ i < 100000) (hj : 0 ≤ j ∧ j < 100000)
    (ho : ls = [] ∨ ∃ i' j', lastCol ls i' j' ∧ (i' = i → j' < j)) :
    (compactStep n ls i j v).reverse.flatMap (elemsOf nd) = ls.reverse.flatMap (elemsOf nd) ++ one nd i j v ∧
    lastCol (compactStep n ls i j v) i j := by
  have e1 : elemsOf nd ⟨i, j, [v]⟩ = one nd i j v := by
    simp only [elemsOf, elemsFrom, one]
    rw [toUnsigned_id (by omega) (by omega)]
    simp
  unfold compactStep
  cases ls with
  | nil => simp [e1, lastCol]
  | cons l ls =>
    simp only [List.mem_cons, forall_eq_or_imp] at h
    obtain ⟨a1, a2, a3, a4, a5, a6, a7⟩ := h.1
    obtain ⟨i', j', ⟨o1, o2⟩, o3⟩ : ∃ i' j', lastCol (l :: ls) i' j' ∧ (i' = i → j' < j) := by
      rcases ho with ho | ho
      · cases ho
      · exact ho
    simp only
    split
    · rename_i hc
      obtain ⟨c1, c2, c3⟩ := hc
      rw [toUnsigned_id (by omega) (by omega)] at c3
      have hlt : j' < j := o3 (by omega)
      have hpad : toInt32 (toUnsigned (j - l.j) - l.k.length) = j - l.j - l.k.length := by
        rw [toUnsigned_id (by omega) (by omega)]
        exact toInt32_id (by omega) (by omega)
      rw [hpad]
      constructor
      · simp only [List.reverse_cons, List.flatMap_append, List.flatMap_cons, List.flatMap_nil, List.append_nil, List.append_assoc]
        congr 1
        simp only [elemsOf]
        rw [elemsFrom_append, elemsFrom_append, elemsFrom_zeros, List.nil_append]
        congr 1
        simp only [elemsFrom, one, List.length_replicate]
        have : l.j + ((0 + l.k.length + (j - l.j - l.k.length).toNat : Nat) : Int) = j := by omega
        rw [this, toUnsigned_id (by omega) (by omega), c1]
      · refine ⟨c1.symm, ?_⟩
        simp only [List.length_append, List.length_replicate, List.length_cons, List.length_nil]
        omega
    · constructor
      · simp only [List.reverse_cons, List.flatMap_append, List.flatMap_cons, List.flatMap_nil, List.append_nil, e1]
      · simp [lastCol]

theorem compactRev_spec {nd : Nat} (hn : 1 ≤ intgN nd ∧ intgN nd ≤ 18) (es : List (Int × Int × Dbl)) :
    ∀ (ls : List INTG), (∀ l ∈ ls, LineOk nd (intgN nd) l) →
    (∀ e ∈ es, 0 ≤ e.1 ∧ e.1 < 100000 ∧ 0 ≤ e.2.1 ∧ e.2.1 < 100000 ∧ fits (nd + 1) (corrTo nd e.2.2)) →
    (∀ l ∈ compactRev nd ls es, LineOk nd (intgN nd) l) ∧
    (Ordered es → (ls = [] ∨ ∃ i' j', lastCol ls i' j' ∧ ∀ e ∈ es.head?, i' = e.1 → j' < e.2.1) →
      (compactRev nd ls es).reverse.flatMap (elemsOf nd) = ls.reverse.flatMap (elemsOf nd) ++ remaining nd es) := by
  induction es with
  | nil => intro ls h _; exact ⟨h, by simp [compactRev, remaining]⟩
  | cons e es ih =>
    intro ls h he
    simp only [List.mem_cons, forall_eq_or_imp] at he
    obtain ⟨⟨b1, b2, b3, b4, b5⟩, he'⟩ := he
    have hok := compactStep_ok hn h (v := corrTo nd e.2.2) ⟨b1, b2⟩ ⟨b3, b4⟩ b5
    obtain ⟨i1, i2⟩ := ih (compactStep (intgN nd) ls e.1 e.2.1 (corrTo nd e.2.2)) hok he'
    refine ⟨i1, fun ho hl => ?_⟩
    obtain ⟨s1, s2⟩ := compactStep_elems hn h (v := corrTo nd e.2.2) ⟨b1, b2⟩ ⟨b3, b4⟩ (by
      rcases hl with hl | ⟨i', j', h1, h2⟩
      · exact .inl hl
      · exact .inr ⟨i', j', h1, h2 e (by simp)⟩)
    have ho' : Ordered es ∧ ∀ x ∈ es.head?, e.1 = x.1 → e.2.1 < x.2.1 := by
      cases es with
      | nil => simp [Ordered]
      | cons b es => exact ⟨ho.2, by simpa using ho.1⟩
    rw [compactRev, i2 ho'.1 (.inr ⟨_, _, s2, ho'.2⟩), s1, List.append_assoc]
    congr 1
    simp only [one, remaining, List.filter_cons, bne_iff_ne]
    split <;> simp [quantised]

theorem intgN_range {nd : Nat} (h : 2 ≤ nd ∧ nd ≤ 6) : 1 ≤ intgN nd ∧ intgN nd ≤ 18 := by
  obtain ⟨h1, h2⟩ := h
  have : nd = 2 ∨ nd = 3 ∨ nd = 4 ∨ nd = 5 ∨ nd = 6 := by omega
  rcases this with rfl | rfl | rfl | rfl | rfl <;> decide

theorem Printable.range {m : CorrMatrix} (h : m.Printable) : 2 ≤ m.ndigit ∧ m.ndigit ≤ 6 := by
  have := h.1; omega

theorem compactStep_length (n : Nat) (ls : List INTG) (i j v : Int) : (compactStep n ls i j v).length ≤ ls.length + 1 := by
  unfold compactStep
  split
  · simp
  · split <;> simp

theorem compactRev_length (nd : Nat) (es : List (Int × Int × Dbl)) (ls : List INTG) : (compactRev nd ls es).length ≤ ls.length + es.length := by
  induction es generalizing ls with
  | nil => simp [compactRev]
  | cons e es ih =>
    have h1 := ih (compactStep (intgN nd) ls e.1 e.2.1 (corrTo nd e.2.2))
    have h2 := compactStep_length (intgN nd) ls e.1 e.2.1 (corrTo nd e.2.2)
    simp only [compactRev, List.length_cons]
    omega

theorem compact_length (m : CorrMatrix) : m.compact.length ≤ m.elems.length := by
  simpa [compact] using compactRev_length m.ndigit m.elems []

theorem compact_ok {m : CorrMatrix} (h : m.Printable) : ∀ r ∈ m.compact, LineOk m.ndigit (intgN m.ndigit) r := by
  intro r hr
  exact (compactRev_spec (intgN_range h.range) m.elems [] (by simp) h.2.2.2).1 r (by simpa [compact] using hr)

theorem compact_elems {m : CorrMatrix} (h : m.Printable) (ho : Ordered m.elems) :
    m.compact.flatMap (elemsOf m.ndigit) = remaining m.ndigit m.elems := by
  have := (compactRev_spec (intgN_range h.range) m.elems [] (by simp) h.2.2.2).2 ho (.inl rfl)
  simpa [compact] using this

theorem LineOk.ok {nd : Nat} {r : INTG} (h : LineOk nd (intgN nd) r) : r.Ok nd := by
  obtain ⟨a1, a2, a3, a4, a5, a6, a7⟩ := h
  have f5 : ∀ n : Int, 0 ≤ n → n < 100000 → fits 5 n := by
    intro n h0 h1
    constructor
    · have : (10 : Int) ^ 5 = 100000 := by decide
      omega
    · have : (10 : Int) ^ (5 - 1) = 10000 := by decide
      omega
  exact ⟨a1, f5 _ a1 a2, a3, f5 _ a3 a4, a6, a7⟩

theorem printINTG_eq {nd : Nat} (h : nd ≠ 3) (r : INTG) (t : Nums) : printINTG nd r t = r.print nd (intgN nd) t := by
  rw [printINTG, if_neg h]

theorem cont_fits {m : CorrMatrix} (h : m.Printable) :
    Cont.Fits ⟨Disco.zero, Disco.zero, m.ndigit, toUnsigned m.nnn, m.compact.length, 0⟩ := by
  have h1 := h.range
  have h2 := compact_length m
  have h3 := h.2.2.1
  have big : ∀ n : Int, 0 ≤ n → n < 4294967296 → fits 11 n := by
    intro n h0 h1
    constructor
    · have : (10 : Int) ^ 11 = 100000000000 := by decide
      omega
    · have : (10 : Int) ^ (11 - 1) = 10000000000 := by decide
      omega
  exact ⟨big _ (by simp only; omega) (by simp only; omega), big _ (by simp only [toUnsigned]; omega) (by simp only [toUnsigned]; omega), big _ (by simp only; omega) (by simp only; omega), fits0⟩

/-- The printed matrix is read back, reduced to what remains of its elements. -/
theorem rd {m : CorrMatrix} {t : Nums} (h : m.Printable) (ho : Ordered m.elems) (hz : Rep (Disco.zero : Dbl)) (ht : t.Fit) :
    Rd (read t) (m.print t) ⟨m.ndigit, m.nnn, remaining m.ndigit m.elems⟩ m.nc := by
  have hrg := h.range
  have hne : m.ndigit ≠ 3 := by have := h.1; omega
  have hlen := compact_length m
  have h3 := h.2.2.1
  refine Rd.bind (contC_law.rd (a := ⟨Disco.zero, Disco.zero, m.ndigit, toUnsigned m.nnn, m.compact.length, 0⟩) (cont_fits h)
    (by intro x hx; simp [contC] at hx; rw [hx]; exact hz) ht) ?_
  have e1 : asUnsigned (m.ndigit : Int) = m.ndigit := by
    unfold asUnsigned
    rw [toInt32_id (by omega) (by omega), toUnsigned_id (by omega) (by omega)]
  have e2 : asUnsigned (m.compact.length : Int) = m.compact.length := by
    unfold asUnsigned
    rw [toInt32_id (by omega) (by omega), toUnsigned_id (by omega) (by omega)]
  have e3 : toInt32 (toUnsigned m.nnn) = m.nnn := by
    have := h.2.1.1
    have := h.2.1.2
    unfold toInt32 toUnsigned
    omega
  simp only [e1, e2, e3]
  rw [if_neg (by omega)]
  have hm : Rd (readMany (readINTG m.ndigit (intgN m.ndigit) t) m.compact.length) (m.compact.flatMap (fun r => printINTG m.ndigit r t))
      (m.compact.map (fun r => (⟨r.i, r.j, stripZeros r.k⟩ : INTG))) m.compact.length := by
    have hall := compact_ok h
    generalize m.compact = ls at hall
    intro s n
    induction ls generalizing n with
    | nil => simp [readMany, Parser.pure_run]
    | cons r ls ih =>
      simp only [List.mem_cons, forall_eq_or_imp] at hall
      simp only [List.length_cons, readMany, List.flatMap_cons, List.append_assoc, printINTG_eq hne r t]
      rw [Parser.bind_ok (readINTG_print hall.1.ok ht _ n), Parser.bind_ok (ih hall.2 (n + 1))]
      simp [Parser.pure_run]; omega
  simp only [Int.toNat_natCast]
  refine Rd.bindPure hm ?_
  congr 2
  rw [List.flatMap_map, ← compact_elems h ho]
  congr 1
  funext r
  simp only [elemsOf]
  exact elemsFrom_strip _ _ _ _ _

theorem canon {m : CorrMatrix} {t : Nums} (h : m.Printable) (ht : t.Fit) : CanonicalText t m.nc (m.print t) := by
  have hne : m.ndigit ≠ 3 := by have := h.1; omega
  refine (contC_law.canon (cont_fits h) ht).append ?_
  have := CanonicalText.flatMap (t := t) (nc := fun _ => 1) (pr := fun r => printINTG m.ndigit r t) (xs := m.compact) (fun r hr => by
    show CanonicalText t 1 (printINTG m.ndigit r t)
    rw [printINTG_eq hne]
    exact INTG.print_canonical h.range (compact_ok h r hr).ok ht)
  refine this.cast rfl ?_
  generalize m.compact = ls
  induction ls with
  | nil => rfl
  | cons a ls ih => simp only [List.map_cons, List.sum_cons, List.length_cons, ih]; omega

/-- An exact matrix loses nothing. -/
theorem remaining_exact {m : CorrMatrix} (h2 : 2 ≤ m.ndigit) (h6 : m.ndigit ≤ 6) (h : m.Exact) : remaining m.ndigit m.elems = m.elems := by
  have key : ∀ e ∈ m.elems, corrTo m.ndigit e.2.2 ≠ 0 ∧ quantised m.ndigit e = e := by
    intro e he
    obtain ⟨v, v1, v2, v3⟩ := h e he
    have hv : v.natAbs < 10000000 := by
      have hd : m.ndigit = 2 ∨ m.ndigit = 3 ∨ m.ndigit = 4 ∨ m.ndigit = 5 ∨ m.ndigit = 6 := by omega
      obtain ⟨f1, f2⟩ := v2
      rcases hd with hd | hd | hd | hd | hd <;> rw [hd] at f1 f2 <;> simp at f1 f2 <;> omega
    have hc : corrTo m.ndigit e.2.2 = v := by rw [v3, CorrOps.corrTo_corrOf _ _ h2 h6 v1 hv]
    refine ⟨by rw [hc]; exact v1, ?_⟩
    rw [quantised, hc, ← v3]
  unfold remaining
  rw [List.filter_eq_self.mpr (fun e he => by simpa using (key e he).1)]
  exact (List.map_congr_left (fun e he => (key e he).2)).trans (List.map_id _)

end CorrMatrix
end ENDFtk

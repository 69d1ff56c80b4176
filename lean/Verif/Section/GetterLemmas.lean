import Verif.Section.Getters
/-
  Facts about the views and the generated lists.
-/
set_option linter.unusedVariables false
set_option linter.unusedSectionVars false
set_option linter.unusedSimpArgs false
namespace ENDFtk
variable [Disco]

theorem ceil_lt {n k i : Nat} (hk : 0 < k) : i < (n + k - 1) / k ↔ i * k < n := by
  rw [Nat.lt_iff_add_one_le, Nat.le_div_iff_mul_le hk, Nat.add_mul]
  omega

theorem filterMap_range {α : Type} {f : Nat → Option α} {n : Nat} (h : ∀ i < n, (f i).isSome) :
    ((List.range n).filterMap f).length = n ∧ ∀ i < n, ((List.range n).filterMap f)[i]? = f i := by
  induction n with
  | zero => simp
  | succ n ih =>
    obtain ⟨h1, h2⟩ := ih fun i hi => h i (by omega)
    obtain ⟨v, hv⟩ := Option.isSome_iff_exists.mp (h n (by omega))
    have e : (List.range (n + 1)).filterMap f = (List.range n).filterMap f ++ [v] := by
      rw [List.range_succ, List.filterMap_append]; simp [hv]
    rw [e]
    refine ⟨by simp [h1], fun i hi => ?_⟩
    rw [List.getElem?_append, h1]
    by_cases hi' : i < n
    · rw [if_pos hi', h2 i hi']
    · have : i = n := by omega
      subst this
      simp [hv]

theorem strideL_aux {α : Type} {k : Nat} (hk : 0 < k) (l : List α) :
    (strideL k l).length = (l.length + k - 1) / k ∧ ∀ i < (l.length + k - 1) / k, (strideL k l)[i]? = l[i * k]? := by
  unfold strideL
  exact filterMap_range fun i hi => by rw [ceil_lt hk] at hi; simpa using hi

theorem strideL_getElem? {α : Type} {k : Nat} (hk : 0 < k) (l : List α) (i : Nat) : (strideL k l)[i]? = l[i * k]? := by
  by_cases hi : i < (l.length + k - 1) / k
  · exact (strideL_aux hk l).2 i hi
  · rw [List.getElem?_eq_none (by rw [(strideL_aux hk l).1]; omega), List.getElem?_eq_none]
    rw [ceil_lt hk] at hi; omega

theorem strideL_length {α : Type} {k : Nat} (hk : 0 < k) (l : List α) : (strideL k l).length = (l.length + k - 1) / k := (strideL_aux hk l).1

/-- element of a concatenation of pieces of the same length -/
theorem flatMap_getElem? {α β : Type} {f : α → List β} {k : Nat} {l : List α} (h : ∀ a ∈ l, (f a).length = k) {i j : Nat} (hj : j < k) :
    (l.flatMap f)[i * k + j]? = (l[i]?).bind (fun a => (f a)[j]?) := by
  induction l generalizing i with
  | nil => simp
  | cons a l ih =>
    rw [List.flatMap_cons, List.getElem?_append]
    have ha := h a (by simp)
    cases i with
    | zero => simp [ha, hj]
    | succ i =>
      rw [if_neg (by rw [ha, Nat.add_mul]; omega), ha]
      have : (i + 1) * k + j - k = i * k + j := by rw [Nat.add_mul]; omega
      rw [this, ih fun a ha => h a (by simp [ha])]
      simp

theorem flatMap_length {α β : Type} {f : α → List β} {k : Nat} {l : List α} (h : ∀ a ∈ l, (f a).length = k) : (l.flatMap f).length = l.length * k := by
  induction l with
  | nil => simp
  | cons a l ih => rw [List.flatMap_cons, List.length_append, h a (by simp), ih fun a ha => h a (by simp [ha]), List.length_cons, Nat.add_mul]; omega

theorem flatMap_drop {α β : Type} {f : α → List β} {k : Nat} {l : List α} (h : ∀ a ∈ l, (f a).length = k) (i : Nat) :
    (l.flatMap f).drop (i * k) = (l.drop i).flatMap f := by
  induction l generalizing i with
  | nil => simp
  | cons a l ih =>
    cases i with
    | zero => simp
    | succ i =>
      rw [List.flatMap_cons, List.drop_append, h a (by simp)]
      have e : (i + 1) * k - k = i * k := by rw [Nat.add_mul]; omega
      rw [e, ih fun a ha => h a (by simp [ha]), List.drop_eq_nil_of_le (by rw [h a (by simp), Nat.add_mul]; omega)]
      simp

theorem chunkL_flatMap {α β : Type} {f : α → List β} {k : Nat} (hk : 0 < k) {l : List α} (h : ∀ a ∈ l, (f a).length = k) :
    chunkL k (l.flatMap f) = l.map f := by
  unfold chunkL
  rw [flatMap_length h]
  have e : (l.length * k + k - 1) / k = l.length := by
    have : ∀ i, i < (l.length * k + k - 1) / k ↔ i < l.length := fun i => by
      rw [ceil_lt hk]; exact Nat.mul_lt_mul_right hk
    have a := this l.length
    have b := this ((l.length * k + k - 1) / k)
    omega
  rw [e]
  apply List.ext_getElem?
  intro i
  rw [List.getElem?_map, List.getElem?_map]
  by_cases hi : i < l.length
  · rw [List.getElem?_range hi, List.getElem?_eq_getElem hi]
    simp only [Option.map_some, Option.some.injEq]
    rw [flatMap_drop h, List.drop_eq_getElem_cons hi, List.flatMap_cons, List.take_append, h _ (List.getElem_mem hi), Nat.sub_self, List.take_zero,
      List.append_nil, List.take_of_length_le (by rw [h _ (List.getElem_mem hi)]; omega)]
  · rw [List.getElem?_eq_none (by simpa using hi), List.getElem?_eq_none (by omega)]; rfl

/-- the pieces of any list whose length is a multiple of `k` -/
theorem chunkL_getElem? {α : Type} {k : Nat} (hk : 0 < k) (l : List α) (i : Nat) :
    (chunkL k l)[i]? = if i * k < l.length then some ((l.drop (i * k)).take k) else none := by
  unfold chunkL
  rw [List.getElem?_map]
  by_cases hi : i * k < l.length
  · rw [List.getElem?_range ((ceil_lt hk).mpr hi), if_pos hi]; rfl
  · rw [List.getElem?_eq_none (by rw [List.length_range]; exact Nat.not_lt.mp fun h => hi ((ceil_lt hk).mp h)), if_neg hi]; rfl

theorem chunkL_length {α : Type} (k : Nat) (l : List α) : (chunkL k l).length = (l.length + k - 1) / k := by simp [chunkL]

theorem rows_length (n : Nat) (cols : List (List Dbl)) : (rows n cols).length = n * cols.length := by
  unfold rows
  rw [flatMap_length (k := cols.length) (by simp)]; simp

theorem rows_getElem? {n : Nat} {cols : List (List Dbl)} {i j : Nat} (hj : j < cols.length) :
    (rows n cols)[i * cols.length + j]? = if i < n then some ((cols[j]).getD i Disco.zero) else none := by
  unfold rows
  rw [flatMap_getElem? (by simp) hj]
  by_cases hi : i < n
  · rw [List.getElem?_range hi, if_pos hi]; simp [hj]
  · rw [List.getElem?_eq_none (by simpa using hi), if_neg hi]; rfl

theorem dropE_ok {α : Type} {n : Int} {l : List α} (h0 : 0 ≤ n) (h : n ≤ l.length) : dropE n l = .ok (l.drop n.toNat) := by
  unfold dropE; rw [if_neg (by omega)]
theorem takeE_ok {α : Type} {n : Int} {l : List α} (h0 : 0 ≤ n) (h : n ≤ l.length) : takeE n l = .ok (l.take n.toNat) := by
  unfold takeE; rw [if_neg (by omega)]
theorem strideE_ok {α : Type} {n : Int} {l : List α} (h : 0 < n) : strideE n l = .ok (strideL n.toNat l) := by
  unfold strideE; rw [if_neg (by omega)]
theorem chunkE_ok {α : Type} {n : Int} {l : List α} (h : 0 < n) : chunkE n l = .ok (chunkL n.toNat l) := by
  unfold chunkE; rw [if_neg (by omega)]

theorem dropE_append {α : Type} {n : Int} {a b : List α} (h : n = a.length) : dropE n (a ++ b) = .ok b := by
  rw [dropE_ok (by omega) (by simp; omega)]; subst h; simp
theorem takeE_append {α : Type} {n : Int} {a b : List α} (h : n = a.length) : takeE n (a ++ b) = .ok a := by
  rw [takeE_ok (by omega) (by simp; omega)]; subst h; simp

/-- A column of the generated list is the array that was given. -/
theorem column_rows {pre : List Dbl} {n : Nat} {cols : List (List Dbl)} {off k : Int} {j : Nat} {c : List Dbl} (hc : cols[j]? = some c)
    (hl : ∀ x ∈ cols, x.length = n) (ho : off = pre.length + j) (hk : k = cols.length) (hn : n ≠ 0 ∨ j = 0) : column off k (pre ++ rows n cols) = .ok c := by
  obtain ⟨hj, rfl⟩ := List.getElem?_eq_some_iff.mp hc
  have hcl := hl _ (List.getElem_mem hj)
  have hlen : j ≤ n * cols.length := by
    rcases hn with h | h
    · exact Nat.le_trans (Nat.le_of_lt hj) (Nat.le_mul_of_pos_left _ (by omega))
    · omega
  unfold column
  rw [dropE_ok (by omega) (by rw [List.length_append, rows_length]; omega)]
  show strideE k _ = _
  rw [strideE_ok (by omega)]
  congr 1
  apply List.ext_getElem?
  intro i
  rw [strideL_getElem? (by omega), List.getElem?_drop]
  have e1 : off.toNat = pre.length + j := by omega
  have e2 : k.toNat = cols.length := by omega
  rw [e1, e2, List.getElem?_append_right (by omega)]
  have e3 : pre.length + j + i * cols.length - pre.length = i * cols.length + j := by omega
  rw [e3, rows_getElem? hj]
  by_cases hi : i < n
  · rw [if_pos hi]; simp [hcl, hi]
  · rw [if_neg hi, List.getElem?_eq_none (by omega)]

/-- The first column needs no offset. -/
theorem stride_rows {n : Nat} {cols : List (List Dbl)} {k : Int} {c : List Dbl} (hc : cols[0]? = some c)
    (hl : ∀ x ∈ cols, x.length = n) (hk : k = cols.length) : strideE k (rows n cols) = .ok c := by
  have := column_rows (pre := []) (off := 0) hc hl (by simp) hk (.inr rfl)
  unfold column at this
  rw [dropE_ok (by omega) (by simp)] at this
  simpa [Except.bind] using this

/-- `xs` are the elements `off`, `off + k`, `off + 2 k`, ... (`n` of them) of `data`. -/
def IsColumn {α : Type} (xs data : List α) (off k n : Nat) : Prop := xs.length = n ∧ ∀ i < n, xs[i]? = data[off + k * i]?

/-- Column `j` of a list of `n` rows of `k` values after `p` other values. -/
theorem column_of {α : Type} {l : List α} {p j k n : Nat} {off k' : Int} (hl : l.length = p + k * n) (hj : j < k) (hn : n ≠ 0 ∨ j = 0)
    (ho : off = (p + j : Nat)) (hk' : k' = k) : ∃ xs, column off k' l = .ok xs ∧ IsColumn xs l (p + j) k n := by
  have hle : p + j ≤ l.length := by
    rw [hl]
    rcases hn with h | h
    · have : k ≤ k * n := Nat.le_mul_of_pos_right _ (by omega)
      omega
    · omega
  refine ⟨strideL k (l.drop (p + j)), ?_, ?_, ?_⟩
  · unfold column
    rw [dropE_ok (by omega) (by omega)]
    show strideE k' _ = _
    rw [strideE_ok (by omega), hk', ho]; rfl
  · rw [strideL_length (by omega), List.length_drop, hl]
    rcases hn with h | h
    · have e : p + k * n - (p + j) + k - 1 = k * n + (k - 1 - j) := by
        have : k ≤ k * n := Nat.le_mul_of_pos_right _ (by omega)
        omega
      rw [e, Nat.mul_add_div (by omega), Nat.div_eq_of_lt (by omega)]; omega
    · subst h
      have e : p + k * n - (p + 0) + k - 1 = k * n + (k - 1) := by omega
      rw [e, Nat.mul_add_div (by omega), Nat.div_eq_of_lt (by omega)]; omega
  · intro i _
    rw [strideL_getElem? (by omega), List.getElem?_drop, Nat.mul_comm]

theorem strideE_of {α : Type} {l : List α} {k n : Nat} {k' : Int} (hl : l.length = k * n) (hk : 0 < k) (hk' : k' = k) :
    ∃ xs, strideE k' l = .ok xs ∧ IsColumn xs l 0 k n := by
  obtain ⟨xs, h1, h2⟩ := column_of (l := l) (p := 0) (j := 0) (off := 0) (k' := k') (by omega : l.length = 0 + k * n) hk (.inr rfl) rfl hk'
  refine ⟨xs, ?_, h2⟩
  unfold column at h1
  rw [dropE_ok (by omega) (by omega)] at h1
  simpa [Except.bind] using h1

theorem mapE_ok {α β : Type} {f : α → Except Err β} {g : α → β} {l : List α} (h : ∀ a ∈ l, f a = .ok (g a)) : mapE f l = .ok (l.map g) := by
  induction l with
  | nil => rfl
  | cons a l ih =>
    simp only [mapE, h a (by simp), ih fun a ha => h a (by simp [ha])]
    rfl

theorem ofInts_length (l : List Int) : (ofInts l).length = l.length := by simp [ofInts]

/-- Integers of the range of `int` and `unsigned int` survive the conversion to `double` and back. -/
theorem trunc_ofInts {l : List Int} (h : ∀ n ∈ l, -(2 ^ 31) ≤ n ∧ n < 2 ^ 32) : (ofInts l).map Disco.trunc = l := by
  unfold ofInts
  rw [List.map_map]
  conv => rhs; rw [← List.map_id l]
  exact List.map_congr_left fun n hn => Disco.trunc_ofInt n (h n hn).1 (h n hn).2

theorem verified_ok {check : LIST → Except Err Unit} {l m : LIST} (h : verified check l = .ok m) : m = l ∧ check l = .ok () := by
  unfold verified at h
  split at h
  · cases h; exact ⟨rfl, by assumption⟩
  · cases h

theorem require_ok {P : LIST → Prop} [DecidablePred P] {l : LIST} (h : require P l = .ok ()) : P l := by
  unfold require at h
  split at h
  · assumption
  · cases h

theorem verified_pos {P : LIST → Prop} [DecidablePred P] {l : LIST} (h : P l) : verified (require P) l = .ok l := by
  unfold verified require; rw [if_pos h]
theorem verified_neg {P : LIST → Prop} [DecidablePred P] {l : LIST} (h : ¬P l) : verified (require P) l = .error .exc := by
  unfold verified require; rw [if_neg h]

end ENDFtk

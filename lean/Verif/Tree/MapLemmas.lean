import Verif.Tree.LoopLemmas
/-
  `std::map` and `std::multimap` as sorted association lists: lookup, order, insertion, removal.
-/
set_option linter.unusedVariables false
set_option linter.unusedSectionVars false
set_option linter.unusedSimpArgs false
namespace ENDFtk
namespace SMap
variable {α : Type}

/-- Keys strictly increasing (map). -/
def Sorted (m : SMap α) : Prop := m.Pairwise (fun a b => a.1 < b.1)
/-- Keys increasing (multimap). -/
def WSorted (m : SMap α) : Prop := m.Pairwise (fun a b => a.1 ≤ b.1)

/-- The values with key `k`, in iteration order. -/
def getAll (m : SMap α) (k : Int) : List α := SMap.values (m.filter (fun e => e.1 == k))

theorem Sorted.nil : Sorted ([] : SMap α) := List.Pairwise.nil
theorem WSorted.nil : WSorted ([] : SMap α) := List.Pairwise.nil
theorem Sorted.weak {m : SMap α} (h : m.Sorted) : m.WSorted := List.Pairwise.imp (fun h => Int.le_of_lt h) h

theorem has_iff {m : SMap α} {k : Int} : m.has k = true ↔ ∃ v, (k, v) ∈ m := by
  simp only [has, List.any_eq_true, beq_iff_eq]
  constructor
  · rintro ⟨⟨a, v⟩, h, rfl⟩; exact ⟨v, h⟩
  · rintro ⟨v, h⟩; exact ⟨(k, v), h, rfl⟩

theorem has_iff_keys {m : SMap α} {k : Int} : m.has k = true ↔ k ∈ m.keys := by
  simp [has_iff, keys]

theorem has_false_iff {m : SMap α} {k : Int} : m.has k = false ↔ ∀ v, (k, v) ∉ m := by
  rw [← Bool.not_eq_true, has_iff]
  exact ⟨fun h v hv => h ⟨v, hv⟩, fun h ⟨v, hv⟩ => h v hv⟩

theorem get?_nil (k : Int) : get? ([] : SMap α) k = none := rfl

theorem get?_cons (e : Int × α) (m : SMap α) (k : Int) : get? (e :: m) k = if e.1 = k then some e.2 else m.get? k := by
  simp only [get?, List.find?_cons]
  by_cases h : e.1 = k
  · simp [h]
  · simp [h, beq_eq_false_iff_ne.mpr h]

theorem get?_eq_head (m : SMap α) (k : Int) : m.get? k = (m.getAll k).head? := by
  induction m with
  | nil => rfl
  | cons e m ih =>
    rw [get?_cons, getAll, List.filter_cons]
    by_cases h : e.1 = k
    · simp [h, values]
    · simp only [h, if_neg, beq_eq_false_iff_ne.mpr h, Bool.false_eq_true, ↓reduceIte]
      exact ih

theorem has_eq_isSome (m : SMap α) (k : Int) : m.has k = (m.get? k).isSome := by
  induction m with
  | nil => rfl
  | cons e m ih =>
    rw [get?_cons]
    simp only [has, List.any_cons] at ih ⊢
    by_cases h : e.1 = k <;> simp [h, ih]

theorem mem_of_get? {m : SMap α} {k : Int} {v : α} (h : m.get? k = some v) : (k, v) ∈ m := by
  induction m with
  | nil => cases h
  | cons e m ih =>
    rw [get?_cons] at h
    split at h
    · rename_i he
      cases h
      subst he
      simp
    · exact List.mem_cons_of_mem _ (ih h)

theorem get?_of_mem {m : SMap α} (hs : m.Sorted) {k : Int} {v : α} (h : (k, v) ∈ m) : m.get? k = some v := by
  induction m with
  | nil => cases h
  | cons e m ih =>
    rw [get?_cons]
    obtain ⟨h1, h2⟩ := List.pairwise_cons.mp hs
    rcases List.mem_cons.mp h with rfl | h
    · simp
    · have := h1 _ h
      simp only at this
      rw [if_neg (by omega)]
      exact ih h2 h

theorem get?_iff {m : SMap α} (hs : m.Sorted) {k : Int} {v : α} : m.get? k = some v ↔ (k, v) ∈ m :=
  ⟨mem_of_get?, get?_of_mem hs⟩

/-- Two maps with the same lookups are equal. -/
theorem Sorted.ext {m n : SMap α} (hm : m.Sorted) (hn : n.Sorted) (h : ∀ k, m.get? k = n.get? k) : m = n := by
  induction m generalizing n with
  | nil =>
    cases n with
    | nil => rfl
    | cons e n =>
      have := h e.1
      rw [get?_cons] at this
      simp [get?] at this
  | cons a m ih =>
    cases n with
    | nil =>
      have := h a.1
      rw [get?_cons] at this
      simp [get?] at this
    | cons b n =>
      obtain ⟨a1, a2⟩ := List.pairwise_cons.mp hm
      obtain ⟨b1, b2⟩ := List.pairwise_cons.mp hn
      have key : a.1 = b.1 := by
        rcases Int.lt_trichotomy a.1 b.1 with hlt | heq | hgt
        · have h1 := h a.1
          rw [get?_cons, if_pos rfl, get?_cons, if_neg (by omega)] at h1
          have := b1 _ (mem_of_get? h1.symm)
          simp only at this
          omega
        · exact heq
        · have h1 := h b.1
          rw [get?_cons, if_neg (by omega), get?_cons, if_pos rfl] at h1
          have := a1 _ (mem_of_get? h1)
          simp only at this
          omega
      have hv : a.2 = b.2 := by
        have h1 := h a.1
        rw [get?_cons, if_pos rfl, get?_cons, if_pos key.symm] at h1
        exact Option.some.inj h1
      have hab : a = b := Prod.ext key hv
      subst hab
      congr 1
      refine ih a2 b2 fun k => ?_
      have h1 := h k
      rw [get?_cons, get?_cons] at h1
      by_cases hk : a.1 = k
      · have e1 : SMap.get? m k = none := by
          cases hg : SMap.get? m k with
          | none => rfl
          | some v => have := a1 _ (mem_of_get? hg); simp only at this; omega
        have e2 : SMap.get? n k = none := by
          cases hg : SMap.get? n k with
          | none => rfl
          | some v => have := b1 _ (mem_of_get? hg); simp only at this; omega
        rw [e1, e2]
      · rw [if_neg hk, if_neg hk] at h1
        exact h1

/-! ### insertion -/

theorem mem_emplaceMulti {m : SMap α} {k : Int} {v : α} {e : Int × α} : e ∈ emplaceMulti k v m ↔ e = (k, v) ∨ e ∈ m := by
  induction m with
  | nil => simp [emplaceMulti]
  | cons a m ih =>
    simp only [emplaceMulti]
    split
    · simp
    · simp only [List.mem_cons, ih]
      constructor
      · rintro (h | h | h) <;> simp [h]
      · rintro (h | h | h) <;> simp [h]

theorem emplaceMulti_wsorted {m : SMap α} (h : m.WSorted) (k : Int) (v : α) : WSorted (emplaceMulti k v m) := by
  induction m with
  | nil => simp [emplaceMulti, WSorted]
  | cons a m ih =>
    obtain ⟨a1, a2⟩ := List.pairwise_cons.mp h
    simp only [emplaceMulti]
    split
    · rename_i hlt
      refine List.pairwise_cons.mpr ⟨?_, h⟩
      intro e he
      rcases List.mem_cons.mp he with rfl | he
      · simp only; omega
      · have := a1 e he; simp only; omega
    · rename_i hge
      refine List.pairwise_cons.mpr ⟨?_, ih a2⟩
      intro e he
      rcases mem_emplaceMulti.mp he with rfl | he
      · simp only; omega
      · exact a1 e he

theorem emplaceMulti_sorted {m : SMap α} (h : m.Sorted) {k : Int} (hk : m.has k = false) (v : α) : Sorted (emplaceMulti k v m) := by
  induction m with
  | nil => simp [emplaceMulti, Sorted]
  | cons a m ih =>
    obtain ⟨a1, a2⟩ := List.pairwise_cons.mp h
    simp only [has, List.any_cons, Bool.or_eq_false_iff, beq_eq_false_iff_ne] at hk
    simp only [emplaceMulti]
    split
    · rename_i hlt
      refine List.pairwise_cons.mpr ⟨?_, h⟩
      intro e he
      rcases List.mem_cons.mp he with rfl | he
      · exact hlt
      · have := a1 e he; simp only; omega
    · rename_i hge
      refine List.pairwise_cons.mpr ⟨?_, ih a2 hk.2⟩
      intro e he
      rcases mem_emplaceMulti.mp he with rfl | he
      · simp only; omega
      · exact a1 e he

theorem emplace_sorted {m : SMap α} (h : m.Sorted) (k : Int) (v : α) : (m.emplace k v).Sorted := by
  unfold emplace
  split
  · exact h
  · rename_i hk
    exact emplaceMulti_sorted h (by simpa using hk) v

/-- Inserting puts the value behind those with the same key. -/
theorem getAll_emplaceMulti {m : SMap α} (h : m.WSorted) (k k' : Int) (v : α) :
    getAll (emplaceMulti k v m) k' = if k = k' then getAll m k' ++ [v] else getAll m k' := by
  induction m with
  | nil => by_cases hk : k = k' <;> simp [emplaceMulti, getAll, values, hk]
  | cons a m ih =>
    obtain ⟨a1, a2⟩ := List.pairwise_cons.mp h
    have ih := ih a2
    simp only [emplaceMulti]
    split
    · rename_i hlt
      by_cases hk : k = k'
      · subst hk
        have hnone : (a :: m).filter (fun e => e.1 == k) = [] := by
          rw [List.filter_eq_nil_iff]
          intro e he
          rcases List.mem_cons.mp he with rfl | he
          · simp; omega
          · have := a1 e he; simp; omega
        rw [getAll, List.filter_cons, if_pos (by simp), getAll, hnone]
        simp [values]
      · rw [if_neg hk, getAll, List.filter_cons, if_neg (by simpa using hk)]
        rfl
    · rw [getAll, List.filter_cons, getAll, List.filter_cons]
      by_cases ha : a.1 = k'
      · have hb : (a.1 == k') = true := by simpa using ha
        rw [if_pos hb, if_pos hb]
        simp only [values, List.map_cons]
        have ih' : List.map (·.2) (List.filter (fun e => e.1 == k') (emplaceMulti k v m)) =
          if k = k' then List.map (·.2) (List.filter (fun e => e.1 == k') m) ++ [v] else List.map (·.2) (List.filter (fun e => e.1 == k') m) := ih
        rw [ih']
        by_cases hk : k = k' <;> simp [hk]
      · have hb : (a.1 == k') = false := by simpa using ha
        simp only [hb, Bool.false_eq_true, if_false]
        exact ih

theorem getAll_of_has_false {m : SMap α} {k : Int} (h : m.has k = false) : getAll m k = [] := by
  simp only [getAll, values, List.map_eq_nil_iff, List.filter_eq_nil_iff]
  intro e he heq
  simp only [beq_iff_eq] at heq
  exact has_false_iff.mp h e.2 (by rw [← heq]; exact he)

theorem has_eq_getAll (m : SMap α) (k : Int) : m.has k = !(getAll m k).isEmpty := by
  rw [has_eq_isSome, get?_eq_head]
  cases getAll m k <;> rfl

theorem get?_emplace {m : SMap α} (h : m.Sorted) (k k' : Int) (v : α) :
    (m.emplace k v).get? k' = if k = k' ∧ m.has k = false then some v else m.get? k' := by
  unfold emplace
  by_cases hk : m.has k = true
  · rw [if_pos hk, if_neg (by simp [hk])]
  · rw [if_neg hk]
    simp only [Bool.not_eq_true] at hk
    rw [get?_eq_head, getAll_emplaceMulti h.weak, get?_eq_head]
    by_cases hkk : k = k'
    · subst hkk
      simp [hk, getAll_of_has_false hk]
    · simp [hkk]

/-! ### removal and modification -/

theorem erase_sorted {m : SMap α} (h : m.Sorted) (k : Int) : (m.erase k).Sorted := List.Pairwise.filter _ h
theorem erase_wsorted {m : SMap α} (h : m.WSorted) (k : Int) : (m.erase k).WSorted := List.Pairwise.filter _ h

theorem getAll_erase (m : SMap α) (k k' : Int) : getAll (m.erase k) k' = if k = k' then [] else getAll m k' := by
  simp only [getAll, erase, List.filter_filter]
  by_cases hk : k = k'
  · subst hk
    rw [if_pos rfl]
    simp only [values, List.map_eq_nil_iff, List.filter_eq_nil_iff]
    intro e _
    simp
  · rw [if_neg hk]
    congr 2
    funext e
    by_cases he : e.1 = k'
    · have : ¬ e.1 = k := by omega
      simp [he]; omega
    · simp [he]

theorem get?_erase (m : SMap α) (k k' : Int) : (m.erase k).get? k' = if k = k' then none else m.get? k' := by
  rw [get?_eq_head, getAll_erase, get?_eq_head]
  by_cases hk : k = k' <;> simp [hk]

theorem has_erase (m : SMap α) (k k' : Int) : (m.erase k).has k' = (m.has k' && k != k') := by
  rw [has_eq_isSome, get?_erase, has_eq_isSome]
  by_cases hk : k = k' <;> simp [hk]

theorem modify_keys (m : SMap α) (k : Int) (f : α → α) : (m.modify k f).map (·.1) = m.map (·.1) := by
  simp only [modify, List.map_map]
  congr 1
  funext e
  simp only [Function.comp]
  split <;> rfl

theorem sorted_iff_keys {m : SMap α} : m.Sorted ↔ (m.map (·.1)).Pairwise (· < ·) := by
  rw [List.pairwise_map]; rfl

theorem wsorted_iff_keys {m : SMap α} : m.WSorted ↔ (m.map (·.1)).Pairwise (· ≤ ·) := by
  rw [List.pairwise_map]; rfl

theorem modify_sorted {m : SMap α} (h : m.Sorted) (k : Int) (f : α → α) : (m.modify k f).Sorted := by
  rw [sorted_iff_keys, modify_keys, ← sorted_iff_keys]; exact h

theorem get?_modify (m : SMap α) (k k' : Int) (f : α → α) :
    (m.modify k f).get? k' = if k = k' then (m.get? k').map f else m.get? k' := by
  induction m with
  | nil => simp [modify, get?]
  | cons e m ih =>
    have : (modify (e :: m) k f) = (if e.1 == k then (e.1, f e.2) else e) :: modify m k f := rfl
    rw [this, get?_cons, get?_cons, ih]
    by_cases he : e.1 = k
    · subst he
      by_cases hk : e.1 = k'
      · simp [hk]
      · simp [hk]
    · have heb : (e.1 == k) = false := by simpa using he
      simp only [heb, Bool.false_eq_true, if_false]
      by_cases hk : e.1 = k'
      · have hne : ¬ k = k' := by omega
        simp [hk, hne]
      · simp [hk]

theorem has_modify (m : SMap α) (k k' : Int) (f : α → α) : (m.modify k f).has k' = m.has k' := by
  rw [has_eq_isSome, get?_modify, has_eq_isSome]
  by_cases hk : k = k' <;> simp [hk]

/-! ### building a map from a list -/

section build
variable {β : Type} (key : β → Int) (val : β → α)

theorem foldl_emplace (l : List β) : ∀ (m : SMap α), m.Sorted → (l.map key).Nodup → (∀ b ∈ l, m.has (key b) = false) →
    (l.foldl (fun m b => m.emplace (key b) (val b)) m).Sorted ∧
    (∀ b ∈ l, (l.foldl (fun m b => m.emplace (key b) (val b)) m).get? (key b) = some (val b)) ∧
    (∀ k, k ∉ l.map key → (l.foldl (fun m b => m.emplace (key b) (val b)) m).get? k = m.get? k) := by
  induction l with
  | nil => intro m hm _ _; exact ⟨hm, by simp, by simp⟩
  | cons b l ih =>
    intro m hm hnd hh
    simp only [List.map_cons, List.nodup_cons] at hnd
    have hb := hh b (by simp)
    have hh' : ∀ b' ∈ l, (m.emplace (key b) (val b)).has (key b') = false := by
      intro b' hb'
      rw [has_emplace, hh b' (by simp [hb'])]
      simp only [Bool.or_false, beq_eq_false_iff_ne]
      intro he
      exact hnd.1 (he ▸ List.mem_map_of_mem hb')
    obtain ⟨i1, i2, i3⟩ := ih (m.emplace (key b) (val b)) (emplace_sorted hm _ _) hnd.2 hh'
    refine ⟨i1, ?_, ?_⟩
    · intro b' hb'
      rcases List.mem_cons.mp hb' with rfl | hb'
      · rw [List.foldl_cons, i3 _ hnd.1, get?_emplace hm]
        simp [hb]
      · exact i2 b' hb'
    · intro k hk
      simp only [List.map_cons, List.mem_cons, not_or] at hk
      rw [List.foldl_cons, i3 k hk.2, get?_emplace hm, if_neg (by rintro ⟨rfl, _⟩; exact hk.1 rfl)]

/-- The map made of a list with different keys. -/
theorem build {l : List β} (hnd : (l.map key).Nodup) :
    (l.foldl (fun (m : SMap α) b => m.emplace (key b) (val b)) []).Sorted ∧
    (∀ k v, (l.foldl (fun (m : SMap α) b => m.emplace (key b) (val b)) []).get? k = some v ↔ ∃ b ∈ l, key b = k ∧ val b = v) := by
  obtain ⟨i1, i2, i3⟩ := foldl_emplace key val l [] Sorted.nil hnd (by simp [has])
  refine ⟨i1, fun k v => ⟨?_, ?_⟩⟩
  · intro h
    by_cases hk : k ∈ l.map key
    · obtain ⟨b, hb, rfl⟩ := List.mem_map.mp hk
      rw [i2 b hb] at h
      exact ⟨b, hb, rfl, Option.some.inj h⟩
    · rw [i3 k hk] at h
      cases h
  · rintro ⟨b, hb, rfl, rfl⟩
    exact i2 b hb

theorem foldl_multi (l : List β) : ∀ (m : SMap α), m.WSorted →
    (l.foldl (fun m b => emplaceMulti (key b) (val b) m) m).WSorted ∧
    (∀ k, getAll (l.foldl (fun m b => emplaceMulti (key b) (val b) m) m) k = getAll m k ++ (l.filter (fun b => key b == k)).map val) := by
  induction l with
  | nil => intro m hm; exact ⟨hm, by simp⟩
  | cons b l ih =>
    intro m hm
    obtain ⟨i1, i2⟩ := ih (emplaceMulti (key b) (val b) m) (emplaceMulti_wsorted hm _ _)
    refine ⟨i1, fun k => ?_⟩
    rw [List.foldl_cons, i2 k, getAll_emplaceMulti hm, List.filter_cons]
    by_cases hk : key b = k <;> simp [hk]

/-- The multimap made of a list: under each key the values in the order of the list. -/
theorem buildMulti (l : List β) :
    (l.foldl (fun (m : SMap α) b => emplaceMulti (key b) (val b) m) []).WSorted ∧
    (∀ k, getAll (l.foldl (fun (m : SMap α) b => emplaceMulti (key b) (val b) m) []) k = (l.filter (fun b => key b == k)).map val) := by
  obtain ⟨i1, i2⟩ := foldl_multi key val l [] WSorted.nil
  exact ⟨i1, fun k => by rw [i2 k]; rfl⟩

end build

/-- Two multimaps with the same values under each key are equal. -/
theorem WSorted.ext {m n : SMap α} (hm : m.WSorted) (hn : n.WSorted) (h : ∀ k, getAll m k = getAll n k) : m = n := by
  induction m generalizing n with
  | nil =>
    cases n with
    | nil => rfl
    | cons e n =>
      have := h e.1
      simp [getAll, values] at this
  | cons a m ih =>
    cases n with
    | nil =>
      have := h a.1
      simp [getAll, values] at this
    | cons b n =>
      obtain ⟨a1, a2⟩ := List.pairwise_cons.mp hm
      obtain ⟨b1, b2⟩ := List.pairwise_cons.mp hn
      have hmem : ∀ {x : SMap α} {k : Int}, getAll x k ≠ [] → ∃ e ∈ x, e.1 = k := by
        intro x k hne
        have hne' : x.filter (fun e => e.1 == k) ≠ [] := fun hh => hne (by rw [getAll, hh]; rfl)
        obtain ⟨e, he⟩ := List.exists_mem_of_ne_nil _ hne'
        obtain ⟨e1, e2⟩ := List.mem_filter.mp he
        exact ⟨e, e1, by simpa using e2⟩
      have ha : getAll (a :: m) a.1 = a.2 :: getAll m a.1 := by simp [getAll, values]
      have hb : getAll (b :: n) b.1 = b.2 :: getAll n b.1 := by simp [getAll, values]
      have key : a.1 = b.1 := by
        rcases Int.lt_trichotomy a.1 b.1 with hlt | heq | hgt
        · obtain ⟨e, he, hk⟩ := hmem (x := b :: n) (k := a.1) (by rw [← h, ha]; simp)
          rcases List.mem_cons.mp he with rfl | he
          · omega
          · have := b1 e he; omega
        · exact heq
        · obtain ⟨e, he, hk⟩ := hmem (x := a :: m) (k := b.1) (by rw [h, hb]; simp)
          rcases List.mem_cons.mp he with rfl | he
          · omega
          · have := a1 e he; omega
      have h1 := h a.1
      rw [ha] at h1
      rw [key, hb] at h1
      injection h1 with h2 h3
      have hab : a = b := Prod.ext key h2
      subst hab
      congr 1
      refine ih a2 b2 fun k => ?_
      have h1 := h k
      simp only [getAll, List.filter_cons] at h1 ⊢
      by_cases hk : a.1 = k
      · simpa [hk, values] using h1
      · simpa [hk, values] using h1

end SMap
end ENDFtk

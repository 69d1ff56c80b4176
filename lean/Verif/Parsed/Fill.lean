import Verif.Parsed.Model
import Verif.Tree.MapLemmas
/-
  `fill`: the map of the sections of a file, or of the files of a material.
-/
set_option linter.unusedVariables false
set_option linter.unusedSectionVars false
set_option linter.unusedSimpArgs false
namespace ENDFtk
variable {α : Type} {key : α → Int}

theorem fillMap_eq (xs : List α) : ∀ (m : SMap α), fillMap key xs m =
    if (xs.map key).Nodup ∧ ∀ x ∈ xs, m.has (key x) = false then .ok (xs.foldl (fun m b => m.emplace (key b) b) m) else .error .exc := by
  induction xs with
  | nil => intro m; simp [fillMap]
  | cons a xs ih =>
    intro m
    rw [fillMap]
    cases ha : m.has (key a) with
    | true => simp [ha]
    | false =>
      simp only [Bool.false_eq_true, if_false, ih, List.map_cons, List.nodup_cons, List.mem_cons, forall_eq_or_imp, ha, List.foldl_cons]
      congr 1
      simp only [SMap.has_emplace, Bool.or_eq_false_iff, beq_eq_false_iff_ne, eq_iff_iff]
      constructor
      · rintro ⟨h1, h2⟩
        refine ⟨⟨?_, h1⟩, trivial, fun x hx => (h2 x hx).2⟩
        intro hm
        obtain ⟨x, hx, e⟩ := List.mem_map.mp hm
        exact (h2 x hx).1 e.symm
      · rintro ⟨⟨h1, h2⟩, _, h3⟩
        refine ⟨h2, fun x hx => ⟨?_, h3 x hx⟩⟩
        intro e
        exact h1 (e ▸ List.mem_map_of_mem hx)

theorem fillMap_nil (xs : List α) : fillMap key xs [] =
    if (xs.map key).Nodup then .ok (xs.foldl (fun m b => m.emplace (key b) b) []) else .error .exc := by
  rw [fillMap_eq]
  simp [SMap.has]

theorem SMap.emplaceMulti_perm (k : Int) (v : α) (m : SMap α) : (SMap.emplaceMulti k v m).Perm ((k, v) :: m) := by
  induction m with
  | nil => exact .refl _
  | cons e m ih =>
    rw [SMap.emplaceMulti]
    split
    · exact .refl _
    · exact ((ih).cons e).trans (.swap _ _ _)

theorem foldl_emplace_perm (xs : List α) : ∀ (m : SMap α), (xs.map key).Nodup → (∀ x ∈ xs, m.has (key x) = false) →
    (xs.foldl (fun m b => m.emplace (key b) b) m).Perm (xs.map (fun x => (key x, x)) ++ m) := by
  induction xs with
  | nil => intro m _ _; exact .refl _
  | cons a xs ih =>
    intro m h1 h2
    simp only [List.map_cons, List.nodup_cons] at h1
    have ha := h2 a (by simp)
    have hh : ∀ x ∈ xs, (m.emplace (key a) a).has (key x) = false := by
      intro x hx
      rw [SMap.has_emplace, h2 x (by simp [hx])]
      simp only [Bool.or_false, beq_eq_false_iff_ne]
      intro e
      exact h1.1 (e ▸ List.mem_map_of_mem hx)
    have := ih (m.emplace (key a) a) h1.2 hh
    refine this.trans ?_
    rw [SMap.emplace, if_neg (by simp [ha])]
    refine (List.Perm.append_left _ (SMap.emplaceMulti_perm _ _ _)).trans ?_
    simp

/-- What `fill` makes: the elements under their keys, in ascending order. -/
theorem fillMap_ok {xs : List α} {m : SMap α} (h : fillMap key xs [] = .ok m) :
    (xs.map key).Nodup ∧ m.Sorted ∧ m.Perm (xs.map (fun x => (key x, x))) := by
  rw [fillMap_nil] at h
  split at h
  · rename_i hn
    cases h
    refine ⟨hn, (SMap.foldl_emplace key id xs [] SMap.Sorted.nil hn (by simp [SMap.has])).1, ?_⟩
    have := foldl_emplace_perm xs [] hn (by simp [SMap.has])
    simpa using this
  · cases h

theorem fillMap_entry {xs : List α} {m : SMap α} (h : fillMap key xs [] = .ok m) {e : Int × α} (he : e ∈ m) : e.1 = key e.2 ∧ e.2 ∈ xs := by
  have := (fillMap_ok h).2.2.subset he
  obtain ⟨x, hx, rfl⟩ := List.mem_map.mp this
  exact ⟨rfl, hx⟩

/-- A map is what `fill` makes of its values. -/
theorem fillMap_values {m : SMap α} (hs : m.Sorted) (hk : ∀ e ∈ m, e.1 = key e.2) : fillMap key m.values [] = .ok m := by
  have hmap : m.values.map key = m.map (·.1) := by
    rw [SMap.values, List.map_map]
    exact List.map_congr_left fun e he => (hk e he).symm
  have hnd : (m.values.map key).Nodup := by
    rw [hmap]
    exact (SMap.sorted_iff_keys.mp hs).imp (fun h => Int.ne_of_lt h)
  rw [fillMap_nil, if_pos hnd]
  congr 1
  obtain ⟨b1, b2⟩ := SMap.build (α := α) key id hnd
  refine SMap.Sorted.ext b1 hs fun k => ?_
  apply Option.ext
  intro v
  refine (b2 k v).trans ?_
  rw [SMap.get?_iff hs]
  constructor
  · rintro ⟨b, hb, rfl, rfl⟩
    obtain ⟨e, he, rfl⟩ := List.mem_map.mp hb
    rw [← hk e he]; exact he
  · intro h
    exact ⟨v, List.mem_map.mpr ⟨(k, v), h, rfl⟩, (hk _ h).symm, rfl⟩

end ENDFtk

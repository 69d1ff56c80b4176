import Verif.Format.Echo
/-
  The records of 1/458 and 2/151: printed in another order, but none is lost or added.
-/
set_option linter.unusedVariables false
set_option linter.unusedSectionVars false
set_option linter.unusedSimpArgs false
namespace ENDFtk
variable [Disco]
open Fmt

namespace Fmt

/-- The same record, or both are CONT records, or both are LIST records with the same C1, C2 and values and the second one has zeros as L1, L2 and N2. -/
def alike : Rec → Rec → Prop
  | .cont _, .cont _ => True
  | .list l, .list l' => l = l' ∨ l' = ⟨l.c1, l.c2, 0, 0, 0, l.data⟩
  | r, r' => r = r'

/-- Alike one by one. -/
inductive Alike : List Rec → List Rec → Prop
  | nil : Alike [] []
  | cons {r r' : Rec} {rs rs' : List Rec} : alike r r' → Alike rs rs' → Alike (r :: rs) (r' :: rs')

/-- The records `rs'` are `rs` in another order, apart from what `alike` allows. -/
def Rearranged (rs rs' : List Rec) : Prop := ∃ p, rs.Perm p ∧ Alike p rs'

end Fmt

theorem Fmt.Alike.refl (rs : List Rec) : Alike rs rs := by
  induction rs with
  | nil => exact .nil
  | cons r rs ih =>
    refine .cons ?_ ih
    cases r with
    | cont _ => trivial
    | list _ => exact .inl rfl
    | tab1 _ => exact rfl
    | tab2 _ => exact rfl
    | _ => exact rfl

theorem Fmt.Alike.append {a b c d : List Rec} (h1 : Alike a b) (h2 : Alike c d) : Alike (a ++ c) (b ++ d) := by
  induction h1 with
  | nil => exact h2
  | cons h _ ih => exact .cons h ih

theorem Fmt.Rearranged.refl (rs : List Rec) : Rearranged rs rs := ⟨rs, .refl _, .refl _⟩
theorem Fmt.Rearranged.of_eq {r r' : List Rec} (h : r = r') : Rearranged r r' := h ▸ .refl r
theorem Fmt.Rearranged.append {a b c d : List Rec} (h1 : Rearranged a b) (h2 : Rearranged c d) : Rearranged (a ++ c) (b ++ d) := by
  obtain ⟨p, hp, h1⟩ := h1; obtain ⟨q, hq, h2⟩ := h2
  exact ⟨p ++ q, hp.append hq, h1.append h2⟩
theorem Fmt.Rearranged.cons {r r' : Rec} {rs rs' : List Rec} (h : alike r r') (h2 : Rearranged rs rs') : Rearranged (r :: rs) (r' :: rs') := by
  obtain ⟨q, hq, h2⟩ := h2
  exact ⟨r :: q, hq.cons r, .cons h h2⟩
theorem Fmt.Rearranged.cont {c c' : Cont} {rs rs' : List Rec} (h2 : Rearranged rs rs') : Rearranged (.cont c :: rs) (.cont c' :: rs') := .cons trivial h2
theorem Fmt.Rearranged.same {r : Rec} {rs rs' : List Rec} (h2 : Rearranged rs rs') : Rearranged (r :: rs) (r :: rs') :=
  Fmt.Rearranged.append (a := [r]) (b := [r]) (.refl _) h2

theorem many_rearranged {α : Type} {G : α → List Rec → Prop} {f : α → List Rec} (h : ∀ x rs, G x rs → Rearranged rs (f x)) {xs : List α} {rs : List Rec} (hm : Many G xs rs) :
    Rearranged rs (xs.flatMap f) := by
  induction hm with
  | nil => exact .refl _
  | cons h1 _ ih => rw [List.flatMap_cons]; exact (h _ _ h1).append ih

theorem many_perm {α : Type} {G : α → List Rec → Prop} {xs ys : List α} (hp : xs.Perm ys) : ∀ {rs : List Rec}, Many G xs rs → ∃ rs', Many G ys rs' ∧ rs.Perm rs' := by
  induction hp with
  | nil => exact fun h => ⟨_, h, .refl _⟩
  | cons x _ ih =>
    intro rs h
    cases h with
    | cons h1 h2 =>
      obtain ⟨r', h3, h4⟩ := ih h2
      exact ⟨_, .cons h1 h3, h4.append_left _⟩
  | swap x y l =>
    intro rs h
    cases h with
    | cons h1 h2 =>
      cases h2 with
      | cons h3 h4 =>
        refine ⟨_, .cons h3 (.cons h1 h4), ?_⟩
        rw [← List.append_assoc, ← List.append_assoc]
        exact List.perm_append_comm.append_right _
  | trans _ _ ih1 ih2 =>
    intro rs h
    obtain ⟨r1, h1, h2⟩ := ih1 h
    obtain ⟨r2, h3, h4⟩ := ih2 h1
    exact ⟨r2, h3, h2.trans h4⟩

/-- The entries of a list that are present, with their positions counted from `n`. -/
def present {α : Type} (n : Nat) (xs : List (Option α)) : List (Int × α) := (xs.zipIdx n).filterMap fun p => p.1.map fun b => ((p.2 : Int), b)

theorem present_mem {α : Type} (xs : List (Option α)) : ∀ (n : Nat) (y : Int × α), y ∈ present n xs ↔ ∃ i : Nat, xs[i]? = some (some y.2) ∧ y.1 = n + i := by
  intro n y
  simp only [present, List.mem_filterMap, Prod.exists, List.mem_zipIdx_iff_le_and_getElem?_sub]
  constructor
  · rintro ⟨o, k, ⟨hk, ho⟩, h2⟩
    cases o with
    | none => simp at h2
    | some b =>
      simp only [Option.map_some, Option.some.injEq] at h2
      subst h2
      exact ⟨k - n, ho, by show (k : Int) = _; omega⟩
  · rintro ⟨i, h1, h2⟩
    refine ⟨some y.2, n + i, ⟨by omega, by rw [show n + i - n = i by omega]; exact h1⟩, ?_⟩
    simp only [Option.map_some, Option.some.injEq]
    cases y; simp only at h2; subst h2; simp

theorem present_nodup {α : Type} (xs : List (Option α)) : ∀ n : Nat, (present n xs).Pairwise (fun y y' => y.1 ≠ y'.1) := by
  induction xs with
  | nil => exact fun n => List.Pairwise.nil
  | cons o xs ih =>
    intro n
    cases o with
    | none => exact ih (n + 1)
    | some b =>
      show ((((n : Int), b)) :: present (n + 1) xs).Pairwise _
      refine List.pairwise_cons.mpr ⟨fun y hy => ?_, ih _⟩
      obtain ⟨i, -, h⟩ := (present_mem xs (n + 1) y).mp hy
      simp only
      omega

theorem nodup_of_keys {α : Type} {l : List (Int × α)} (h : l.Pairwise (fun y y' => y.1 ≠ y'.1)) : l.Nodup :=
  h.imp fun h e => h (by rw [e])

theorem present_perm {α : Type} {xs : List (Option α)} {items : List (Int × α)} (hp : items.Pairwise (fun y y' => y.1 ≠ y'.1)) (hr : ∀ y ∈ items, 1 ≤ y.1)
    (h : ∀ (i : Nat) b, xs[i]? = some (some b) ↔ ((i : Int) + 1, b) ∈ items) : items.Perm (present 1 xs) := by
  refine (List.perm_ext_iff_of_nodup (nodup_of_keys hp) (nodup_of_keys (present_nodup xs 1))).mpr fun y => ?_
  rw [present_mem]
  constructor
  · intro hy
    have := hr y hy
    refine ⟨(y.1 - 1).toNat, (h _ _).mpr ?_, by omega⟩
    rw [show (((y.1 - 1).toNat : Nat) : Int) + 1 = y.1 by omega]
    exact hy
  · rintro ⟨i, h1, h2⟩
    have := (h _ _).mp h1
    rw [show (i : Int) + 1 = y.1 by omega] at this
    exact this

theorem present_snd {α β : Type} (f : α → β) (xs : List (Option α)) : ∀ n, (present n xs).map (fun y => f y.2) = xs.flatMap (fun o => o.toList.map f) := by
  induction xs with
  | nil => exact fun n => rfl
  | cons o xs ih =>
    intro n
    cases o with
    | none => exact ih (n + 1)
    | some b =>
      rw [List.flatMap_cons]
      show f b :: (present (n + 1) xs).map _ = f b :: _
      rw [ih]; rfl

/-- 1/458: the records printed are those read, in another order. -/
theorem release_perm {h : Cont} {x : Release} {rs : List Rec} (hb : Fmt.mf1mt458 h x rs) : rs.Perm (releaseP x) := by
  cases x with
  | thermal r => exact .of_eq hb.2.1
  | poly r => exact .of_eq hb.2.1
  | tab b =>
    obtain ⟨-, -, cs, rfl, -, -, hc, hp, hl, hi⟩ := hb
    refine List.Perm.cons _ ?_
    have h1 : (cs.map fun c => (toInt32 c.base.l2, c)).Perm (present 1 b.comps) := by
      refine present_perm (List.pairwise_map.mpr hp) ?_ ?_
      · intro y hy
        obtain ⟨c, h1, rfl⟩ := List.mem_map.mp hy
        exact (hc c h1).2.1
      · intro i c
        rw [hi i c]
        simp only [List.mem_map, Prod.mk.injEq]
        constructor
        · rintro ⟨h1, h2⟩; exact ⟨c, h1, h2, rfl⟩
        · rintro ⟨c', h1, h2, rfl⟩; exact ⟨h1, h2⟩
    have h2 := h1.map (fun y => Rec.tab1 y.2)
    rw [present_snd, List.map_map] at h2
    exact h2

theorem present_flat (xs : List (Option Background)) : ∀ n, (present n xs).flatMap (fun y => Rec.cont ⟨Disco.zero, Disco.zero, y.1, (Fmt.backgroundP y.2).1, 0, 0⟩ :: (Fmt.backgroundP y.2).2) = (xs.zipIdx n).flatMap channelP := by
  induction xs with
  | nil => exact fun n => rfl
  | cons o xs ih =>
    intro n
    cases o with
    | none => exact ih (n + 1)
    | some b =>
      show (_ :: _) ++ (present (n + 1) xs).flatMap _ = _
      rw [ih]; rfl

theorem background_rearranged {x : Int × Background} {rs : List Rec} (h : background x rs) :
    Rearranged rs (Rec.cont ⟨Disco.zero, Disco.zero, x.1, (Fmt.backgroundP x.2).1, 0, 0⟩ :: (Fmt.backgroundP x.2).2) := by
  obtain ⟨i, b⟩ := x
  obtain ⟨c, r, rfl, -, h⟩ := h
  refine .cont ?_
  cases b with
  | none => exact .of_eq h.2
  | tabulated a b => exact .of_eq h.2.1
  | sammy ed eu v =>
    obtain ⟨-, l, rfl, rfl, rfl, rfl, -⟩ := h
    exact .cons (Or.inr rfl) (.refl _)
  | frohner ed eu v =>
    obtain ⟨-, l, rfl, rfl, rfl, rfl, -⟩ := h
    exact .cons (Or.inr rfl) (.refl _)

theorem spinGroup_rearranged {x : SpinGroup} {rs : List Rec} (h : spinGroup x rs) : Rearranged rs (spinGroupP x) := by
  obtain ⟨r, items, rfl, -, -, -, -, hm, -, -, hr, hp, hi⟩ := h
  refine .same (.same ?_)
  obtain ⟨r', h1, h2⟩ := many_perm (present_perm hp (fun y hy => (hr y hy).1) hi) hm
  obtain ⟨p, h3, h4⟩ := many_rearranged (fun _ _ h => background_rearranged h) h1
  rw [present_flat] at h4
  exact ⟨p, h2.trans h3, h4⟩

theorem rml_rearranged {x : RmlHeader × LIST × List SpinGroup} {rs : List Rec} (h : rml x rs) : Rearranged rs (rmlP x) := by
  obtain ⟨c, r, rfl, -, -, -, -, -, -, -, hm⟩ := h
  exact .cont (.same (many_rearranged (fun _ _ h => spinGroup_rearranged h) hm))

theorem lvalue_rearranged {P : LIST → Prop} {x : LValueC} {rs : List Rec} (h : lvalue P x rs) : Rearranged rs (lvalueP x) := by
  obtain ⟨c, rfl, -⟩ := h
  exact .cont (.refl _)

theorem breitWigner_rearranged {x} {rs : List Rec} (h : breitWigner x rs) : Rearranged rs (breitWignerP x) := by
  obtain ⟨c, rfl, -⟩ := h
  exact .cont (.refl _)

theorem resParams_rearranged {a b c : Int} {x : ResParams} {rs : List Rec} (h : resParams a b c x rs) : Rearranged rs (resParamsP x).2.2 := by
  cases x with
  | special spi ap => obtain ⟨-, c, rfl, -⟩ := h; exact .cont (.refl _)
  | slbw b => exact breitWigner_rearranged h.2.2
  | mlbw b => exact breitWigner_rearranged h.2.2
  | reichMoore b => exact breitWigner_rearranged h.2.2.1
  | rml b => exact rml_rearranged h.2.2
  | caseA b => obtain ⟨-, -, -, c, rfl, -⟩ := h; exact .cont (.refl _)
  | caseB b => obtain ⟨-, -, -, r, rfl, -, -, hm⟩ := h; exact .same (many_rearranged (fun _ _ h => lvalue_rearranged h) hm)
  | caseC b => obtain ⟨-, -, c, r, rfl, -, -, -, -, -, hm⟩ := h; exact .cont (many_rearranged (fun _ _ h => lvalue_rearranged h) hm)

theorem isotope_rearranged {x : Isotope} {rs : List Rec} (h : isotope x rs) : Rearranged rs (isotopeP x) := by
  obtain ⟨c, r, rfl, -, -, -, -, hm⟩ := h
  refine .cont (many_rearranged (fun y r h => ?_) hm)
  obtain ⟨c, r, rfl, -, -, -, h, -⟩ := h
  exact .cont ((Rearranged.refl _).append (resParams_rearranged h))

theorem mf2_rearranged {h : Cont} {x : List Isotope} {rs : List Rec} (hb : Fmt.mf2mt151 h x rs) : Rearranged rs (x.flatMap isotopeP) :=
  many_rearranged (fun _ _ h => isotope_rearranged h) hb.2.2

theorem Fmt.Same.alike {a b : List Rec} (h : Same a b) : Alike a b := by
  induction h with
  | nil => exact .nil
  | @cons r r' _ _ h _ ih =>
    refine .cons ?_ ih
    cases r <;> cases r' <;> first | trivial | exact h | (exact Or.inl (Rec.list.inj h)) | cases h

theorem Fmt.Alike.length {a b : List Rec} (h : Alike a b) : a.length = b.length := by
  induction h with
  | nil => rfl
  | cons _ _ ih => simp [ih]

theorem Fmt.Rearranged.length {a b : List Rec} (h : Rearranged a b) : a.length = b.length := by
  obtain ⟨p, h1, h2⟩ := h
  rw [h1.length_eq, h2.length]

theorem records_rearranged (T : SectionType) (awr : Dbl) (h : Cont) (mt : Int) (x : T.Data) (rs : List Rec) (hb : Fmt.body T h mt x rs) :
    Rearranged rs (Fmt.records T awr x) := by
  cases T with
  | mf1mt458 => exact ⟨_, release_perm hb, .refl _⟩
  | mf2mt151 => exact mf2_rearranged hb
  | _ => refine ⟨rs, .refl _, (records_same _ ?_ awr h mt x rs hb).alike⟩; trivial

end ENDFtk

import Verif.Format.Proof32
import Verif.Format.Echo
/-
  What is printed for a section 32/151, and the format of the whole section.
-/
set_option linter.unusedVariables false
set_option linter.unusedSectionVars false
set_option linter.unusedSimpArgs false
namespace ENDFtk
variable [Disco] [CorrOps]
open Fmt32

namespace Fmt32

theorem printRecs_nil (t : Nums) : printRecs [] t = [] := rfl
theorem printRecs_cons (r : Rec32) (rs : List Rec32) (t : Nums) : printRecs (r :: rs) t = r.print t ++ printRecs rs t := by simp [printRecs]
theorem printRecs_append (r1 r2 : List Rec32) (t : Nums) : printRecs (r1 ++ r2) t = printRecs r1 t ++ printRecs r2 t := by simp [printRecs]
theorem printRecs_plain (rs : List Rec) (t : Nums) : printRecs (rs.map .plain) t = ENDFtk.printRecs rs t := by
  simp only [printRecs, ENDFtk.printRecs, List.flatMap_map]; rfl
theorem printRecs_flatMap {α : Type} (f : α → List Rec32) (xs : List α) (t : Nums) : printRecs (xs.flatMap f) t = xs.flatMap (fun x => printRecs (f x) t) := by
  simp [printRecs, List.flatMap_assoc]

end Fmt32

section
variable (t : Nums)

theorem opt_print {δ : Type} (D : δ → List Rec) (c : Comp δ) (h : ∀ d, printRecs (D d) t = c.print d t) (p : Prop) [Decidable p] (o : Option δ) :
    printRecs (o.toList.flatMap D) t = (optC p c).print o t := by
  cases o with
  | none => rfl
  | some d => simp [optC, ← h]

theorem dap_print (d : Dbl) : printRecs (dapRec d) t = dapC.print d t := by
  simp only [dapRec, ENDFtk.printRecs_cons, ENDFtk.printRecs_nil, List.append_nil]; rfl

theorem list_print (l : LIST) : printRecs [.list l] t = listC.print l t := by
  simp only [ENDFtk.printRecs_cons, ENDFtk.printRecs_nil, List.append_nil]; rfl

theorem lists_print (ls : List LIST) : printRecs (ls.map .list) t = ls.flatMap (fun l => listC.print l t) := by
  rw [printRecs_map]; rfl

theorem limited_print (x : (Dbl × Dbl) × Option Dbl × List LIST) : printRecs (limitedRecs x) t = limitedC.print x t := by
  simp only [limitedRecs, List.cons_append, ENDFtk.printRecs_cons, ENDFtk.printRecs_append, lists_print, opt_print t dapRec dapC (dap_print t) ((0:Int) ≠ 0)]
  rfl

theorem general_print {δ α : Type} (D : δ → List Rec) (c : Comp δ) (S : α → List Rec) (d : Comp α) (h1 : ∀ x, printRecs (D x) t = c.print x t)
    (h2 : ∀ x, printRecs (S x) t = d.print x t) (x : (Dbl × Dbl × Int) × Option δ × Dbl × List α × List LIST) :
    printRecs (generalRecs D S x) t = (generalC c d).print x t := by
  simp only [generalRecs, List.cons_append, ENDFtk.printRecs_cons, ENDFtk.printRecs_append, lists_print, opt_print t D c h1 ((0:Int) ≠ 0),
    ENDFtk.printRecs_flatMap, h2, List.append_assoc]
  rfl

theorem shortRml_print (x : Unit × List LIST × LIST) : printRecs (shortRmlRecs x) t = shortRangeRmlC.print x t := by
  simp only [shortRmlRecs, List.cons_append, ENDFtk.printRecs_cons, ENDFtk.printRecs_append, lists_print, ENDFtk.printRecs_nil, List.append_nil]
  rfl

theorem unresolved_print (x : (Dbl × Dbl) × List LIST × LIST) : printRecs (unresolvedRecs x) t = unresolvedC.print x t := by
  simp only [unresolvedRecs, List.cons_append, ENDFtk.printRecs_cons, ENDFtk.printRecs_append, lists_print, ENDFtk.printRecs_nil, List.append_nil]
  rfl

theorem compactRml_print (x : LIST × List (LIST × LIST)) : printRecs (compactRmlRecs x) t = compactRmlC.print x t := by
  simp only [compactRmlRecs, ENDFtk.printRecs_cons, ENDFtk.printRecs_flatMap, ENDFtk.printRecs_nil, List.append_nil]
  rfl

theorem compact_print {δ α : Type} (D : δ → List Rec) (c : Comp δ) (U : α → List Rec) (d : Comp α) (h1 : ∀ x, printRecs (D x) t = c.print x t)
    (h2 : ∀ x, printRecs (U x) t = d.print x t) (x : (Dbl × Dbl × Int × Int) × Option δ × α × CorrMatrix) :
    Fmt32.printRecs (compactRecs D U x) t = (compactC c d).print x t := by
  simp only [compactRecs, Fmt32.printRecs_append, printRecs_plain, List.cons_append, ENDFtk.printRecs_cons, ENDFtk.printRecs_append,
    opt_print t D c h1 ((0:Int) ≠ 0), h2, Fmt32.printRecs_cons, Fmt32.printRecs_nil, List.append_nil, List.append_assoc]
  rfl

theorem params_print (k : CovType) (x : k.Data) : Fmt32.printRecs (paramsRecs k x) t = k.comp.print x t := by
  cases k
  case limitedSLBW => exact (printRecs_plain _ t).trans (limited_print t x)
  case limitedMLBW => exact (printRecs_plain _ t).trans (limited_print t x)
  case generalSLBW => exact (printRecs_plain _ t).trans (general_print t _ dapC _ shortRangeC (dap_print t) (list_print t) x)
  case generalMLBW => exact (printRecs_plain _ t).trans (general_print t _ dapC _ shortRangeC (dap_print t) (list_print t) x)
  case generalRM => exact (printRecs_plain _ t).trans (general_print t _ dapListC _ shortRangeC (list_print t) (list_print t) x)
  case generalRML => exact (printRecs_plain _ t).trans (general_print t _ dapNoneC _ shortRangeRmlC (list_print t) (shortRml_print t) x)
  case compactSLBW => exact compact_print t _ dapC _ compactUncertaintiesC (dap_print t) (list_print t) x
  case compactMLBW => exact compact_print t _ dapC _ compactUncertaintiesC (dap_print t) (list_print t) x
  case compactRM => exact compact_print t _ dapListC _ compactUncertaintiesC (list_print t) (list_print t) x
  case compactRML => exact compact_print t _ dapNoneC _ compactRmlC (list_print t) (compactRml_print t) x
  case unresolved => exact (printRecs_plain _ t).trans (unresolved_print t x)

theorem radius_print (x : Unit × List LIST) : printRecs (radiusRecs x) t = radiusCovC.print x t := by
  simp only [radiusRecs, ENDFtk.printRecs_cons, lists_print]
  rfl

theorem lruOf_eq (k : CovType) : lruOf k = k.lru := by cases k <;> rfl
theorem lrfOf_eq (k : CovType) : lrfOf k = k.lrf := by cases k <;> rfl

theorem range_print (x : CovRange) : Fmt32.printRecs (rangeRecs x) t = x.print t := by
  have h : printRecs (x.radius.toList.flatMap radiusRecs) t = CovRange.radiusPrint t x.radius := by
    cases x.radius with
    | none => rfl
    | some r => simp [CovRange.radiusPrint, ← radius_print]
  simp only [rangeRecs, Fmt32.printRecs_append, printRecs_plain, ENDFtk.printRecs_cons, params_print, h, lruOf_eq, lrfOf_eq, List.append_assoc]
  rfl

theorem covIsotope_print (x : CovIsotope) : Fmt32.printRecs (isotopeRecs x) t = x.print t := by
  simp only [isotopeRecs, Fmt32.printRecs_cons, Fmt32.printRecs_flatMap, range_print]
  rfl

end

theorem lines32_eq (x : Sect (List CovIsotope)) (mat mf : Int) : mf32mt151.lines x mat mf = Fmt32.printRecs (Fmt32.printed x) ⟨mat, mf, x.mt⟩ := by
  simp only [Fmt32.printed, Fmt32.printRecs_cons, Fmt32.printRecs_flatMap, covIsotope_print]
  rfl

/-! ### the records that are printed and those that were read -/

theorem Fmt32.Same.refl (rs : List Rec32) : Fmt32.Same rs rs := by
  induction rs with
  | nil => exact .nil
  | cons r rs ih => exact .cons ih

theorem Fmt32.Same.append {a b c d : List Rec32} (h1 : Fmt32.Same a b) (h2 : Fmt32.Same c d) : Fmt32.Same (a ++ c) (b ++ d) := by
  induction h1 with
  | nil => exact h2
  | look _ ih => exact .look ih
  | cont _ ih => exact .cont ih
  | cons _ ih => exact .cons ih

theorem many_same32 {α : Type} {G : α → List Rec32 → Prop} {f : α → List Rec32} (h : ∀ x rs, G x rs → Fmt32.Same rs (f x)) {xs : List α} {rs : List Rec32}
    (hm : Many G xs rs) : Fmt32.Same rs (xs.flatMap f) := by
  induction hm with
  | nil => exact .nil
  | cons h1 _ ih => rw [List.flatMap_cons]; exact (h _ _ h1).append ih

theorem Fmt32.Same.plain {a b : List Rec} (h : Fmt.Same a b) : Fmt32.Same (a.map .plain) (b.map .plain) := by
  induction h with
  | nil => exact .nil
  | @cons r r' _ _ h _ ih =>
    cases r with
    | cont c =>
      cases r' with
      | cont c' => exact .cont ih
      | _ => exact absurd h (by simp [Fmt.same])
    | _ => simp only [Fmt.same] at h; subst h; exact .cons ih

section
open Fmt (Same)

theorem opt_same {δ : Type} {n : Int} {G : δ → List Rec → Prop} {D : δ → List Rec} (h : ∀ x rs, G x rs → Same rs (D x)) {o : Option δ} {rs : List Rec}
    (ho : optional n G o rs) : Same rs (o.toList.flatMap D) := by
  cases o with
  | none => rw [ho.2]; exact .nil
  | some d => simpa using h _ _ ho.2

theorem dap_same (x : Dbl) (rs : List Rec) (h : dap x rs) : Same rs (dapRec x) := by
  obtain ⟨c, rfl, -⟩ := h; exact .cons trivial .nil
theorem dapList_same (x : LIST) (rs : List Rec) (h : dapList x rs) : Same rs [.list x] := .of_eq h
theorem dapNone_same (x : LIST) (rs : List Rec) (h : dapNone x rs) : Same rs [.list x] := h.elim
theorem list_same {P : LIST → Prop} (x : LIST) (rs : List Rec) (h : Fmt32.list P x rs) : Same rs [.list x] := .of_eq h.1

theorem limited_same {x} {rs : List Rec} (h : limited x rs) : Same rs (limitedRecs x) := by
  obtain ⟨c, r, rfl, -, h2, -⟩ := h
  exact .cons trivial ((opt_same dap_same h2).append (.refl _))

theorem general_same {δ α : Type} {G : δ → List Rec → Prop} {D : δ → List Rec} {H : α → List Rec → Prop} {S : α → List Rec}
    (hD : ∀ x rs, G x rs → Same rs (D x)) (hS : ∀ x rs, H x rs → Same rs (S x)) {x} {rs : List Rec} (h : general G H x rs) : Same rs (generalRecs D S x) := by
  obtain ⟨c, r, q, r', rfl, -, -, -, h2, -, -, h3, -⟩ := h
  simp only [generalRecs, List.cons_append, List.append_assoc]
  refine .cons trivial ((opt_same hD h2).append (.cons trivial ((many_same hS h3).append (.refl _))))

theorem shortRml_same (x : Unit × List LIST × LIST) (rs : List Rec) (h : shortRml x rs) : Same rs (shortRmlRecs x) := by
  obtain ⟨c, rfl, -⟩ := h; exact .cons trivial (.refl _)

theorem unresolved_same {x} {rs : List Rec} (h : unresolved x rs) : Same rs (unresolvedRecs x) := by
  obtain ⟨c, rfl, -⟩ := h; exact .cons trivial (.refl _)

theorem compactRml_same (x : LIST × List (LIST × LIST)) (rs : List Rec) (h : compactRml x rs) : Same rs (compactRmlRecs x) := .of_eq h.1

theorem compact_same {δ α : Type} {G : δ → List Rec → Prop} {D : δ → List Rec} {H : α → List Rec → Prop} {U : α → List Rec}
    (hD : ∀ x rs, G x rs → Same rs (D x)) (hU : ∀ x rs, H x rs → Same rs (U x)) {x} {rs : List Rec32} (h : compact G H x rs) :
    Fmt32.Same rs (compactRecs D U x) := by
  obtain ⟨c, r, r', rfl, -, h2, h3⟩ := h
  refine Fmt32.Same.append (.plain ?_) (.refl _)
  exact .cons trivial ((opt_same hD h2).append (hU _ _ h3))

theorem params_same {k : CovType} {x : k.Data} {rs : List Rec32} (h : params k x rs) : Fmt32.Same rs (paramsRecs k x) := by
  cases k
  case limitedSLBW => obtain ⟨r, rfl, h⟩ := h; exact .plain (limited_same h)
  case limitedMLBW => obtain ⟨r, rfl, h⟩ := h; exact .plain (limited_same h)
  case generalSLBW => obtain ⟨r, rfl, h⟩ := h; exact .plain (general_same dap_same list_same h)
  case generalMLBW => obtain ⟨r, rfl, h⟩ := h; exact .plain (general_same dap_same list_same h)
  case generalRM => obtain ⟨r, rfl, h⟩ := h; exact .plain (general_same dapList_same list_same h)
  case generalRML => obtain ⟨r, rfl, h⟩ := h; exact .plain (general_same dapNone_same shortRml_same h)
  case compactSLBW => exact compact_same dap_same list_same h
  case compactMLBW => exact compact_same dap_same list_same h
  case compactRM => exact compact_same dapList_same list_same h
  case compactRML => exact compact_same dapNone_same compactRml_same h
  case unresolved => obtain ⟨r, rfl, h⟩ := h; exact .plain (unresolved_same h)

theorem radius_same {x} {rs : List Rec} (h : radius x rs) : Same rs (radiusRecs x) := by
  obtain ⟨c, rfl, -⟩ := h; exact .cons trivial (.refl _)

theorem range_same (x : CovRange) (rs : List Rec32) (h : Fmt32.range x rs) : Fmt32.Same rs (rangeRecs x) := by
  obtain ⟨c, r, c', r', rfl, -, -, -, -, h2, -, h3⟩ := h
  refine Fmt32.Same.append (.plain (.cons trivial ?_)) (.look (params_same h2))
  rcases h3 with ⟨-, e, rfl, -⟩ | ⟨-, ⟨y, e, hy⟩, -⟩
  · rw [e]; exact .nil
  · rw [e]; simpa using radius_same hy

theorem covIsotope_same (x : CovIsotope) (rs : List Rec32) (h : Fmt32.isotope x rs) : Fmt32.Same rs (isotopeRecs x) := by
  obtain ⟨c, r, rfl, -, -, -, -, h⟩ := h
  exact .cont (many_same32 range_same h)

theorem body32_same {c : Cont} {x : List CovIsotope} {rs : List Rec32} (h : Fmt32.body c x rs) : Fmt32.Same rs (x.flatMap isotopeRecs) :=
  many_same32 covIsotope_same h.2.2

end

/-! ### the section -/

theorem checkBase32 (head : Division) : checkBase (headZA head) head.base.c2 (mf32mt151.mtCheck head) = .ok () ↔
    1 ≤ headZA head ∧ Disco.ltD head.base.c2 Disco.zero = false := by
  unfold checkBase SecDef.mtCheck
  simp only [mf32mt151, Option.isSome_some, if_true]
  split
  · simp only [reduceCtorEq, false_iff]; omega
  · split <;> rename_i h1 h2
    · simp [h2]
    · simp only [Bool.not_eq_true] at h2; simp only [h2, true_iff, and_true]; omega

theorem readSect32_iff (head : Division) (mat : Int) (s : St) (x : Sect (List CovIsotope)) (s' : St) :
    mf32mt151.readSect head mat s = .ok (x, s') ↔
      (1 ≤ headZA head ∧ Disco.ltD head.base.c2 Disco.zero = false) ∧ x.za = headZA head ∧ x.awr = head.base.c2 ∧ x.mt = 151 ∧
      ∃ rs s1, Recs32 ⟨mat, 32, 151⟩ rs s s1 ∧ Fmt32.body head.base x.data rs ∧ Fmt.sendAt mat 32 s1 s' := by
  have hbody := mf32mt151_is (t := ⟨mat, 32, 151⟩) head
  have hn : mf32mt151.recNums head mat = ⟨mat, 32, 151⟩ := rfl
  unfold SecDef.readSect
  rw [Parser.mapErr_ok, hn]
  constructor
  · intro h
    obtain ⟨u, s0, h0, k1⟩ := Parser.bind_eq_ok.mp h
    clear h
    obtain ⟨b, s1, h1, k2⟩ := Parser.bind_eq_ok.mp k1
    clear k1
    obtain ⟨u', s2, h2, k3⟩ := Parser.bind_eq_ok.mp k2
    clear k2
    have hl : checkBase (headZA head) head.base.c2 (mf32mt151.mtCheck head) = .ok () ∧ s0 = s := by
      simp only [show mf32mt151.checksHead = false from rfl, Bool.false_eq_true, if_false] at h0
      unfold liftE at h0
      split at h0 <;> rename_i hx
      · rw [hx]; injection h0 with h0; injection h0 with h0 h0'; exact ⟨rfl, h0'.symm⟩
      · cases h0
    obtain ⟨hl, rfl⟩ := hl
    have hok := (checkBase32 head).mp hl
    obtain ⟨rs, hr, hb⟩ := (hbody _ _ _).mp h1
    rw [Parser.pure_run] at k3; injection k3 with k3; injection k3 with h3 h4
    subst h4; subst h3
    exact ⟨hok, rfl, rfl, rfl, rs, s1, hr, hb, (sendAt_eq _ _ _ _).mp h2⟩
  · rintro ⟨hok, h1, h2, h3, rs, s1, hr, hb, hs⟩
    refine Parser.bind_eq_ok.mpr ⟨(), s, ?_, Parser.bind_eq_ok.mpr ⟨x.data, s1, ?_, Parser.bind_eq_ok.mpr ⟨(), s', ?_, ?_⟩⟩⟩
    · simp only [show mf32mt151.checksHead = false from rfl, Bool.false_eq_true, if_false]
      unfold liftE; rw [(checkBase32 head).mpr hok]
    · exact (hbody _ _ _).mpr ⟨rs, hr, hb⟩
    · exact (sendAt_eq _ _ _ _).mpr hs
    · rw [← h1, ← h2, show mf32mt151.mtOf head = x.mt from h3.symm]; rfl

end ENDFtk

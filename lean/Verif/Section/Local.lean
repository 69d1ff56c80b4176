import Verif.Section.Combi
/-
  What a reading function returns depends only on the lines it consumes: not on what follows them, nor on the line number.
-/
set_option linter.unusedVariables false
set_option linter.unusedSectionVars false
set_option linter.unusedSimpArgs false
namespace ENDFtk
variable [Disco]

/-- Whenever the reading function succeeds, it has consumed some lines and advanced the line counter by their number, and it reads the same
    from these lines wherever they stand. -/
class Local {α : Type} (p : Parser α) : Prop where
  run : ∀ {s a s'}, p s = .ok (a, s') → ∃ ls, Lines ls s.rest s'.rest ∧ s'.line = s.line + ls.length ∧ Rd p (unlines ls) a ls.length

/-- A component all of whose reading functions are local. -/
class CLocal {α : Type} (c : Comp α) : Prop where
  read : ∀ t, Local (c.read t)

instance {α : Type} (c : Comp α) [h : CLocal c] (t : Nums) : Local (c.read t) := h.read t

namespace Local
variable {α β : Type}

instance pure (a : α) : Local (Pure.pure a : Parser α) where
  run := by
    intro s b s' h
    simp only [Parser.pure_run, Except.ok.injEq, Prod.mk.injEq] at h
    obtain ⟨rfl, rfl⟩ := h
    exact ⟨[], .nil _, by simp, Rd.pure a⟩

instance fail (e : Err) : Local (Parser.fail e : Parser α) where
  run := by intro s b s' h; cases h

theorem bind {p : Parser α} {f : α → Parser β} (hp : Local p) (hf : ∀ a, Local (f a)) : Local (p >>= f) where
  run := by
    intro s b s'' h
    obtain ⟨a, s', h1, h2⟩ := Parser.bind_eq_ok.mp h
    obtain ⟨ls, k1, k2, k3⟩ := hp.run h1
    obtain ⟨ms, m1, m2, m3⟩ := (hf a).run h2
    refine ⟨ls ++ ms, k1.trans m1, by simp; omega, ?_⟩
    rw [unlines_append, List.length_append]
    exact k3.bind m3

theorem mapErr {p : Parser α} {g : Err → Err} (hp : Local p) : Local (Parser.mapErr g p) where
  run := by
    intro s a s' h
    obtain ⟨ls, k1, k2, k3⟩ := hp.run (Parser.mapErr_ok.mp h)
    exact ⟨ls, k1, k2, k3.mapErr⟩

theorem liftE (x : Except Err α) : Local (liftE x) where
  run := by
    intro s a s' h
    cases x with
    | error e => cases h
    | ok b =>
      simp only [ENDFtk.liftE, Except.ok.injEq, Prod.mk.injEq] at h
      obtain ⟨rfl, rfl⟩ := h
      exact ⟨[], .nil _, by simp, Rd.liftE rfl⟩

theorem ite {p q : Parser α} {c : Prop} {inst : Decidable c} (hp : Local p) (hq : Local q) : Local (if c then p else q) := by
  split
  · exact hp
  · exact hq

theorem line {w : Nat} {g : Text → Except Err α} {p : Parser α} (hp : LineF (w + 1) g p) : Local p where
  run := by
    intro s a s' h
    obtain ⟨rest, line⟩ := s
    obtain ⟨l, t, rfl, hl, ht⟩ := split_line rest
    rw [hp l t line hl ht] at h
    by_cases h1 : t = [] ∧ l.length < w + 1
    · rw [if_pos h1] at h; cases h
    · rw [if_neg h1] at h
      cases hgl : g l with
      | error e => simp [hgl] at h
      | ok b =>
        simp only [hgl, Except.ok.injEq, Prod.mk.injEq] at h
        obtain ⟨rfl, rfl⟩ := h
        refine ⟨[l], ?_, by simp, ?_⟩
        · rcases ht with rfl | ⟨r, rfl⟩
          · simp at h1
            have : l ≠ [] := by rintro rfl; simp at h1
            simpa using Lines.last hl this
          · simpa using Lines.one hl r
        · intro s n
          have : unlines [l] ++ s = l ++ '\n' :: s := by simp [unlines]
          rw [this, hp.run_nl hl, hgl]; simp

theorem colsTail {g : Text → Option α} {p : Parser α} (hp : ColsF 66 g p) (e : Nums) : Local (do let a ← p; verifyTail e; Pure.pure a) :=
  line (w := 79) (colsTail_line hp e)

theorem readMany {p : Parser α} (hp : Local p) : ∀ n, Local (readMany p n)
  | 0 => pure _
  | n + 1 => bind hp fun _ => bind (readMany hp n) fun _ => pure _

instance readSequence (p : Parser α) [hp : Local p] (n : Int) : Local (readSequence p n) := ite (fail _) (readMany hp _)
instance readSequenceL (p : Parser α) [hp : Local p] (n : Int) : Local (readSequenceL p n) := ite (fail _) (readMany hp _)
instance (p : Parser α) [hp : Local p] (n : Nat) : Local (ENDFtk.readMany p n) := readMany hp _
instance (x : Except Err α) : Local (ENDFtk.liftE x) := liftE x
instance (p : Parser α) (g : Err → Err) [hp : Local p] : Local (Parser.mapErr g p) := mapErr hp

end Local

/-- Proves that a reading function is local by following its structure. -/
macro "locl" : tactic => `(tactic| repeat' (first
  | assumption
  | infer_instance
  | apply Local.bind
  | apply Local.mapErr
  | apply Local.ite
  | intro _
  | split))

/-! ### records -/

instance : Local readDivision := Local.line (w := 79) readDivision_line
instance : Local skip := Local.line (w := 79) skip_line
instance : Local readTpid := Local.line (w := 79) readTpid_line
instance (e : Nums) : Local (readCont e) := Local.mapErr (Local.colsTail readContBase_cols e)
instance (e : Nums) : Local (readText e) := Local.mapErr (Local.colsTail (readChars_cols 66) e)

namespace Fmt
variable {α : Type} {f : Fmt α} {w : Nat} {g : Text → Option α} {ok : α → Prop}

theorem readFullLine_local (h : f.Law w g ok) (e : Nums) : Local (f.readFullLine e) := by
  have hc := readEntries_cols h f.per
  rw [h.w66] at hc
  exact Local.colsTail hc e

theorem readPartialLine_local (h : f.Law w g ok) (e : Nums) {n : Nat} (hn : n ≤ f.per) : Local (f.readPartialLine e n) := by
  have hc : ColsF 66 (fun l => (entriesOpt g w n l).bind fun xs => (leftOpt g w f.isDefault (f.per - n) (l.drop (n * w))).bind fun _ => some xs)
      (do
        let xs ← f.readEntries n
        f.readLeftovers (f.per - n)
        pure xs) := by
    refine (ColsF.bind (readEntries_cols h n) fun xs => ColsF.bind (readLeftovers_cols h (f.per - n)) fun _ =>
      ColsF.pure xs).congr ?_ (fun l => rfl)
    have h1 := h.w66
    rw [Nat.add_zero, ← Nat.add_mul, ← h1]; congr 1; omega
  exact Local.colsTail hc e

theorem readFullLines_local (h : f.Law w g ok) (e : Nums) : ∀ k, Local (f.readFullLines e k)
  | 0 => Local.pure _
  | k + 1 => Local.bind (readFullLine_local h e) fun _ => Local.bind (readFullLines_local h e k) fun _ => Local.pure _

theorem unzip_local (h : f.Law w g ok) (e : Nums) (n : Nat) : Local (f.unzip e n) := by
  unfold unzip
  refine Local.bind (readFullLines_local h e _) fun _ => Local.ite (Local.bind (readPartialLine_local h e ?_) fun _ => Local.pure _) (Local.pure _)
  exact Nat.le_of_lt (Nat.mod_lt _ (Law.per_pos h))

end Fmt

instance (e : Nums) (n : Nat) : Local (realFmt.unzip e n) := Fmt.unzip_local realFmt_law e n
instance (e : Nums) (n : Nat) : Local (realPairFmt.unzip e n) := Fmt.unzip_local realPairFmt_law e n
instance (e : Nums) (n : Nat) : Local (intPairFmt.unzip e n) := Fmt.unzip_local intPairFmt_law e n

instance (e : Nums) : Local (readListMeta e) := by
  unfold readListMeta
  exact Local.bind (Local.colsTail readContBase_cols e) fun _ => by locl
instance (e : Nums) : Local (readLIST e) := by unfold readLIST; locl
instance (e : Nums) : Local (readInterpMeta e) := by
  unfold readInterpMeta
  exact Local.bind (Local.colsTail readContBase_cols e) fun _ => by locl
instance (e : Nums) (n : Nat) : Local (readRanges e n) := by unfold readRanges; locl
instance (e : Nums) : Local (readInterpBase e) := by unfold readInterpBase; locl
instance (e : Nums) : Local (readTAB2 e) := by unfold readTAB2; locl
instance (e : Nums) (n : Int) : Local (readPairs e n) := by unfold readPairs; locl
instance (e : Nums) : Local (readTAB1 e) := by unfold readTAB1; locl
instance {α : Type} (p : Nums → Parser α) [hp : ∀ t, Local (p t)] (e : Nums) : Local (readISeq p e) := by unfold readISeq; locl
instance (e : Nums) : Local (readDir e) := by
  rw [readDir_eq]
  exact Local.mapErr (Local.colsTail readDirBase_cols e)

instance (mat mf : Int) : Local (readSEND mat mf) := by unfold readSEND; locl

/-! ### combinations -/

instance : CLocal contC := ⟨fun t => by show Local (readCont t); infer_instance⟩
instance : CLocal listC := ⟨fun t => by show Local (readLIST t); infer_instance⟩
instance : CLocal tab2C := ⟨fun t => by show Local (readTAB2 t); infer_instance⟩
instance : CLocal tab1C := ⟨fun t => by show Local (readTAB1 t); infer_instance⟩
instance : CLocal textC := ⟨fun t => by show Local (readText t); infer_instance⟩
instance : CLocal dirC := ⟨fun t => by show Local (readDir t); infer_instance⟩
instance : CLocal nilC := ⟨fun t => by show Local (pure ()); infer_instance⟩

instance {α β : Type} (c : Comp α) (d : α → Comp β) [CLocal c] [∀ a, CLocal (d a)] : CLocal (c.andThen d) := ⟨fun t => by unfold Comp.andThen; simp only; locl⟩
instance {α : Type} (c : Comp α) (n : Int) [CLocal c] : CLocal (seqC c n) := ⟨fun t => by unfold seqC; simp only; locl⟩
instance {α V : Type} (c : Comp α) (P : Printer V) (f : α → V) [CLocal c] : CLocal (c.via P f) := ⟨fun t => by unfold Comp.via; simp only; locl⟩
instance {V : Type} (P : Printer V) : CLocal P.none := ⟨fun t => by unfold Printer.none; simp only; locl⟩
instance {V : Type} (c d : Comp V) (p : Prop) [Decidable p] [CLocal c] [CLocal d] : CLocal (if p then c else d) := by split <;> infer_instance

end ENDFtk

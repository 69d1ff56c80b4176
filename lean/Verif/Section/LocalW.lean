import Verif.Section.LocalAll
import Verif.Section.MF32Sect
/-
  The reading functions of file 32 are local too, except that the line counter can be advanced by another number.
-/
set_option linter.unusedVariables false
set_option linter.unusedSectionVars false
set_option linter.unusedSimpArgs false
namespace ENDFtk
variable [Disco]

/-- Whenever the reading function succeeds, it has consumed some lines, and it reads the same from these lines wherever they stand.  If `P` holds of the
    value, the line counter is advanced by the number of lines. -/
structure LocalP {α : Type} (P : α → Prop) (p : Parser α) : Prop where
  run : ∀ {s a s'}, p s = .ok (a, s') → ∃ (ls : List Text) (k : Nat), Lines ls s.rest s'.rest ∧ s'.line = s.line + k ∧ (P a → k = ls.length) ∧
    Rd p (unlines ls) a k

/-- The same without the line counter. -/
class LocalW {α : Type} (p : Parser α) : Prop where
  run : ∀ {s a s'}, p s = .ok (a, s') → ∃ (ls : List Text) (k : Nat), Lines ls s.rest s'.rest ∧ s'.line = s.line + k ∧ Rd p (unlines ls) a k

class CLocalW {α : Type} (c : Comp α) : Prop where
  read : ∀ t, LocalW (c.read t)

instance {α : Type} (c : Comp α) [h : CLocalW c] (t : Nums) : LocalW (c.read t) := h.read t
instance (priority := low) Local.toW {α : Type} (p : Parser α) [h : Local p] : LocalW p where
  run := fun hp => by
    obtain ⟨ls, h1, h2, h3⟩ := h.run hp
    exact ⟨ls, _, h1, h2, h3⟩
instance (priority := low) CLocal.toW {α : Type} (c : Comp α) [h : CLocal c] : CLocalW c := ⟨fun t => inferInstance⟩

namespace LocalP
variable {α β : Type}

theorem ofLocal {p : Parser α} (h : Local p) (P : α → Prop) : LocalP P p where
  run := by
    intro s a s' hp
    obtain ⟨ls, h1, h2, h3⟩ := h.run hp
    exact ⟨ls, _, h1, h2, fun _ => rfl, h3⟩

theorem ofW {p : Parser α} (h : LocalW p) {P : α → Prop} (hP : ∀ a, ¬P a) : LocalP P p where
  run := by
    intro s a s' hp
    obtain ⟨ls, k, h1, h2, h3⟩ := h.run hp
    exact ⟨ls, k, h1, h2, fun h => absurd h (hP a), h3⟩

theorem toW {p : Parser α} {P : α → Prop} (h : LocalP P p) : LocalW p where
  run := fun hp => by
    obtain ⟨ls, k, h1, h2, _, h3⟩ := h.run hp
    exact ⟨ls, k, h1, h2, h3⟩

theorem bind {p : Parser α} {f : α → Parser β} {P : α → Prop} {Q : β → Prop} (hp : LocalP P p) (hf : ∀ a, LocalP Q (f a))
    (hPQ : ∀ a b s s', f a s = .ok (b, s') → Q b → P a) : LocalP Q (p >>= f) where
  run := by
    intro s b s'' h
    obtain ⟨a, s', h1, h2⟩ := Parser.bind_eq_ok.mp h
    obtain ⟨ls, k, k1, k2, k4, k3⟩ := hp.run h1
    obtain ⟨ms, m, m1, m2, m4, m3⟩ := (hf a).run h2
    refine ⟨ls ++ ms, k + m, k1.trans m1, by push_cast; omega, fun hq => ?_, ?_⟩
    · rw [k4 (hPQ _ _ _ _ h2 hq), m4 hq, List.length_append]
    · rw [unlines_append]
      exact k3.bind m3

theorem mapErr {p : Parser α} {g : Err → Err} {P : α → Prop} (hp : LocalP P p) : LocalP P (Parser.mapErr g p) where
  run := by
    intro s a s' h
    obtain ⟨ls, k, k1, k2, k4, k3⟩ := hp.run (Parser.mapErr_ok.mp h)
    exact ⟨ls, k, k1, k2, k4, k3.mapErr⟩

theorem ite {p q : Parser α} {P : α → Prop} {c : Prop} {inst : Decidable c} (hp : LocalP P p) (hq : LocalP P q) : LocalP P (if c then p else q) := by
  split
  · exact hp
  · exact hq

end LocalP

namespace LocalW
variable {α β : Type}

theorem bind {p : Parser α} {f : α → Parser β} (hp : LocalW p) (hf : ∀ a, LocalW (f a)) : LocalW (p >>= f) where
  run := by
    intro s b s'' h
    obtain ⟨a, s', h1, h2⟩ := Parser.bind_eq_ok.mp h
    obtain ⟨ls, k, k1, k2, k3⟩ := hp.run h1
    obtain ⟨ms, m, m1, m2, m3⟩ := (hf a).run h2
    refine ⟨ls ++ ms, k + m, k1.trans m1, by push_cast; omega, ?_⟩
    rw [unlines_append]
    exact k3.bind m3

theorem mapErr {p : Parser α} {g : Err → Err} (hp : LocalW p) : LocalW (Parser.mapErr g p) where
  run := by
    intro s a s' h
    obtain ⟨ls, k, k1, k2, k3⟩ := hp.run (Parser.mapErr_ok.mp h)
    exact ⟨ls, k, k1, k2, k3.mapErr⟩

theorem ite {p q : Parser α} {c : Prop} {inst : Decidable c} (hp : LocalW p) (hq : LocalW q) : LocalW (if c then p else q) := by
  split
  · exact hp
  · exact hq

theorem readMany {p : Parser α} (hp : LocalW p) : ∀ n, LocalW (readMany p n)
  | 0 => (inferInstance : LocalW (pure _))
  | n + 1 => bind hp fun _ => bind (readMany hp n) fun _ => inferInstance

instance readSequence (p : Parser α) [hp : LocalW p] (n : Int) : LocalW (readSequence p n) := ite inferInstance (readMany hp _)
instance (p : Parser α) [hp : LocalW p] (n : Nat) : LocalW (ENDFtk.readMany p n) := readMany hp _
instance (p : Parser α) (g : Err → Err) [hp : LocalW p] : LocalW (Parser.mapErr g p) := mapErr hp

end LocalW

/-- Proves that a reading function is local (without the line counter) by following its structure. -/
macro "loclw" : tactic => `(tactic| repeat' (first
  | assumption
  | infer_instance
  | apply LocalW.bind
  | apply LocalW.mapErr
  | apply LocalW.ite
  | intro _
  | split))

syntax "cloclw " ident : tactic
macro_rules
  | `(tactic| cloclw $d:ident) => `(tactic| first
      | (unfold $d; infer_instance)
      | (refine ⟨fun t => ?_⟩; dsimp only [$d:ident]; loclw)
      | (unfold $d; loclw))

/-! ### INTG records -/

/-- A parser of characters: it consumes a prefix, and reads the same when the text behind the prefix is replaced.  (A newline that stops it is not part
    of the prefix and has to stay.) -/
structure CharP {α : Type} (p : Parser α) : Prop where
  pre : ∀ {x n a s}, p ⟨x, n⟩ = .ok (a, s) → s.line = n ∧ ∃ c, x = c ++ s.rest
  repl : ∀ {x y z n a m}, p ⟨x ++ y, n⟩ = .ok (a, ⟨z ++ y, m⟩) → (y = [] ∨ z ≠ []) → ∀ y' n', p ⟨x ++ y', n'⟩ = .ok (a, ⟨z ++ y', n'⟩)

namespace CharP
variable {α β : Type}

theorem pure (a : α) : CharP (Pure.pure a : Parser α) where
  pre := by intro x n b s h; cases h; exact ⟨rfl, [], rfl⟩
  repl := by
    intro x y z n b m h _ y' n'
    simp only [Parser.pure_run, Except.ok.injEq, Prod.mk.injEq, St.mk.injEq, List.append_cancel_right_eq] at h
    obtain ⟨rfl, rfl, rfl⟩ := h
    rfl

theorem fail (e : Err) : CharP (Parser.fail e : Parser α) where
  pre := by intro x n b s h; cases h
  repl := by intro x y z n b m h; cases h

theorem liftE (x : Except Err α) : CharP (liftE x) := by
  cases x with
  | ok a => exact CharP.pure a
  | error e => exact CharP.fail e

theorem bind {p : Parser α} {f : α → Parser β} (hp : CharP p) (hf : ∀ a, CharP (f a)) : CharP (p >>= f) where
  pre := by
    intro x n b s h
    obtain ⟨a, s1, h1, h2⟩ := Parser.bind_eq_ok.mp h
    obtain ⟨e1, c, rfl⟩ := hp.pre h1
    obtain ⟨e2, d, hd⟩ := (hf a).pre h2
    exact ⟨e2.trans e1, c ++ d, by rw [hd]; simp⟩
  repl := by
    intro x y z n b m h hc y' n'
    obtain ⟨a, ⟨r1, m1⟩, h1, h2⟩ := Parser.bind_eq_ok.mp h
    obtain ⟨e2, d, hd⟩ := (hf a).pre h2
    have hd : r1 = (d ++ z) ++ y := by rw [hd]; simp
    subst hd
    rw [Parser.bind_ok (hp.repl h1 (hc.imp id (fun hz => by simp [hz])) y' n')]
    exact (hf a).repl h2 hc y' n'

theorem readMany {p : Parser α} (hp : CharP p) : ∀ n, CharP (readMany p n)
  | 0 => pure _
  | n + 1 => bind hp fun _ => bind (readMany hp n) fun _ => pure _

theorem advance (w : Nat) : CharP (advance w) where
  pre := by
    intro x n a s h
    unfold ENDFtk.advance at h
    split at h
    · cases h
    · cases h; exact ⟨rfl, x.take w, by simp⟩
  repl := by
    intro x y z n a m h hc y' n'
    unfold ENDFtk.advance at h ⊢
    split at h
    · cases h
    · rename_i hl
      simp only [Except.ok.injEq, Prod.mk.injEq, St.mk.injEq, true_and] at h
      have hlen : w ≤ x.length := by
        have := congrArg List.length h.1
        simp at this hl
        omega
      rw [List.drop_append_of_le_length hlen, List.append_cancel_right_eq] at h
      rw [if_neg (by simp; omega), List.drop_append_of_le_length hlen, h.1]

theorem readField (w : Nat) : CharP (readField w) where
  pre := by
    intro x n a s h
    obtain ⟨l, t, rfl, hl, ht⟩ := split_line x
    rw [readField_cols w l t n hl ht] at h
    split at h
    · cases h
    · simp only [Except.ok.injEq, Prod.mk.injEq] at h
      obtain ⟨-, rfl⟩ := h
      exact ⟨rfl, l.take w, by rw [← List.append_assoc, List.take_append_drop]⟩
  repl := by
    have key : ∀ w x y z f, takeField w (x ++ y) = .ok (f, z ++ y) → (y = [] ∨ z ≠ []) → ∀ y', takeField w (x ++ y') = .ok (f, z ++ y') := by
      intro w
      induction w with
      | zero =>
        intro x y z f h hc y'
        simp only [takeField, Except.ok.injEq, Prod.mk.injEq, List.append_cancel_right_eq] at h ⊢
        exact ⟨h.1, h.2⟩
      | succ w ih =>
        intro x y z f h hc y'
        cases x with
        | nil =>
          exfalso
          rcases hc with rfl | hz
          · simp [takeField] at h
          · cases y with
            | nil => simp [takeField] at h
            | cons c y =>
              have hle : ∀ w (x : Text) f r, takeField w x = .ok (f, r) → r.length ≤ x.length := by
                intro w
                induction w with
                | zero => intro x f r h; cases h; simp
                | succ w ih =>
                  intro x f r h
                  cases x with
                  | nil => simp [takeField] at h
                  | cons c x =>
                    rw [takeField] at h
                    split at h
                    · cases h; simp
                    · cases h1 : takeField w x with
                      | error e => rw [h1] at h; cases h
                      | ok q =>
                        rw [h1] at h
                        obtain ⟨f', r'⟩ := q
                        cases h
                        have := ih _ _ _ h1
                        simp; omega
              have := hle _ _ _ _ h
              have : 0 < z.length := List.length_pos_iff.mpr hz
              simp at *
              omega
        | cons c x =>
          simp only [List.cons_append, takeField] at h ⊢
          split at h
          · rename_i hcn
            simp only [Except.ok.injEq, Prod.mk.injEq] at h
            have : c :: x = z := by
              have := h.2
              rw [← List.cons_append, List.append_cancel_right_eq] at this
              exact this
            rw [if_pos hcn]
            simp [h.1, ← this]
          · rename_i hcn
            rw [if_neg hcn]
            cases h1 : takeField w (x ++ y) with
            | error e => rw [h1] at h; cases h
            | ok q =>
              rw [h1] at h
              obtain ⟨f', r'⟩ := q
              simp only [Except.ok.injEq, Prod.mk.injEq] at h
              obtain ⟨rfl, rfl⟩ := h
              rw [ih _ _ _ _ h1 hc y']
    intro x y z n a m h hc y' n'
    simp only [ENDFtk.readField] at h ⊢
    cases h1 : takeField w (x ++ y) with
    | error e => rw [h1] at h; cases h
    | ok q =>
      rw [h1] at h
      obtain ⟨f', r'⟩ := q
      simp only [Except.ok.injEq, Prod.mk.injEq, St.mk.injEq] at h
      obtain ⟨rfl, rfl, rfl⟩ := h
      rw [key _ _ _ _ _ h1 hc y']

theorem readInt (w : Nat) : CharP (readInt w) := by
  unfold ENDFtk.readInt
  refine bind (readField w) fun f => ?_
  cases parseInt f with
  | some v => exact pure v
  | none => exact fail _

end CharP

omit [Disco] in
/-- Every text that ends with a newline consists of lines. -/
theorem lines_of_nl (x : Text) : ∃ ls, unlines ls = x ++ ['\n'] ∧ ∀ r, Lines ls (x ++ '\n' :: r) r := by
  obtain ⟨l, t, hx, hl, ht⟩ := split_line x
  rcases ht with rfl | ⟨r, rfl⟩
  · subst hx
    exact ⟨[l], by simp [unlines], fun r => by simpa using Lines.one hl r⟩
  · have : r.length < x.length := by rw [hx]; simp; omega
    obtain ⟨ls, h1, h2⟩ := lines_of_nl r
    subst hx
    refine ⟨l :: ls, by simp [h1], fun q => ?_⟩
    have := Lines.cons hl (h2 q)
    simpa using this
termination_by x.length

omit [Disco] in
/-- A text whose last line has no newline. -/
theorem lines_of_end (c l : Text) (hl : '\n' ∉ l) (hne : l ≠ []) : ∃ ls, unlines ls = (c ++ l) ++ ['\n'] ∧ Lines ls (c ++ l) [] := by
  obtain ⟨k, t, hx, hk, ht⟩ := split_line c
  rcases ht with rfl | ⟨r, rfl⟩
  · subst hx
    have : '\n' ∉ k ++ l := by simp [hk, hl]
    refine ⟨[k ++ l], by simp [unlines], ?_⟩
    have := Lines.last this (by simp [hne])
    simpa using this
  · have : r.length < c.length := by rw [hx]; simp; omega
    obtain ⟨ls, h1, h2⟩ := lines_of_end r l hl hne
    subst hx
    refine ⟨k :: ls, by simp [h1], ?_⟩
    have := Lines.cons hk h2
    simpa using this
termination_by c.length

omit [Disco] in
theorem nl_split_unique {l l' r r' : Text} (hl : '\n' ∉ l) (hl' : '\n' ∉ l') (he : l ++ '\n' :: r = l' ++ '\n' :: r') : l = l' := by
  induction l generalizing l' with
  | nil =>
    cases l' with
    | nil => rfl
    | cons c l' => simp at he hl'; exact absurd he.1 hl'.1
  | cons c l ih =>
    cases l' with
    | nil => simp at he hl; exact absurd he.1.symm hl.1
    | cons c' l' =>
      simp at he hl hl'
      rw [he.1, ih hl.2 hl'.2 he.2]

omit [Disco] in
theorem lines_first {l0 l t r : Text} {ls : List Text} (hl : '\n' ∉ l) (ht : EOL t) (h : Lines (l0 :: ls) (l ++ t) r) : l0 = l := by
  generalize hx : l ++ t = x at h
  cases h with
  | cons hl0 h' =>
    rcases ht with rfl | ⟨q, rfl⟩
    · simp at hx; simp [hx] at hl
    · exact (nl_split_unique hl hl0 hx).symm
  | last hl0 =>
    rcases ht with rfl | ⟨q, rfl⟩
    · simpa using hx.symm
    · simp [← hx] at hl0

/-- Characters, then the rest of a line. -/
theorem CharP.line {α β : Type} {w : Nat} {p : Parser α} {g : α → Text → Except Err β} {f : α → Parser β} (hp : CharP p)
    (hf : ∀ a, LineF (w + 1) (g a) (f a)) : LocalW (p >>= f) where
  run := by
    intro s b s' h
    obtain ⟨rest, n⟩ := s
    obtain ⟨a, ⟨r1, n1⟩, h1, h2⟩ := Parser.bind_eq_ok.mp h
    obtain ⟨hn, c, hc⟩ := hp.pre h1
    simp only at hn hc
    subst hn hc
    obtain ⟨l, t, rfl, hl, ht⟩ := split_line r1
    rw [hf a l t n1 hl ht] at h2
    split at h2
    · cases h2
    rename_i hshort
    cases hg : g a l with
    | error e => simp [hg] at h2
    | ok b' =>
      simp only [hg, Except.ok.injEq, Prod.mk.injEq] at h2
      obtain ⟨rfl, rfl⟩ := h2
      rcases ht with rfl | ⟨r, rfl⟩
      · have hne : l ≠ [] := by rintro rfl; simp at hshort
        obtain ⟨ls, e1, e2⟩ := lines_of_end c l hl hne
        refine ⟨ls, 1, by simpa using e2, by simp, fun r m => ?_⟩
        have h3 := hp.repl (x := c ++ l) (y := []) (z := l) (n := n1) (m := n1) (a := a) (by simpa using h1) (.inl rfl) ('\n' :: r) m
        have : unlines ls ++ r = (c ++ l) ++ '\n' :: r := by rw [e1]; simp
        rw [this, Parser.bind_ok h3, (hf a).run_nl hl, hg]
        rfl
      · obtain ⟨ls, e1, e2⟩ := lines_of_nl (c ++ l)
        refine ⟨ls, 1, by simpa using e2 r, by simp, fun q m => ?_⟩
        have h3 := hp.repl (x := c ++ l ++ ['\n']) (y := r) (z := l ++ ['\n']) (n := n1) (m := n1) (a := a) (by simpa using h1) (.inr (by simp)) q m
        have : unlines ls ++ q = (c ++ l ++ ['\n']) ++ q := by rw [e1]
        rw [this, Parser.bind_ok h3]
        have : l ++ ['\n'] ++ q = l ++ '\n' :: q := by simp
        rw [this, (hf a).run_nl hl, hg]
        rfl

instance (nd n : Nat) (e : Nums) : LocalW (readINTG nd n e) := by
  unfold readINTG
  refine LocalW.mapErr ?_
  have h1 : CharP (do
      let i ← readInt 5
      let j ← readInt 5
      let k ← readIntegers nd n
      liftE (INTG.make n i j k)) := by
    refine CharP.bind (CharP.readInt 5) fun i => CharP.bind (CharP.readInt 5) fun j => CharP.bind ?_ fun k => CharP.liftE _
    unfold readIntegers
    refine CharP.bind ?_ fun _ => CharP.bind (CharP.readMany (CharP.readInt _) n) fun _ => CharP.bind (CharP.advance _) fun _ => CharP.pure _
    split
    · exact CharP.advance 1
    · exact CharP.pure _
  have h2 := h1.line (w := 13) (f := fun r => (do verifyTail e; pure r : Parser INTG)) (g := fun r l => (tailCheck e l).bind (fun _ => .ok r)) (fun r =>
    LineF.bindPure (verifyTail_line e) (fun a s => rfl))
  have e : (do
      let i ← readInt 5
      let j ← readInt 5
      let k ← readIntegers nd n
      let r ← liftE (INTG.make n i j k)
      verifyTail e
      pure r) = ((do
      let i ← readInt 5
      let j ← readInt 5
      let k ← readIntegers nd n
      liftE (INTG.make n i j k)) >>= fun r => (do verifyTail e; pure r : Parser INTG)) := by
    funext s
    simp only [Parser.bind_run]
    cases readInt 5 s with
    | error e => rfl
    | ok q =>
      simp only
      cases readInt 5 q.2 with
      | error e => rfl
      | ok q =>
        simp only
        cases readIntegers nd n q.2 <;> rfl
  rw [e]
  exact h2

/-! ### components -/

instance {α β : Type} (c : Comp α) (d : α → Comp β) [CLocalW c] [∀ a, CLocalW (d a)] : CLocalW (c.andThen d) := ⟨fun t => by unfold Comp.andThen; simp only; loclw⟩
instance {α : Type} (c : Comp α) (n : Int) [CLocalW c] : CLocalW (seqC c n) := ⟨fun t => by unfold seqC; simp only; loclw⟩
instance {α : Type} (c : Comp α) (P : α → Prop) [DecidablePred P] (ov : α → Prop) [DecidablePred ov] [CLocalW c] : CLocalW (c.checked P ov) := by cloclw Comp.checked
instance {α : Type} (p : Prop) [Decidable p] (c : Comp α) [CLocalW c] : CLocalW (optC p c) := by cloclw optC
instance {σ α : Type} (f : Cont → σ) (g : σ → α → Cont) (c : Cont → Comp α) [∀ r, CLocal (c r)] : CLocal (hdrC f g c) := by clocl hdrC
instance {σ α : Type} (f : Cont → σ) (g : σ → α → Cont) (c : Cont → Comp α) [∀ r, CLocalW (c r)] : CLocalW (hdrC f g c) := by cloclw hdrC

instance : CLocal limitedLValueC := by clocl limitedLValueC
instance : CLocal shortRangeC := by clocl shortRangeC
instance : CLocal triangleC := by clocl triangleC
instance : CLocal compactUncertaintiesC := by clocl compactUncertaintiesC
instance : CLocal longRangeC := by clocl longRangeC
instance : CLocal dapC := by clocl dapC
instance : CLocal dapListC := by clocl dapListC
instance : CLocal dapNoneC := by clocl dapNoneC
instance : CLocal limitedC := by clocl limitedC
instance {δ α : Type} (dap : Comp δ) (short : Comp α) [CLocal dap] [CLocal short] : CLocal (generalC dap short) := by clocl generalC
instance : CLocal shortRangeRmlC := by clocl shortRangeRmlC
instance : CLocal unresolvedC := by clocl unresolvedC
instance : CLocal compactGroupC := by clocl compactGroupC
instance : CLocal compactRmlC := by clocl compactRmlC
instance : CLocal radiusCovC := by clocl radiusCovC

section
variable [CorrOps]

instance (t : Nums) : LocalW (CorrMatrix.read t) := by unfold CorrMatrix.read; loclw
instance : CLocalW corrC := ⟨fun t => by show LocalW (CorrMatrix.read t); infer_instance⟩
instance {δ α : Type} (dap : Comp δ) (unc : Comp α) [CLocal dap] [CLocal unc] : CLocalW (compactC dap unc) := by cloclw compactC
theorem CovType.comp_local : ∀ k : CovType, CLocalW k.comp
  | .limitedSLBW => (inferInstance : CLocalW limitedC)
  | .limitedMLBW => (inferInstance : CLocalW limitedC)
  | .generalSLBW => (inferInstance : CLocalW (generalC dapC shortRangeC))
  | .generalMLBW => (inferInstance : CLocalW (generalC dapC shortRangeC))
  | .generalRM => (inferInstance : CLocalW (generalC dapListC shortRangeC))
  | .generalRML => (inferInstance : CLocalW (generalC dapNoneC shortRangeRmlC))
  | .compactSLBW => (inferInstance : CLocalW (compactC dapC compactUncertaintiesC))
  | .compactMLBW => (inferInstance : CLocalW (compactC dapC compactUncertaintiesC))
  | .compactRM => (inferInstance : CLocalW (compactC dapListC compactUncertaintiesC))
  | .compactRML => (inferInstance : CLocalW (compactC dapNoneC compactRmlC))
  | .unresolved => (inferInstance : CLocalW unresolvedC)

instance (k : CovType) : CLocalW k.comp := k.comp_local

theorem readCont_line (t : Nums) : ∃ g, LineF 80 g (readCont t) :=
  ⟨_, (colsTail_line readContBase_cols t).mapErr rfl⟩

theorem readCont_empty (t : Nums) (n : Int) : ∃ e, readCont t ⟨[], n⟩ = .error e := by
  obtain ⟨g, hg⟩ := readCont_line t
  have := hg [] [] n (by simp) (.inl rfl)
  simp at this
  exact ⟨_, this⟩

theorem CovType.comp_empty (k : CovType) (t : Nums) (n : Int) : ∃ e, k.comp.read t ⟨[], n⟩ = .error e := by
  obtain ⟨e, he⟩ := readCont_empty t n
  refine ⟨e, ?_⟩
  cases k <;> exact Parser.bind_err he

/-- The parameters are read from the line that was already read as CONT record. -/
instance (lru lrf : Int) (t : Nums) : LocalW (CovParams.read lru lrf t) where
  run := by
    intro s a s' h
    obtain ⟨rest, n⟩ := s
    unfold CovParams.read at h
    cases h1 : readCont t ⟨rest, n⟩ with
    | error e => simp [h1] at h
    | ok q =>
      obtain ⟨c, s1⟩ := q
      simp only [h1] at h
      cases hk : CovType.ofFlags lru lrf (toInt32 c.l2) with
      | none => simp [hk] at h
      | some k =>
        simp only [hk] at h
        have hL : LocalW (do let x ← k.comp.read t; pure ⟨k, x⟩ : Parser CovParams) := LocalW.bind inferInstance fun _ => inferInstance
        obtain ⟨ls, m, k1, k2, k3⟩ := hL.run h
        obtain ⟨g, hg⟩ := readCont_line t
        obtain ⟨l, t', rfl, hl, ht⟩ := split_line rest
        have h1' := hg l t' n hl ht
        rw [h1] at h1'
        split at h1'
        · cases h1'
        rename_i hshort
        cases hgl : g l with
        | error e => simp [hgl] at h1'
        | ok c' =>
          simp only [hgl, Except.ok.injEq, Prod.mk.injEq] at h1'
          obtain ⟨rfl, rfl⟩ := h1'
          obtain ⟨l0, ls, rfl⟩ : ∃ l0 ls', ls = l0 :: ls' := by
            cases ls with
            | cons l0 ls => exact ⟨l0, ls, rfl⟩
            | nil =>
              have := k3 [] 0
              obtain ⟨e, he⟩ := k.comp_empty t 0
              rw [unlines_nil, List.nil_append, Parser.bind_err he] at this
              cases this
          have hl0 : l0 = l := lines_first hl ht k1
          subst hl0
          refine ⟨l0 :: ls, m + 1, k1, by rw [k2]; push_cast; omega, fun r j => ?_⟩
          have e1 : unlines (l0 :: ls) ++ r = l0 ++ '\n' :: (unlines ls ++ r) := by simp
          have e2 : readCont t ⟨unlines (l0 :: ls) ++ r, j⟩ = .ok (c, ⟨unlines ls ++ r, j + 1⟩) := by
            rw [e1, hg.run_nl hl, hgl]
          unfold CovParams.read
          simp only [e2, hk]
          rw [k3 r (j + 1)]
          congr 3
          push_cast; omega

instance (t : Nums) : LocalW (CovRange.read t) := by unfold CovRange.read; loclw
instance (t : Nums) : LocalW (CovIsotope.read t) := by unfold CovIsotope.read; loclw
instance (head : Division) (t : Nums) : LocalW (SecDef.read mf32mt151 head t) := by dsimp only [mf32mt151]; loclw

instance (head : Division) (mat : Int) : LocalW (mf32mt151.readSect head mat) := by
  unfold SecDef.readSect
  loclw

instance : LocalW mf32mt151.parse := by
  unfold SecDef.parse
  loclw

end

end ENDFtk

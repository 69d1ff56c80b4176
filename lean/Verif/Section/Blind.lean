import Verif.Section.Combi
import Verif.Section.Local
import Verif.SameText
/-
  What a reading function returns depends only on the first 75 columns of the lines (as long as columns 76-80 can be read).
-/
set_option linter.unusedVariables false
set_option linter.unusedSectionVars false
set_option linter.unusedSimpArgs false
namespace ENDFtk
variable [Disco]

/-- Two results are the same: the same error, or the same value and line number and remaining texts that are related. -/
def SameRes {α : Type} (R : Text → Text → Prop) : Except Err (α × St) → Except Err (α × St) → Prop
  | .ok (a, s), .ok (a', s') => a = a' ∧ s.line = s'.line ∧ R s.rest s'.rest
  | .error e, .error e' => e = e'
  | _, _ => False

/-- The parser does not tell apart texts that are related by `R`, and leaves texts that are related by `S`. -/
def Bl {α : Type} (R S : Text → Text → Prop) (p : Parser α) : Prop := ∀ x x' n, R x x' → SameRes S (p ⟨x, n⟩) (p ⟨x', n⟩)

/-- The first `k` columns of a line have been read. -/
structure InLineLines (k : Nat) (l l' : Text) : Prop where
  nl : '\n' ∉ l
  nl' : '\n' ∉ l'
  len : 75 - k ≤ l.length
  len' : 75 - k ≤ l'.length
  cols : l.take (75 - k) = l'.take (75 - k)
  ns : ∃ v, parseInt ((l.drop (75 - k)).take 5) = some v
  ns' : ∃ v, parseInt ((l'.drop (75 - k)).take 5) = some v

inductive InLine (k : Nat) : Text → Text → Prop
  | refl (x : Text) : InLine k x x
  | line {l l' t t' : Text} : InLineLines k l l' → SameText t t' → InLine k (l ++ '\n' :: t) (l' ++ '\n' :: t')
  | last {l l' : Text} : InLineLines k l l' → 80 - k ≤ l.length → 80 - k ≤ l'.length → InLine k l l'

theorem InLine.ofSame {x x' : Text} (h : SameText x x') : InLine 0 x x' := by
  cases h with
  | refl => exact .refl _
  | line h ht => exact .line ⟨h.nl, h.nl', h.len, h.len', h.cols, h.ns, h.ns'⟩ ht
  | last h h1 h2 => exact .last ⟨h.nl, h.nl', h.len, h.len', h.cols, h.ns, h.ns'⟩ h1 h2

namespace Bl
variable {α β : Type} {R S T : Text → Text → Prop}

theorem pure (a : α) : Bl R R (Pure.pure a : Parser α) := fun x x' n h => ⟨rfl, rfl, h⟩
theorem fail (e : Err) : Bl R S (Parser.fail e : Parser α) := fun x x' n h => rfl
theorem bind {p : Parser α} {f : α → Parser β} (hp : Bl R S p) (hf : ∀ a, Bl S T (f a)) : Bl R T (p >>= f) := by
  intro x x' n h
  have h1 := hp x x' n h
  simp only [Parser.bind_run]
  cases hx : p ⟨x, n⟩ with
  | error e =>
    cases hx' : p ⟨x', n⟩ with
    | error e' => rw [hx, hx'] at h1; exact h1
    | ok q => rw [hx, hx'] at h1; exact h1.elim
  | ok q =>
    cases hx' : p ⟨x', n⟩ with
    | error e' => rw [hx, hx'] at h1; exact h1.elim
    | ok q' =>
      rw [hx, hx'] at h1
      obtain ⟨a, s⟩ := q
      obtain ⟨a', s'⟩ := q'
      obtain ⟨rfl, h2, h3⟩ := h1
      obtain ⟨r, m⟩ := s
      obtain ⟨r', m'⟩ := s'
      simp only at h2 h3
      subst h2
      exact hf a r r' m h3
theorem mapErr {p : Parser α} {g : Err → Err} (hp : Bl R S p) : Bl R S (Parser.mapErr g p) := by
  intro x x' n h
  have h1 := hp x x' n h
  unfold Parser.mapErr
  cases hx : p ⟨x, n⟩ <;> cases hx' : p ⟨x', n⟩ <;> rw [hx, hx'] at h1
  · exact congrArg g h1
  · exact h1.elim
  · exact h1.elim
  · exact h1
theorem liftE (x : Except Err α) : Bl R R (liftE x) := by
  cases x with
  | ok a => exact pure a
  | error e => exact fail e
theorem ite {p q : Parser α} {c : Prop} {inst : Decidable c} (hp : Bl R S p) (hq : Bl R S q) : Bl R S (if c then p else q) := by
  split
  · exact hp
  · exact hq
theorem pre {p : Parser α} (hp : Bl R S p) {R' : Text → Text → Prop} (h : ∀ x x', R' x x' → R x x') : Bl R' S p :=
  fun x x' n hx => hp x x' n (h x x' hx)

/-! ### columns -/

theorem step {k w : Nat} (hk : k + w ≤ 75) {l l' : Text} (h : InLineLines k l l') :
    InLineLines (k + w) (l.drop w) (l'.drop w) ∧ l.take w = l'.take w := by
  have e1 : 75 - (k + w) + w = 75 - k := by omega
  have hd : ∀ z : Text, ((z.drop w).drop (75 - (k + w))) = z.drop (75 - k) := by
    intro z; rw [List.drop_drop]; congr 1; omega
  refine ⟨⟨nl_drop w h.nl, nl_drop w h.nl', ?_, ?_, ?_, ?_, ?_⟩, ?_⟩
  · have := h.len; simp; omega
  · have := h.len'; simp; omega
  · have := congrArg (List.drop w) h.cols
    rw [List.drop_take, List.drop_take] at this
    have e : 75 - k - w = 75 - (k + w) := by omega
    rwa [e] at this
  · rw [hd]; exact h.ns
  · rw [hd]; exact h.ns'
  · have := congrArg (List.take w) h.cols
    rw [List.take_take, List.take_take] at this
    have e : min w (75 - k) = w := by omega
    rwa [e] at this

theorem ofCols {w k : Nat} {g : Text → Option α} {p : Parser α} (hp : ColsF w g p) (hk : k + w ≤ 75) (hg : ∀ l l' : Text, l.take w = l'.take w → g l = g l')
    : Bl (InLine k) (InLine (k + w)) p := by
  intro x x' n h
  cases h with
  | refl =>
    cases p ⟨x, n⟩ with
    | error e => exact rfl
    | ok q => exact ⟨rfl, rfl, .refl _⟩
  | @line l l' t t' h ht =>
    obtain ⟨h1, h2⟩ := step hk h
    rw [hp l ('\n' :: t) n h.nl (.inr ⟨_, rfl⟩), hp l' ('\n' :: t') n h.nl' (.inr ⟨_, rfl⟩), hg l l' h2]
    simp only [reduceCtorEq, false_and, if_false]
    cases g l' with
    | none => exact rfl
    | some a => exact ⟨rfl, rfl, .line h1 ht⟩
  | last h a1 a2 =>
    obtain ⟨h1, h2⟩ := step hk h
    have e1 := hp x [] n h.nl (.inl rfl)
    have e2 := hp x' [] n h.nl' (.inl rfl)
    rw [if_neg (by omega)] at e1 e2
    rw [List.append_nil, List.append_nil] at e1 e2
    rw [e1, e2, hg x x' h2]
    cases g x' with
    | none => exact rfl
    | some a => exact ⟨rfl, rfl, .last h1 (by simp; omega) (by simp; omega)⟩

theorem readField {k w : Nat} (hk : k + w ≤ 75) : Bl (InLine k) (InLine (k + w)) (readField w) :=
  ofCols (readField_cols w) hk fun l l' h => by rw [h]

theorem readInt {k w : Nat} (hk : k + w ≤ 75) : Bl (InLine k) (InLine (k + w)) (readInt w) := by
  unfold ENDFtk.readInt
  refine bind (readField hk) fun f => ?_
  cases parseInt f with
  | some v => exact pure _
  | none => exact fail _

theorem readReal {k : Nat} (hk : k + 11 ≤ 75) : Bl (InLine k) (InLine (k + 11)) readReal := by
  unfold ENDFtk.readReal
  refine bind (readField hk) fun f => ?_
  cases parseReal f with
  | some v => exact pure _
  | none => exact fail _

theorem readChars {k w : Nat} (hk : k + w ≤ 75) : Bl (InLine k) (InLine (k + w)) (readChars w) := by
  unfold ENDFtk.readChars
  exact bind (readField hk) fun f => pure _

theorem advance {k w : Nat} (hk : k + w ≤ 75) : Bl (InLine k) (InLine (k + w)) (advance w) := by
  intro x x' n h
  unfold ENDFtk.advance
  cases h with
  | refl =>
    split
    · exact rfl
    · exact ⟨rfl, rfl, .refl _⟩
  | @line l l' t t' h ht =>
    have h0 := h.len
    have h0' := h.len'
    obtain ⟨h1, h2⟩ := step hk h
    rw [if_neg (by simp; omega), if_neg (by simp; omega), List.drop_append_of_le_length (by omega), List.drop_append_of_le_length (by omega)]
    exact ⟨rfl, rfl, .line h1 ht⟩
  | last h a1 a2 =>
    obtain ⟨h1, h2⟩ := step hk h
    rw [if_neg (by simp; omega), if_neg (by simp; omega)]
    exact ⟨rfl, rfl, .last h1 (by simp; omega) (by simp; omega)⟩

theorem endOfLine : Bl (InLine 75) SameText (do
    let _ ← ENDFtk.readInt 5
    readEndLine : Parser Unit) := by
  have key : ∀ (l e : Text) n, '\n' ∉ l → EOL e → (e = [] → 5 ≤ l.length) → (∃ v, parseInt (l.take 5) = some v) →
      (do
        let _ ← ENDFtk.readInt 5
        readEndLine : Parser Unit) ⟨l ++ e, n⟩ = .ok ((), ⟨e.tail, n⟩) := by
    intro l e n hl he h5 ⟨v, hv⟩
    have h1 : ENDFtk.readInt 5 ⟨l ++ e, n⟩ = .ok (v, ⟨l.drop 5 ++ e, n⟩) := by
      unfold ENDFtk.readInt
      have := readField_cols 5 l e n hl he
      rw [if_neg (by rintro ⟨a, b⟩; have := h5 a; omega)] at this
      rw [Parser.bind_ok this, hv]
      rfl
    rw [Parser.bind_ok h1]
    have e2 : ∀ (l : Text), '\n' ∉ l → endLine (l ++ e) = e.tail := by
      intro l hl
      induction l with
      | nil =>
        rcases he with rfl | ⟨r, rfl⟩
        · rfl
        · simp [endLine]
      | cons c l ih =>
        simp only [List.mem_cons, not_or] at hl
        rw [List.cons_append, endLine, if_neg (fun h => hl.1 h.symm), ih hl.2]
    simp only [readEndLine, e2 _ (nl_drop 5 hl)]
  intro x x' n h
  cases h with
  | refl =>
    generalize (do
      let _ ← ENDFtk.readInt 5
      readEndLine : Parser Unit) ⟨x, n⟩ = q
    cases q with
    | error e => exact rfl
    | ok q => exact ⟨rfl, rfl, .refl _⟩
  | @line l l' t t' h ht =>
    rw [key l _ n h.nl (.inr ⟨_, rfl⟩) (by simp) h.ns, key l' _ n h.nl' (.inr ⟨_, rfl⟩) (by simp) h.ns']
    exact ⟨rfl, rfl, ht⟩
  | last h a1 a2 =>
    have e1 := key x [] n h.nl (.inl rfl) (fun _ => by omega) h.ns
    have e2 := key x' [] n h.nl' (.inl rfl) (fun _ => by omega) h.ns'
    rw [List.append_nil] at e1 e2
    rw [e1, e2]
    exact ⟨rfl, rfl, .refl _⟩

theorem countLine : Bl SameText SameText (do
    let s ← Parser.get
    Parser.set { s with line := s.line + 1 } : Parser Unit) := fun x x' n h => ⟨rfl, rfl, h⟩

theorem readTail : Bl (InLine 66) SameText ENDFtk.readTail := by
  have e : ENDFtk.readTail = (do
      let mat ← ENDFtk.readInt 4
      let mf ← ENDFtk.readInt 2
      let mt ← ENDFtk.readInt 3
      let _ ← (do
        let _ ← ENDFtk.readInt 5
        readEndLine : Parser Unit)
      let _ ← (do
        let s ← Parser.get
        Parser.set { s with line := s.line + 1 } : Parser Unit)
      Pure.pure ⟨mat, mf, mt⟩ : Parser Nums) := by
    funext s
    unfold ENDFtk.readTail
    simp only [Parser.bind_run]
    cases ENDFtk.readInt 4 s with
    | error e => rfl
    | ok q =>
    simp only
    cases ENDFtk.readInt 2 q.2 with
    | error e => rfl
    | ok q =>
    simp only
    cases ENDFtk.readInt 3 q.2 with
    | error e => rfl
    | ok q =>
    simp only
    cases ENDFtk.readInt 5 q.2 <;> rfl
  rw [e]
  exact bind (readInt (k := 66) (w := 4) (by omega)) fun _ => bind (readInt (k := 70) (w := 2) (by omega)) fun _ =>
    bind (readInt (k := 72) (w := 3) (by omega)) fun _ => bind endOfLine fun _ => bind countLine fun _ => pure _

theorem verifyTail (e : Nums) : Bl (InLine 66) SameText (verifyTail e) := by
  unfold ENDFtk.verifyTail
  exact bind readTail fun _ => ite (fail _) (ite (fail _) (ite (fail _) (pure _)))

theorem readContBase : Bl (InLine 0) (InLine 66) readContBase := by
  unfold ENDFtk.readContBase
  exact bind (readReal (k := 0) (by omega)) fun _ => bind (readReal (k := 11) (by omega)) fun _ => bind (readInt (k := 22) (w := 11) (by omega)) fun _ =>
    bind (readInt (k := 33) (w := 11) (by omega)) fun _ => bind (readInt (k := 44) (w := 11) (by omega)) fun _ =>
    bind (readInt (k := 55) (w := 11) (by omega)) fun _ => pure _

end Bl

/-- The parser does not tell apart texts that agree in columns 1-75. -/
class Blind {α : Type} (p : Parser α) : Prop where
  run : Bl SameText SameText p

/-- A component all of whose reading functions are blind. -/
class CBlind {α : Type} (c : Comp α) : Prop where
  read : ∀ t, Blind (c.read t)

instance {α : Type} (c : Comp α) [h : CBlind c] (t : Nums) : Blind (c.read t) := h.read t

namespace Blind
variable {α β : Type}

instance pure (a : α) : Blind (Pure.pure a : Parser α) := ⟨Bl.pure a⟩
instance fail (e : Err) : Blind (Parser.fail e : Parser α) := ⟨Bl.fail e⟩
theorem bind {p : Parser α} {f : α → Parser β} (hp : Blind p) (hf : ∀ a, Blind (f a)) : Blind (p >>= f) := ⟨Bl.bind hp.run fun a => (hf a).run⟩
theorem mapErr {p : Parser α} {g : Err → Err} (hp : Blind p) : Blind (Parser.mapErr g p) := ⟨Bl.mapErr hp.run⟩
theorem liftE (x : Except Err α) : Blind (liftE x) := ⟨Bl.liftE x⟩
theorem ite {p q : Parser α} {c : Prop} {inst : Decidable c} (hp : Blind p) (hq : Blind q) : Blind (if c then p else q) := ⟨Bl.ite hp.run hq.run⟩

theorem line {p : Parser α} (hp : Bl (InLine 0) SameText p) : Blind p := ⟨hp.pre fun _ _ => InLine.ofSame⟩

theorem colsTail {p : Parser α} (hp : Bl (InLine 0) (InLine 66) p) (e : Nums) : Blind (do let a ← p; verifyTail e; Pure.pure a) :=
  line (Bl.bind hp fun _ => Bl.bind (Bl.verifyTail e) fun _ => Bl.pure _)

theorem readMany {p : Parser α} (hp : Blind p) : ∀ n, Blind (readMany p n)
  | 0 => pure _
  | n + 1 => bind hp fun _ => bind (readMany hp n) fun _ => pure _

instance readSequence (p : Parser α) [hp : Blind p] (n : Int) : Blind (readSequence p n) := ite (fail _) (readMany hp _)
instance readSequenceL (p : Parser α) [hp : Blind p] (n : Int) : Blind (readSequenceL p n) := ite (fail _) (readMany hp _)
instance (p : Parser α) [hp : Blind p] (n : Nat) : Blind (ENDFtk.readMany p n) := readMany hp _
instance (x : Except Err α) : Blind (ENDFtk.liftE x) := liftE x
instance (p : Parser α) (g : Err → Err) [hp : Blind p] : Blind (Parser.mapErr g p) := mapErr hp

end Blind

/-- Proves that a reading function is blind by following its structure. -/
macro "blnd" : tactic => `(tactic| repeat' (first
  | assumption
  | infer_instance
  | apply Blind.bind
  | apply Blind.mapErr
  | apply Blind.ite
  | intro _
  | split))

/-! ### records -/

instance : Blind readDivision := by
  unfold readDivision
  exact Blind.mapErr (Blind.line (Bl.bind Bl.readContBase fun _ => Bl.bind Bl.readTail fun _ =>
    Bl.ite (Bl.fail _) (Bl.ite (Bl.fail _) (Bl.ite (Bl.fail _) (Bl.pure _)))))
instance : Blind skip := by
  unfold skip
  exact Blind.line (Bl.bind (Bl.readChars (k := 0) (w := 66) (by omega)) fun _ => Bl.readTail)
instance : Blind readTpid := by
  unfold readTpid verifyTailMFMT
  exact Blind.mapErr (Blind.line (Bl.bind (Bl.readChars (k := 0) (w := 66) (by omega)) fun _ =>
    Bl.bind (Bl.bind Bl.readTail fun _ => Bl.ite (Bl.fail _) (Bl.ite (Bl.fail _) (Bl.pure _))) fun _ => Bl.pure _))
instance (e : Nums) : Blind (readCont e) := Blind.mapErr (Blind.colsTail Bl.readContBase e)
instance (e : Nums) : Blind (readText e) := Blind.mapErr (Blind.colsTail (Bl.readChars (k := 0) (w := 66) (by omega)) e)

namespace Fmt
variable {α : Type} {f : Fmt α} {w : Nat}

/-- The entries of a format are fields of `w` columns. -/
structure BlindFmt (f : Fmt α) (w : Nat) : Prop where
  read : ∀ k, k + w ≤ 75 → Bl (InLine k) (InLine (k + w)) f.read
  w66 : f.per * w = 66
  pos : 0 < f.per

theorem readEntries_blind (h : BlindFmt f w) : ∀ n k, k + n * w ≤ 75 → Bl (InLine k) (InLine (k + n * w)) (f.readEntries n)
  | 0, k, hk => by rw [Nat.zero_mul, Nat.add_zero]; exact Bl.pure _
  | n + 1, k, hk => by
    have e : k + (n + 1) * w = k + w + n * w := by rw [Nat.succ_mul]; omega
    rw [e] at hk ⊢
    exact Bl.bind (h.read k (by omega)) fun _ => Bl.bind (readEntries_blind h n (k + w) hk) fun _ => Bl.pure _

theorem readLeftovers_blind (h : BlindFmt f w) : ∀ n k, k + n * w ≤ 75 → Bl (InLine k) (InLine (k + n * w)) (f.readLeftovers n)
  | 0, k, hk => by rw [Nat.zero_mul, Nat.add_zero]; exact Bl.pure _
  | n + 1, k, hk => by
    have e : k + (n + 1) * w = k + w + n * w := by rw [Nat.succ_mul]; omega
    rw [e] at hk ⊢
    exact Bl.bind (h.read k (by omega)) fun _ => Bl.ite (readLeftovers_blind h n (k + w) hk) (Bl.fail _)

theorem readFullLine_blind (h : BlindFmt f w) (e : Nums) : Blind (f.readFullLine e) := by
  have := readEntries_blind h f.per 0 (by rw [h.w66]; omega)
  rw [h.w66] at this
  exact Blind.colsTail this e

theorem readPartialLine_blind (h : BlindFmt f w) (e : Nums) {n : Nat} (hn : n ≤ f.per) : Blind (f.readPartialLine e n) := by
  have e1 : n * w + (f.per - n) * w = 66 := by rw [← Nat.add_mul, ← h.w66]; congr 1; omega
  have h1 := readEntries_blind h n 0 (by omega)
  have h2 := readLeftovers_blind h (f.per - n) (0 + n * w) (by omega)
  have e2 : 0 + n * w + (f.per - n) * w = 66 := by omega
  rw [e2] at h2
  exact Blind.colsTail (Bl.bind h1 fun _ => Bl.bind h2 fun _ => Bl.pure _) e

theorem readFullLines_blind (h : BlindFmt f w) (e : Nums) : ∀ k, Blind (f.readFullLines e k)
  | 0 => Blind.pure _
  | k + 1 => Blind.bind (readFullLine_blind h e) fun _ => Blind.bind (readFullLines_blind h e k) fun _ => Blind.pure _

theorem unzip_blind (h : BlindFmt f w) (e : Nums) (n : Nat) : Blind (f.unzip e n) := by
  unfold unzip
  refine Blind.bind (readFullLines_blind h e _) fun _ => Blind.ite (Blind.bind (readPartialLine_blind h e ?_) fun _ => Blind.pure _) (Blind.pure _)
  exact Nat.le_of_lt (Nat.mod_lt _ h.pos)

end Fmt

theorem realFmt_blind : Fmt.BlindFmt realFmt 11 := ⟨fun k hk => Bl.readReal hk, rfl, show 0 < _ from Nat.succ_pos _⟩
theorem realPairFmt_blind : Fmt.BlindFmt realPairFmt 22 :=
  ⟨fun k hk => Bl.bind (Bl.readReal (k := k) (by omega)) fun _ => Bl.bind (Bl.readReal (k := k + 11) (by omega)) fun _ => Bl.pure _, rfl, show 0 < _ from Nat.succ_pos _⟩
theorem intPairFmt_blind : Fmt.BlindFmt intPairFmt 22 :=
  ⟨fun k hk => Bl.bind (Bl.readInt (k := k) (w := 11) (by omega)) fun _ => Bl.bind (Bl.readInt (k := k + 11) (w := 11) (by omega)) fun _ => Bl.pure _,
    rfl, show 0 < _ from Nat.succ_pos _⟩

instance (e : Nums) (n : Nat) : Blind (realFmt.unzip e n) := Fmt.unzip_blind realFmt_blind e n
instance (e : Nums) (n : Nat) : Blind (realPairFmt.unzip e n) := Fmt.unzip_blind realPairFmt_blind e n
instance (e : Nums) (n : Nat) : Blind (intPairFmt.unzip e n) := Fmt.unzip_blind intPairFmt_blind e n

instance (e : Nums) : Blind (readListMeta e) := by
  unfold readListMeta
  exact Blind.bind (Blind.colsTail Bl.readContBase e) fun _ => by blnd
instance (e : Nums) : Blind (readLIST e) := by unfold readLIST; blnd
instance (e : Nums) : Blind (readInterpMeta e) := by
  unfold readInterpMeta
  exact Blind.bind (Blind.colsTail Bl.readContBase e) fun _ => by blnd
instance (e : Nums) (n : Nat) : Blind (readRanges e n) := by unfold readRanges; blnd
instance (e : Nums) : Blind (readInterpBase e) := by unfold readInterpBase; blnd
instance (e : Nums) : Blind (readTAB2 e) := by unfold readTAB2; blnd
instance (e : Nums) (n : Int) : Blind (readPairs e n) := by unfold readPairs; blnd
instance (e : Nums) : Blind (readTAB1 e) := by unfold readTAB1; blnd
instance {α : Type} (p : Nums → Parser α) [hp : ∀ t, Blind (p t)] (e : Nums) : Blind (readISeq p e) := by unfold readISeq; blnd
instance (e : Nums) : Blind (readDir e) := by
  unfold readDir
  exact Blind.mapErr (Blind.line (Bl.bind (Bl.readInt (k := 0) (w := 33) (by omega)) fun _ => Bl.bind (Bl.readInt (k := 33) (w := 11) (by omega)) fun _ =>
    Bl.bind (Bl.readInt (k := 44) (w := 11) (by omega)) fun _ => Bl.bind (Bl.readInt (k := 55) (w := 11) (by omega)) fun _ =>
    Bl.bind (Bl.verifyTail e) fun _ => Bl.pure _))

instance (mat mf : Int) : Blind (readSEND mat mf) := by unfold readSEND; blnd

/-! ### combinations -/

instance : CBlind contC := ⟨fun t => by show Blind (readCont t); infer_instance⟩
instance : CBlind listC := ⟨fun t => by show Blind (readLIST t); infer_instance⟩
instance : CBlind tab2C := ⟨fun t => by show Blind (readTAB2 t); infer_instance⟩
instance : CBlind tab1C := ⟨fun t => by show Blind (readTAB1 t); infer_instance⟩
instance : CBlind textC := ⟨fun t => by show Blind (readText t); infer_instance⟩
instance : CBlind dirC := ⟨fun t => by show Blind (readDir t); infer_instance⟩
instance : CBlind nilC := ⟨fun t => by show Blind (pure ()); infer_instance⟩

instance {α β : Type} (c : Comp α) (d : α → Comp β) [CBlind c] [∀ a, CBlind (d a)] : CBlind (c.andThen d) := ⟨fun t => by unfold Comp.andThen; simp only; blnd⟩
instance {α : Type} (c : Comp α) (n : Int) [CBlind c] : CBlind (seqC c n) := ⟨fun t => by unfold seqC; simp only; blnd⟩
instance {α V : Type} (c : Comp α) (P : Printer V) (f : α → V) [CBlind c] : CBlind (c.via P f) := ⟨fun t => by unfold Comp.via; simp only; blnd⟩
instance {V : Type} (P : Printer V) : CBlind P.none := ⟨fun t => by unfold Printer.none; simp only; blnd⟩
instance {V : Type} (c d : Comp V) (p : Prop) [Decidable p] [CBlind c] [CBlind d] : CBlind (if p then c else d) := by split <;> infer_instance

end ENDFtk

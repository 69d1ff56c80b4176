import Verif.DiscoLemmas
/-
  A small program logic for parsers.
  * `Lines ls s r` : the text `s` is the lines `ls` followed by `r`.
  * `Reads E Q p` : Hoare triple of parsers of whole lines.
  * `ColsF w g p` : `p` reads `w` columns of the current line and computes `g` of the remaining line.
  * `LineF w g p` : `p` reads the rest of the line and computes `g` of it.
-/
namespace ENDFtk

/-- Two lists of the same length, related element by element. -/
inductive All2 {α β : Type} (R : α → β → Prop) : List α → List β → Prop
  | nil : All2 R [] []
  | cons {a : α} {b : β} {as : List α} {bs : List β} : R a b → All2 R as bs → All2 R (a :: as) (b :: bs)

theorem All2.length {α β : Type} {R : α → β → Prop} {as : List α} {bs : List β} (h : All2 R as bs) : as.length = bs.length := by
  induction h with
  | nil => rfl
  | cons _ _ ih => simp [ih]

theorem All2.mono {α β : Type} {R R' : α → β → Prop} {as : List α} {bs : List β} (hR : ∀ a b, R a b → R' a b) (h : All2 R as bs) :
    All2 R' as bs := by
  induction h with
  | nil => exact .nil
  | cons h _ ih => exact .cons (hR _ _ h) ih

theorem All2.forall {α β : Type} {R : α → β → Prop} {as : List α} {bs : List β} (h : All2 R as bs) :
    (∀ a ∈ as, ∃ b ∈ bs, R a b) ∧ (∀ b ∈ bs, ∃ a ∈ as, R a b) := by
  induction h with
  | nil => simp
  | cons h _ ih =>
    rename_i a b as bs _
    constructor
    · intro x hx
      rcases List.mem_cons.mp hx with rfl | hx
      · exact ⟨b, by simp, h⟩
      · obtain ⟨y, hy, hr⟩ := ih.1 x hx
        exact ⟨y, by simp [hy], hr⟩
    · intro y hy
      rcases List.mem_cons.mp hy with rfl | hy
      · exact ⟨a, by simp, h⟩
      · obtain ⟨x, hx, hr⟩ := ih.2 y hy
        exact ⟨x, by simp [hx], hr⟩

/-- `Lines ls s r` : the text `s` is the lines `ls` followed by `r`.  Every line ends with a newline, except that the very last
    line of the buffer may lack it (then it is not empty). -/
inductive Lines : List Text → Text → Text → Prop
  | nil (s : Text) : Lines [] s s
  | cons {ls : List Text} {l r r' : Text} : '\n' ∉ l → Lines ls r r' → Lines (l :: ls) (l ++ '\n' :: r) r'
  | last {l : Text} : '\n' ∉ l → l ≠ [] → Lines [l] l []

namespace Lines

theorem from_nil {ls : List Text} {s r : Text} (h : Lines ls s r) (hs : s = []) : ls = [] ∧ r = [] := by
  cases h with
  | nil => exact ⟨rfl, hs⟩
  | cons _ _ => simp at hs
  | last _ h => exact absurd hs h

theorem trans {ls ms : List Text} {s r q : Text} (h1 : Lines ls s r) (h2 : Lines ms r q) : Lines (ls ++ ms) s q := by
  induction h1 with
  | nil s => simpa using h2
  | cons hl _ ih => exact Lines.cons hl (ih h2)
  | last hl hne =>
    obtain ⟨rfl, rfl⟩ := h2.from_nil rfl
    exact Lines.last hl hne

theorem one {l : Text} (hl : '\n' ∉ l) (r : Text) : Lines [l] (l ++ '\n' :: r) r := .cons hl (.nil r)

/-- What is consumed is a prefix. -/
theorem suffix {ls : List Text} {s r : Text} (h : Lines ls s r) : ∃ c, s = c ++ r := by
  induction h with
  | nil s => exact ⟨[], rfl⟩
  | cons hl _ ih =>
    rename_i ls l r r' _
    obtain ⟨c, hc⟩ := ih
    exact ⟨l ++ '\n' :: c, by simp [hc]⟩
  | last hl hne => rename_i l; exact ⟨l, by simp⟩

/-- Reading a line makes progress. -/
theorem length_lt {ls : List Text} {s r : Text} (h : Lines ls s r) (hk : ls ≠ []) : r.length < s.length := by
  induction h with
  | nil s => exact absurd rfl hk
  | cons hl h' ih =>
    obtain ⟨c, hc⟩ := h'.suffix
    subst hc
    simp; omega
  | last hl hne => simpa [List.length_pos_iff] using hne

theorem length_le {ls : List Text} {s r : Text} (h : Lines ls s r) : r.length ≤ s.length := by
  obtain ⟨c, rfl⟩ := h.suffix; simp

theorem nl {ls : List Text} {s r : Text} (h : Lines ls s r) : ∀ l ∈ ls, '\n' ∉ l := by
  induction h with
  | nil s => simp
  | cons hl _ ih => simp only [List.mem_cons, forall_eq_or_imp]; exact ⟨hl, ih⟩
  | last hl hne => simpa using hl

/-- The number of lines is the number of newlines consumed (one more if the buffer ends without newline). -/
theorem count_nl {ls : List Text} {s r : Text} (h : Lines ls s r) :
    (∃ c, s = c ++ r ∧ c.count '\n' = ls.length) ∨ (r = [] ∧ s.count '\n' + 1 = ls.length ∧ s ≠ []) := by
  induction h with
  | nil s => left; exact ⟨[], rfl, rfl⟩
  | cons hl h' ih =>
    rename_i ls l r r'
    have hc : List.count '\n' l = 0 := List.count_eq_zero.mpr hl
    rcases ih with ⟨c, h1, h2⟩ | ⟨h1, h2, h3⟩
    · left
      refine ⟨l ++ '\n' :: c, by simp [h1], ?_⟩
      simp [List.count_append, hc, h2]
    · right
      refine ⟨h1, ?_, by simp⟩
      simp [List.count_append, hc]; omega
  | last hl hne =>
    right
    refine ⟨rfl, ?_, hne⟩
    simp [List.count_eq_zero.mpr hl]

/-- The lines of a text are determined by their number. -/
theorem unique {ls ms : List Text} {s r q : Text} (h1 : Lines ls s r) (h2 : Lines ms s q) (h : ls.length = ms.length) :
    ls = ms ∧ r = q := by
  have key : ∀ {l l' r r' : Text}, '\n' ∉ l → '\n' ∉ l' → l ++ '\n' :: r = l' ++ '\n' :: r' → l = l' ∧ r = r' := by
    intro l l' r r' hl hl' he
    induction l generalizing l' with
    | nil =>
      cases l' with
      | nil => simpa using he
      | cons c l' => simp at he hl'; exact absurd he.1 hl'.1
    | cons c l ih =>
      cases l' with
      | nil => simp at he hl; exact absurd he.1.symm hl.1
      | cons c' l' =>
        simp at he hl hl'
        obtain ⟨h1, h2⟩ := ih hl.2 hl'.2 he.2
        exact ⟨by rw [he.1, h1], h2⟩
  induction h1 generalizing ms q with
  | nil s =>
    cases h2 with
    | nil => exact ⟨rfl, rfl⟩
    | cons => simp at h
    | last => simp at h
  | cons hl h' ih =>
    rename_i ls l r r'
    generalize hs : l ++ '\n' :: r = s at h2
    cases h2 with
    | nil => simp at h
    | cons hl2 h2' =>
      obtain ⟨rfl, rfl⟩ := key hl hl2 hs
      obtain ⟨rfl, rfl⟩ := ih h2' (by simpa using h)
      exact ⟨rfl, rfl⟩
    | last hl2 hne => subst hs; simp at hl2
  | last hl hne =>
    rename_i l
    cases h2 with
    | nil => simp at h
    | cons hl2 h2' => simp at hl
    | last => exact ⟨rfl, rfl⟩

end Lines

/-- Every text is a current line followed by the end of the buffer or a newline. -/
theorem split_line (s : Text) : ∃ l t, s = l ++ t ∧ '\n' ∉ l ∧ (t = [] ∨ ∃ r, t = '\n' :: r) := by
  rcases endLine_spec s with ⟨f, h1, h2⟩ | ⟨h1, _⟩
  · exact ⟨f, _, h2, h1, .inr ⟨_, rfl⟩⟩
  · exact ⟨s, [], by simp, h1, .inl rfl⟩

/-- End of a line: end of buffer or newline. -/
def EOL (t : Text) : Prop := t = [] ∨ ∃ r, t = '\n' :: r

/-- Hoare triple for whole line parsers: on every text, `p` either fails with an error allowed by `E`, or consumes whole lines `ls`,
    advances the line counter by their number, and result and lines are related by `Q`. -/
def Reads {α : Type} (E : Err → Prop) (Q : α → List Text → Prop) (p : Parser α) : Prop :=
  ∀ s, match p s with
    | .ok (a, s') => ∃ ls, Lines ls s.rest s'.rest ∧ s'.line = s.line + ls.length ∧ Q a ls
    | .error e => E e

namespace Reads
variable {α β : Type} {E E' : Err → Prop} {Q Q' : α → List Text → Prop} {p : Parser α}

theorem ok (h : Reads E Q p) {s s' : St} {a : α} (hp : p s = .ok (a, s')) :
    ∃ ls, Lines ls s.rest s'.rest ∧ s'.line = s.line + ls.length ∧ Q a ls := by
  have := h s; rw [hp] at this; exact this

theorem err (h : Reads E Q p) {s : St} {e : Err} (hp : p s = .error e) : E e := by
  have := h s; rw [hp] at this; exact this

theorem intro
    (h1 : ∀ s a s', p s = .ok (a, s') → ∃ ls, Lines ls s.rest s'.rest ∧ s'.line = s.line + ls.length ∧ Q a ls)
    (h2 : ∀ s e, p s = .error e → E e) : Reads E Q p := by
  intro s
  cases h : p s with
  | ok r => cases r with | mk a s' => exact h1 _ _ _ h
  | error e => exact h2 _ _ h

theorem pure {a : α} (h : Q a []) : Reads E Q (Pure.pure a : Parser α) := by
  intro s; exact ⟨[], .nil _, by simp, h⟩

theorem fail {e : Err} (h : E e) : Reads E Q (Parser.fail e : Parser α) := by
  intro s; exact h

theorem bind {R : β → List Text → Prop} {f : α → Parser β}
    (hp : Reads E Q p) (hf : ∀ a ls, Q a ls → Reads E (fun b ms => R b (ls ++ ms)) (f a)) :
    Reads E R (p >>= f) := by
  apply intro
  · intro s b s'' h
    obtain ⟨a, s', h1, h2⟩ := Parser.bind_eq_ok.mp h
    obtain ⟨ls, l1, n1, q1⟩ := hp.ok h1
    obtain ⟨ms, l2, n2, q2⟩ := (hf a ls q1).ok h2
    exact ⟨ls ++ ms, l1.trans l2, by simp; omega, q2⟩
  · intro s e h
    rcases Parser.bind_eq_error.mp h with h | ⟨a, s', h1, h2⟩
    · exact hp.err h
    · obtain ⟨k, l1, n1, q1⟩ := hp.ok h1
      exact (hf a k q1).err h2

theorem mapErr {f : Err → Err} (hp : Reads E Q p) (hf : ∀ e, E e → E' (f e)) : Reads E' Q (Parser.mapErr f p) := by
  apply intro
  · intro s a s' h; exact hp.ok (Parser.mapErr_ok.mp h)
  · intro s e h
    obtain ⟨e', h1, h2⟩ := Parser.mapErr_error.mp h
    exact h2 ▸ hf _ (hp.err h1)

theorem conseq (hp : Reads E Q p) (hE : ∀ e, E e → E' e) (hQ : ∀ a ls, Q a ls → Q' a ls) : Reads E' Q' p := by
  apply intro
  · intro s a s' h
    obtain ⟨ls, h1, h2, h3⟩ := hp.ok h
    exact ⟨ls, h1, h2, hQ _ _ h3⟩
  · intro s e h; exact hE _ (hp.err h)

theorem post (hp : Reads E Q p) (hQ : ∀ a ls, Q a ls → Q' a ls) : Reads E Q' p := hp.conseq (fun _ h => h) hQ

theorem ite {q : Parser α} {c : Prop} [Decidable c]
    (hp : c → Reads E Q p) (hq : ¬c → Reads E Q q) : Reads E Q (if c then p else q) := by
  split
  · exact hp ‹_›
  · exact hq ‹_›

end Reads

/-- An optional value, `none` being a `std::exception`. -/
def opt {α : Type} : Option α → Except Err α
  | some a => .ok a
  | none => .error .exc

/-- Functional description of a parser of `w` columns of the current line: it reads the columns `g` from the remaining line `l`,
    and throws if the buffer ends within the columns. -/
def ColsF {α : Type} (w : Nat) (g : Text → Option α) (p : Parser α) : Prop :=
  ∀ l t n, '\n' ∉ l → EOL t → p ⟨l ++ t, n⟩ =
    if t = [] ∧ l.length < w then .error .exc
    else match g l with
      | some a => .ok (a, ⟨l.drop w ++ t, n⟩)
      | none => .error .exc

/-- Functional description of a parser of a whole line of at least `w` columns. -/
def LineF {α : Type} (w : Nat) (g : Text → Except Err α) (p : Parser α) : Prop :=
  ∀ l t n, '\n' ∉ l → EOL t → p ⟨l ++ t, n⟩ =
    if t = [] ∧ l.length < w then .error .exc
    else match g l with
      | .ok a => .ok (a, ⟨t.tail, n + 1⟩)
      | .error e => .error e

theorem nl_drop {l : Text} (w : Nat) (h : '\n' ∉ l) : '\n' ∉ l.drop w := fun h' => h (List.mem_of_mem_drop h')

namespace ColsF

theorem pure {α : Type} (a : α) : ColsF 0 (fun _ => some a) (Pure.pure a : Parser α) := by
  intro l t n _ _
  simp

theorem bind {α β : Type} {w1 w2 : Nat} {g1 : Text → Option α} {g2 : α → Text → Option β}
    {p : Parser α} {f : α → Parser β} (hp : ColsF w1 g1 p) (hf : ∀ a, ColsF w2 (g2 a) (f a)) :
    ColsF (w1 + w2) (fun l => (g1 l).bind (fun a => g2 a (l.drop w1))) (p >>= f) := by
  intro l t n hl ht
  rw [Parser.bind_run, hp l t n hl ht]
  by_cases h1 : t = [] ∧ l.length < w1
  · have : t = [] ∧ l.length < w1 + w2 := ⟨h1.1, by omega⟩
    rw [if_pos h1, if_pos this]
  · rw [if_neg h1]
    cases hg : g1 l with
    | none => simp [hg, opt, Except.bind]
    | some a =>
      simp only [hg, Option.bind_some]
      rw [hf a _ t n (nl_drop w1 hl) ht]
      by_cases h2 : t = [] ∧ l.length < w1 + w2
      · have h3 : ¬ l.length < w1 := fun h => h1 ⟨h2.1, h⟩
        have : t = [] ∧ (l.drop w1).length < w2 := ⟨h2.1, by rw [List.length_drop]; omega⟩
        rw [if_pos this, if_pos h2]
      · have : ¬ (t = [] ∧ (l.drop w1).length < w2) := by
          rintro ⟨h3, h4⟩
          simp at h4
          exact h2 ⟨h3, by omega⟩
        rw [if_neg this, if_neg h2]
        simp [List.drop_drop]

theorem congr {α : Type} {w w' : Nat} {g g' : Text → Option α} {p : Parser α} (h : ColsF w g p) (hw : w = w')
    (hg : ∀ l, g l = g' l) : ColsF w' g' p := by
  subst hw
  have : g = g' := funext hg
  exact this ▸ h

end ColsF

theorem takeField_line (w : Nat) {l t : Text} (hl : '\n' ∉ l) (ht : EOL t) :
    takeField w (l ++ t) = (if t = [] ∧ l.length < w then .error .exc else .ok (l.take w, l.drop w ++ t)) := by
  induction w generalizing l with
  | zero => simp [takeField]
  | succ w ih =>
    cases l with
    | nil =>
      rcases ht with rfl | ⟨r, rfl⟩
      · simp [takeField]
      · simp [takeField]
    | cons c l =>
      simp at hl
      have hc : c ≠ '\n' := fun h => hl.1 h.symm
      simp only [List.cons_append, takeField, hc, if_false, ih hl.2]
      by_cases hcond : t = [] ∧ l.length < w
      · simp [hcond]
      · have : ¬ (t = [] ∧ (c :: l).length < w + 1) := by simpa using hcond
        simp [hcond]

theorem readField_cols (w : Nat) : ColsF w (fun l => some (l.take w)) (readField w) := by
  intro l t n hl ht
  simp only [readField, takeField_line w hl ht]
  by_cases h : t = [] ∧ l.length < w
  · simp [h]
  · simp only [if_neg h]

theorem readChars_cols (w : Nat) :
    ColsF w (fun l => some (l.take w ++ blanks (w - (l.take w).length))) (readChars w) :=
  (readField_cols w).bind (fun f => ColsF.pure (f ++ blanks (w - f.length)))

section
variable [Disco]

theorem readInt_cols (w : Nat) : ColsF w (fun l => parseInt (l.take w)) (readInt w) := by
  refine ((readField_cols w).bind (w2 := 0) (g2 := fun f _ => parseInt f)
    (f := fun f => match parseInt f with
      | some v => Pure.pure v
      | none => Parser.fail .exc) (fun f => ?_)).congr (by simp) (by simp)
  intro l t n hl ht
  cases h : parseInt f <;> simp

theorem readReal_cols : ColsF 11 (fun l => parseReal (l.take 11)) readReal := by
  refine ((readField_cols 11).bind (w2 := 0) (g2 := fun f _ => parseReal f)
    (f := fun f => match parseReal f with
      | some v => Pure.pure v
      | none => Parser.fail .exc) (fun f => ?_)).congr (by simp) (by simp)
  intro l t n hl ht
  cases h : parseReal f <;> simp

end

theorem endLine_line {l t : Text} (hl : '\n' ∉ l) (ht : EOL t) : endLine (l ++ t) = t.tail := by
  rcases ht with rfl | ⟨r, rfl⟩
  · simp [endLine_no_nl hl]
  · simp [endLine_append_nl r hl]

namespace LineF

/-- A column parser followed by a parser of the rest of the line. -/
theorem bindCols {α β : Type} {w1 w2 : Nat} {g1 : Text → Option α} {g2 : α → Text → Except Err β}
    {p : Parser α} {f : α → Parser β} (hp : ColsF w1 g1 p) (hf : ∀ a, LineF w2 (g2 a) (f a)) :
    LineF (w1 + w2) (fun l => (opt (g1 l)).bind (fun a => g2 a (l.drop w1))) (p >>= f) := by
  intro l t n hl ht
  rw [Parser.bind_run, hp l t n hl ht]
  by_cases h1 : t = [] ∧ l.length < w1
  · have : t = [] ∧ l.length < w1 + w2 := ⟨h1.1, by omega⟩
    rw [if_pos h1, if_pos this]
  · rw [if_neg h1]
    cases hg : g1 l with
    | none => simp [hg, opt, Except.bind]
    | some a =>
      simp only [hg, opt, Except.bind]
      rw [hf a _ t n (nl_drop w1 hl) ht]
      by_cases h2 : t = [] ∧ l.length < w1 + w2
      · have h3 : ¬ l.length < w1 := fun h => h1 ⟨h2.1, h⟩
        have : t = [] ∧ (l.drop w1).length < w2 := ⟨h2.1, by rw [List.length_drop]; omega⟩
        rw [if_pos this, if_pos h2]
      · have : ¬ (t = [] ∧ (l.drop w1).length < w2) := by
          rintro ⟨h3, h4⟩
          simp at h4
          exact h2 ⟨h3, by omega⟩
        rw [if_neg this, if_neg h2]

/-- A line parser followed by a check / computation that does not read. -/
theorem bindPure {α β : Type} {w : Nat} {g : Text → Except Err α} {p : Parser α} {f : α → Parser β}
    {h : α → Except Err β} (hp : LineF w g p)
    (hf : ∀ a s, f a s = match h a with
      | .ok b => .ok (b, s)
      | .error e => .error e) :
    LineF w (fun l => (g l).bind h) (p >>= f) := by
  intro l t n hl ht
  rw [Parser.bind_run, hp l t n hl ht]
  by_cases h1 : t = [] ∧ l.length < w
  · simp [h1]
  · simp only [if_neg h1]
    cases hg : g l with
    | error e => simp [Except.bind]
    | ok a => simp only [Except.bind]; rw [hf]

theorem mapErr {α : Type} {w : Nat} {g : Text → Except Err α} {p : Parser α} {f : Err → Err} (hp : LineF w g p)
    (hf : f .exc = .exc) :
    LineF w (fun l => match g l with
      | .ok a => .ok a
      | .error e => .error (f e)) (Parser.mapErr f p) := by
  intro l t n hl ht
  rw [Parser.mapErr, hp l t n hl ht]
  by_cases h1 : t = [] ∧ l.length < w
  · simp [h1, hf]
  · simp only [if_neg h1]
    cases hg : g l <;> simp

theorem congr {α : Type} {w w' : Nat} {g g' : Text → Except Err α} {p : Parser α} (h : LineF w g p) (hw : w = w')
    (hg : ∀ l, g l = g' l) : LineF w' g' p := by
  subst hw
  have : g = g' := funext hg
  exact this ▸ h

/-- Reading a complete line followed by anything. -/
theorem run_nl {α : Type} {w : Nat} {g : Text → Except Err α} {p : Parser α} (hp : LineF w g p) {l : Text}
    (hl : '\n' ∉ l) (r : Text) (n : Int) :
    p ⟨l ++ '\n' :: r, n⟩ = match g l with
      | .ok a => .ok (a, ⟨r, n + 1⟩)
      | .error e => .error e := by
  rw [hp l _ n hl (.inr ⟨r, rfl⟩)]
  simp

/-- Every line parser is a whole line reader. -/
theorem reads {α : Type} {w : Nat} {g : Text → Except Err α} {p : Parser α} (hp : LineF (w + 1) g p)
    {E : Err → Prop} {Q : α → List Text → Prop} (hE : E .exc)
    (hok : ∀ l a, g l = .ok a → Q a [l]) (herr : ∀ l e, g l = .error e → E e) : Reads E Q p := by
  intro s
  obtain ⟨rest, line⟩ := s
  obtain ⟨l, t, rfl, hl, ht⟩ := split_line rest
  rw [hp l t line hl ht]
  by_cases h1 : t = [] ∧ l.length < w + 1
  · rw [if_pos h1]; exact hE
  · rw [if_neg h1]
    cases hgl : g l with
    | error e => exact herr _ _ hgl
    | ok a =>
      refine ⟨[l], ?_, by simp, hok _ _ hgl⟩
      rcases ht with rfl | ⟨r, rfl⟩
      · simp at h1
        have : l ≠ [] := by rintro rfl; simp at h1
        simpa using Lines.last hl this
      · simpa using Lines.one hl r

end LineF

end ENDFtk

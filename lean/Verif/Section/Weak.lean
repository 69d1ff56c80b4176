import Verif.Section.Corr
/-
  A program logic for the parsers of file 32: the line counter can be advanced by more than the lines that are read, and INTG records on lines that are
  too short can cross the end of the line.
-/
set_option linter.unusedVariables false
set_option linter.unusedSectionVars false
set_option linter.unusedSimpArgs false
namespace ENDFtk
variable [Disco]

/-- The lines that follow each other with these numbers, and the first one with other numbers, have at least 66 columns. -/
def FullLines (t : Nums) (s : Text) : Prop := ∀ ls l r, Lines (ls ++ [l]) s r → AllTail t ls → 66 ≤ l.length

theorem FullLines.rest {t : Nums} {s r : Text} {ls : List Text} (h : FullLines t s) (hl : Lines ls s r) (ha : AllTail t ls) : FullLines t r := by
  intro ms l q hm hmem
  exact h (ls ++ ms) l q (by simpa using hl.trans hm) (allTail_append.mpr ⟨ha, hmem⟩)

/-- From `s` to `s'` `n` lines are read, all with the expected numbers; the line counter is advanced by `n + x`. -/
def Step (t : Nums) (s s' : St) (n x : Nat) : Prop :=
  ∃ ls, Lines ls s.rest s'.rest ∧ s'.line = s.line + (ls.length + x : Nat) ∧ AllTail t ls ∧ ls.length = n

theorem Step.trans {t : Nums} {s s' s'' : St} {n m x y : Nat} (h1 : Step t s s' n x) (h2 : Step t s' s'' m y) : Step t s s'' (n + m) (x + y) := by
  obtain ⟨ls, a1, a2, a3, a4⟩ := h1
  obtain ⟨ms, b1, b2, b3, b4⟩ := h2
  refine ⟨ls ++ ms, a1.trans b1, ?_, allTail_append.mpr ⟨a3, b3⟩, by simp [a4, b4]⟩
  rw [b2, a2]; simp; omega

/-- On every text, `p` fails with one of the errors `E`, or gives a value that satisfies `Q`.  `Q` also relates the value to: whether it is regular (`R`),
    by how much more the counter is advanced (`x`), and the number of lines if it is regular (`N`).  If it is regular or all lines are full, whole lines
    have been read. -/
def ReadsW {α : Type} (E : Err → Prop) (t : Nums) (Q : α → Prop → Nat → Nat → Prop) (p : Parser α) : Prop :=
  ∀ s, match p s with
    | .ok (a, s') => ∃ R x N, Q a R x N ∧ ((R ∨ FullLines t s.rest) → ∃ n, Step t s s' n x ∧ (R → n = N))
    | .error e => E e

/-- The usual form of `Q`. -/
def Std {α : Type} (W reg : α → Prop) (x nc : α → Nat) (a : α) (R : Prop) (e N : Nat) : Prop := W a ∧ (R ↔ reg a) ∧ e = x a ∧ (R → N = nc a)

namespace ReadsW
variable {α β : Type} {E : Err → Prop} {t : Nums} {Q Q' : α → Prop → Nat → Nat → Prop} {p : Parser α}

theorem ok (h : ReadsW E t Q p) {s s' : St} {a : α} (hp : p s = .ok (a, s')) :
    ∃ R x N, Q a R x N ∧ ((R ∨ FullLines t s.rest) → ∃ n, Step t s s' n x ∧ (R → n = N)) := by
  have := h s; rw [hp] at this; exact this

theorem err (h : ReadsW E t Q p) {s : St} {e : Err} (hp : p s = .error e) : E e := by
  have := h s; rw [hp] at this; exact this

theorem intro (h1 : ∀ s a s', p s = .ok (a, s') → ∃ R x N, Q a R x N ∧ ((R ∨ FullLines t s.rest) → ∃ n, Step t s s' n x ∧ (R → n = N)))
    (h2 : ∀ s e, p s = .error e → E e) : ReadsW E t Q p := by
  intro s
  cases h : p s with
  | ok r => cases r with | mk a s' => exact h1 _ _ _ h
  | error e => exact h2 _ _ h

theorem pure {a : α} (h : Q a True 0 0) : ReadsW E t Q (Pure.pure a : Parser α) := by
  intro s; exact ⟨True, 0, 0, h, fun _ => ⟨0, ⟨[], .nil _, by simp, .nil t, rfl⟩, fun _ => rfl⟩⟩

theorem fail {e : Err} (h : E e) : ReadsW E t Q (Parser.fail e : Parser α) := by intro s; exact h

theorem bind {K : β → Prop → Nat → Nat → Prop} {f : α → Parser β} (hp : ReadsW E t Q p)
    (hf : ∀ a R x N, Q a R x N → ReadsW E t (fun b R' x' N' => K b (R ∧ R') (x + x') (N + N')) (f a)) : ReadsW E t K (p >>= f) := by
  apply intro
  · intro s b s'' h
    obtain ⟨a, s', h1, h2⟩ := Parser.bind_eq_ok.mp h
    obtain ⟨R, x, N, q1, l1⟩ := hp.ok h1
    obtain ⟨R', x', N', q2, l2⟩ := (hf a R x N q1).ok h2
    refine ⟨R ∧ R', x + x', N + N', q2, fun hc => ?_⟩
    obtain ⟨n, st1, e1⟩ := l1 (hc.imp And.left id)
    obtain ⟨m, st2, e2⟩ := l2 (hc.imp And.right (fun hfull => hfull.rest st1.choose_spec.1 st1.choose_spec.2.2.1))
    exact ⟨n + m, st1.trans st2, fun hr => by rw [e1 hr.1, e2 hr.2]⟩
  · intro s e h
    rcases Parser.bind_eq_error.mp h with h | ⟨a, s', h1, h2⟩
    · exact hp.err h
    · obtain ⟨R, x, N, q1, l1⟩ := hp.ok h1
      exact (hf a R x N q1).err h2

theorem conseq {F : Err → Prop} (hp : ReadsW E t Q p) (hE : ∀ e, E e → F e) (hQ : ∀ a R x N, Q a R x N → Q' a R x N) : ReadsW F t Q' p := by
  apply intro
  · intro s a s' h
    obtain ⟨R, x, N, q, l⟩ := hp.ok h
    exact ⟨R, x, N, hQ _ _ _ _ q, l⟩
  · intro s e h; exact hE _ (hp.err h)

theorem post (hp : ReadsW E t Q p) (hQ : ∀ a R x N, Q a R x N → Q' a R x N) : ReadsW E t Q' p := hp.conseq (fun _ h => h) hQ

theorem mapErr {F : Err → Prop} {f : Err → Err} (hp : ReadsW E t Q p) (hf : ∀ e, E e → F (f e)) : ReadsW F t Q (Parser.mapErr f p) := by
  apply intro
  · intro s a s' h; exact hp.ok (Parser.mapErr_ok.mp h)
  · intro s e h
    obtain ⟨e', h1, h2⟩ := Parser.mapErr_error.mp h
    exact h2 ▸ hf _ (hp.err h1)

theorem ite {q : Parser α} {c : Prop} {inst : Decidable c} (hp : c → ReadsW E t Q p) (hq : ¬c → ReadsW E t Q q) :
    ReadsW E t Q (if c then p else q) := by
  split
  · exact hp ‹_›
  · exact hq ‹_›

/-- A parser of whole lines. -/
theorem ofReads {V : α → Prop} {nc : α → Nat} (h : Reads E (fun a ls => V a ∧ AllTail t ls ∧ ls.length = nc a) p) :
    ReadsW E t (Std V (fun _ => True) (fun _ => 0) nc) p := by
  apply intro
  · intro s a s' hp
    obtain ⟨ls, h1, h2, h3, h4, h5⟩ := h.ok hp
    exact ⟨True, 0, nc a, ⟨h3, by simp, rfl, fun _ => rfl⟩, fun _ => ⟨nc a, ⟨ls, h1, by simpa using h2, h4, h5⟩, fun _ => rfl⟩⟩
  · intro s e hp; exact h.err hp

theorem ofLaw {c : Comp α} {F : Err → Prop} [ErrSub F E] (h : c.Law F) : ReadsW E t (Std c.Valid (fun _ => True) (fun _ => 0) c.nc) (c.read t) :=
  ofReads ((h.reads t).conseq ErrSub.sub (fun _ _ h => h))

/-- `n` times. -/
theorem many {W reg : α → Prop} {x nc : α → Nat} (hp : ReadsW E t (Std W reg x nc) p) (n : Nat) :
    ReadsW E t (Std (fun xs : List α => xs.length = n ∧ ∀ a ∈ xs, W a) (fun xs => ∀ a ∈ xs, reg a) (fun xs => (xs.map x).sum)
      (fun xs => (xs.map nc).sum)) (readMany p n) := by
  induction n with
  | zero => exact pure ⟨by simp, by simp, rfl, fun _ => rfl⟩
  | succ n ih =>
    refine bind hp ?_
    rintro a R e N ⟨a1, a2, a3, a4⟩
    refine bind ih ?_
    rintro xs R' e' N' ⟨b1, b2, b3, b4⟩
    refine pure ⟨?_, ?_, ?_, ?_⟩
    · exact ⟨by simp [b1.1], by simpa using ⟨a1, b1.2⟩⟩
    · simp [a2, b2]
    · simp [a3, b3]
    · intro h; simp [a4 h.1, b4 h.2.1]

/-- `readSequence`: `n` times, `n` being converted to `int`. -/
theorem seq (hexc : E .exc) {W reg : α → Prop} {x nc : α → Nat} (hp : ReadsW E t (Std W reg x nc) p) (n : Int) :
    ReadsW E t (Std (fun xs : List α => (xs.length : Int) = toInt32 n ∧ ∀ a ∈ xs, W a) (fun xs => ∀ a ∈ xs, reg a) (fun xs => (xs.map x).sum)
      (fun xs => (xs.map nc).sum)) (readSequence p n) := by
  unfold readSequence
  refine ite (fun _ => fail hexc) fun h => (many hp _).post ?_
  rintro xs R e N ⟨b1, b2, b3, b4⟩
  exact ⟨⟨by omega, b1.2⟩, b2, b3, b4⟩

end ReadsW

/-! ### INTG records on any text -/

/-- On every text: an error `E`, or a value that satisfies `Q`. -/
def PostW {α : Type} (E : Err → Prop) (Q : α → Prop) (p : Parser α) : Prop :=
  ∀ s, match p s with
    | .ok (a, _) => Q a
    | .error e => E e

namespace PostW
variable {α β : Type} {E : Err → Prop} {Q : α → Prop} {p : Parser α}

theorem ok (h : PostW E Q p) {s s' : St} {a : α} (hp : p s = .ok (a, s')) : Q a := by
  have := h s; rw [hp] at this; exact this

theorem err (h : PostW E Q p) {s : St} {e : Err} (hp : p s = .error e) : E e := by
  have := h s; rw [hp] at this; exact this

theorem intro (h1 : ∀ s a s', p s = .ok (a, s') → Q a) (h2 : ∀ s e, p s = .error e → E e) : PostW E Q p := by
  intro s
  cases h : p s with
  | ok r => cases r with | mk a s' => exact h1 _ _ _ h
  | error e => exact h2 _ _ h

theorem pure {a : α} (h : Q a) : PostW E Q (Pure.pure a : Parser α) := by intro s; exact h

theorem bind {K : β → Prop} {f : α → Parser β} (hp : PostW E Q p) (hf : ∀ a, Q a → PostW E K (f a)) : PostW E K (p >>= f) := by
  apply intro
  · intro s b s'' h
    obtain ⟨a, s', h1, h2⟩ := Parser.bind_eq_ok.mp h
    exact (hf a (hp.ok h1)).ok h2
  · intro s e h
    rcases Parser.bind_eq_error.mp h with h | ⟨a, s', h1, h2⟩
    · exact hp.err h
    · exact (hf a (hp.ok h1)).err h2

theorem many {n : Nat} (hp : PostW E Q p) : PostW E (fun xs : List α => xs.length = n ∧ ∀ a ∈ xs, Q a) (readMany p n) := by
  induction n with
  | zero => exact pure (by simp)
  | succ n ih => exact bind hp fun a ha => bind ih fun xs hx => pure ⟨by simp [hx.1], by simpa using ⟨ha, hx.2⟩⟩

end PostW

theorem readInt_post (w : Nat) : PostW UbErr (fun v => fits w v) (readInt w) := by
  apply PostW.intro
  · intro s a s' h
    unfold readInt at h
    obtain ⟨f, s1, h1, h2⟩ := Parser.bind_eq_ok.mp h
    have hl : f.length ≤ w := by
      unfold readField at h1
      split at h1
      · rename_i f' r hf
        cases h1
        obtain ⟨l, tt, he, hl, ht⟩ := split_line s.rest
        rw [he, takeField_line w hl ht] at hf
        split at hf
        · cases hf
        · cases hf; simp; omega
      · cases h1
    cases hp : parseInt f with
    | none => rw [hp] at h2; cases h2
    | some v =>
      rw [hp] at h2
      simp only [Parser.pure_run] at h2
      cases h2
      exact fits_of_parse hl hp
  · intro s e h
    unfold readInt at h
    rcases Parser.bind_eq_error.mp h with h | ⟨f, s1, h1, h2⟩
    · unfold readField at h
      split at h
      · cases h
      · rename_i e' he
        cases h
        obtain ⟨l, tt, hs, hl, ht⟩ := split_line s.rest
        rw [hs, takeField_line w hl ht] at he
        split at he
        · cases he; exact .inl rfl
        · cases he
    · cases hp : parseInt f with
      | none => rw [hp] at h2; cases h2; exact .inl rfl
      | some v => rw [hp] at h2; cases h2

theorem advance_post (m : Nat) : PostW UbErr (fun _ => True) (advance m) := by
  intro s
  unfold advance
  split
  · rename_i h
    split at h
    · cases h
    · trivial
  · rename_i h
    split at h
    · cases h; exact .inr rfl
    · cases h

theorem stripZeros_sub {k : List Int} {v : Int} (h : v ∈ stripZeros k) : v ∈ k := by
  obtain ⟨m, h', _⟩ := stripZeros_spec k
  rw [h']; simp [h]

theorem stripZeros_length (k : List Int) : (stripZeros k).length ≤ k.length := by
  obtain ⟨m, h', _⟩ := stripZeros_spec k
  have := congrArg List.length h'
  simp at this; omega

/-- What holds for an INTG record that was read. -/
def INTG.Inv (nd : Nat) (r : INTG) : Prop :=
  0 ≤ r.i ∧ r.i < 4294967296 ∧ 0 ≤ r.j ∧ r.j < 4294967296 ∧ ∀ v ∈ r.k, fits (nd + 1) v

theorem verifyTail_post (e : Nums) : PostW RawErr (fun _ => True) (verifyTail e) := by
  apply PostW.intro
  · intros; trivial
  · intro s er h
    obtain ⟨l, tt, hs, hl, ht⟩ := split_line s.rest
    have := verifyTail_line e l tt s.line hl ht
    rw [← hs] at this
    rw [h] at this
    split at this
    · cases this; simp [RawErr]
    · split at this
      · cases this
      · rename_i er' he
        cases this
        exact tailCheck_err he

theorem readIntegers_post (nd n : Nat) : PostW UbErr (fun k => k.length ≤ n ∧ ∀ v ∈ k, fits (nd + 1) v) (readIntegers nd n) := by
  unfold readIntegers
  refine PostW.bind (Q := fun _ => True) ?_ fun _ _ => PostW.bind (readInt_post (nd + 1)).many fun k hk => PostW.bind (advance_post _) fun _ _ =>
    PostW.pure ⟨by have := stripZeros_length k; omega, fun v hv => hk.2 v (stripZeros_sub hv)⟩
  split
  · exact advance_post 1
  · exact PostW.pure trivial

theorem UbErr.catchInt {e : Err} (h : UbErr e) : UbErr (catchInt e) := by
  cases e <;> first | exact .inl rfl | exact .inr rfl | exact h

theorem RawErr.catchInt {e : Err} (h : RawErr e) : UbErr (ENDFtk.catchInt e) := .inl (catchInt_raw h)

/-- On any text an INTG record is read, or there is an exception or undefined behaviour (lines that are too short). -/
theorem readINTG_post (nd n : Nat) (t : Nums) : PostW UbErr (INTG.Inv nd) (readINTG nd n t) := by
  have hE : ∀ e, UbErr e → UbErr (catchInt e) := fun _ => UbErr.catchInt
  have hmap : ∀ {p : Parser INTG}, PostW (fun e => UbErr (catchInt e)) (INTG.Inv nd) p → PostW UbErr (INTG.Inv nd) (Parser.mapErr catchInt p) := by
    intro p hp
    apply PostW.intro
    · intro s a s' h; exact hp.ok (Parser.mapErr_ok.mp h)
    · intro s e h
      obtain ⟨e', h1, rfl⟩ := Parser.mapErr_error.mp h
      exact hp.err h1
  have hw : ∀ {α : Type} {Q : α → Prop} {p : Parser α}, PostW UbErr Q p → PostW (fun e => UbErr (catchInt e)) Q p := by
    intro α Q p hp
    exact PostW.intro (fun s a s' h => hp.ok h) (fun s e h => (hp.err h).catchInt)
  refine hmap (PostW.bind (hw (readInt_post 5)) fun i _ => PostW.bind (hw (readInt_post 5)) fun j _ =>
    PostW.bind (hw (readIntegers_post nd n)) fun k hk => ?_)
  refine PostW.bind (Q := INTG.Inv nd) ?_ fun r hr => PostW.bind (Q := fun _ => True) ?_ fun _ _ => PostW.pure hr
  · have hmk : ∀ x, INTG.make n i j k = x → match (x : Except Err INTG) with | .ok r => INTG.Inv nd r | .error e => UbErr (catchInt e) := by
      intro x hx
      unfold INTG.make at hx
      split at hx
      · subst hx; exact .inl rfl
      · subst hx
        refine ⟨?_, ?_, ?_, ?_, hk.2⟩ <;> simp only [toUnsigned] <;> omega
    intro s
    have := hmk _ rfl
    cases hx : INTG.make n i j k with
    | ok r => rw [hx] at this; exact this
    | error e => rw [hx] at this; exact this
  · exact PostW.intro (fun _ _ _ _ => trivial) (fun s e h => ((verifyTail_post t).err h).catchInt)

/-- An INTG record on a full line: that line. -/
theorem readINTG_readsW {nd : Nat} (hnd : 2 ≤ nd ∧ nd ≤ 6) (t : Nums) :
    ReadsW UbErr t (Std (INTG.Inv nd) (fun _ => False) (fun _ => 0) (fun _ => 1)) (readINTG nd (intgN nd) t) := by
  apply ReadsW.intro
  · intro s a s' h
    refine ⟨False, 0, 1, ⟨(readINTG_post _ _ _).ok h, by simp, rfl, fun _ => rfl⟩, fun hf => ⟨1, ?_, fun h => h.elim⟩⟩
    have hf := hf.resolve_left id
    cases s with
    | mk s n =>
    obtain ⟨l, tt, hs, hl, ht⟩ := split_line s
    simp only at hf
    subst hs
    by_cases hw : 66 ≤ l.length
    · have := readINTG_full_line hnd t l tt n hl ht hw
      rw [h] at this
      obtain ⟨rfl, htl, _⟩ := this
      refine ⟨[l], ?_, by simp, by simpa [AllTail] using htl, rfl⟩
      rcases ht with rfl | ⟨r, rfl⟩
      · rw [List.append_nil]
        exact .last hl (by rintro rfl; simp at hw)
      · exact .one hl r
    · exfalso
      rcases ht with rfl | ⟨r, rfl⟩
      · by_cases hz : l = []
        · subst hz
          have h1 := readInt_cols 5 [] [] n (by simp) (.inl rfl)
          rw [if_pos (by simp)] at h1
          have h2 : readINTG nd (intgN nd) t ⟨[] ++ [], n⟩ = .error .exc := by
            unfold readINTG Parser.mapErr
            rw [Parser.bind_err h1]; rfl
          rw [h2] at h
          cases h
        · have := hf [] l [] (by rw [List.append_nil]; exact .last hl hz) (by simp [AllTail])
          omega
      · have := hf [] l r (.one hl r) (by simp [AllTail])
        omega
  · intro s e h; exact (readINTG_post _ _ _).err h

end ENDFtk

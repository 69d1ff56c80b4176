import Verif.Parsed.Blind
import Verif.Tree.LineFacts
import Verif.Tree.ContentLemmas
/-
  Trees of texts that agree in columns 1-75.
-/
set_option linter.unusedVariables false
set_option linter.unusedSectionVars false
set_option linter.unusedSimpArgs false
namespace ENDFtk
variable [Disco]

theorem SameLines.text {x x' : Text} (h : SameLines x x') : SameText x x' := by
  induction h with
  | nil => exact .refl _
  | line h _ ih => exact .line h ih
  | last h h1 h2 => exact .last h h1 h2

theorem SameBlock.lines {x x' : Text} (h : SameBlock x x') : SameLines x x' := by
  induction h with
  | nil => exact .nil
  | line h _ ih => exact .line h ih

theorem SameBlock.append {x x' y y' : Text} (h : SameBlock x x') (hy : SameBlock y y') : SameBlock (x ++ y) (x' ++ y') := by
  induction h with
  | nil => exact hy
  | line h _ ih => simpa using SameBlock.line h ih

theorem SameBlock.appendLines {x x' y y' : Text} (h : SameBlock x x') (hy : SameLines y y') : SameLines (x ++ y) (x' ++ y') := by
  induction h with
  | nil => exact hy
  | line h _ ih => simpa using SameLines.line h ih

theorem SameBlock.count {x x' : Text} (h : SameBlock x x') : x.count '\n' = x'.count '\n' := by
  induction h with
  | nil => rfl
  | line h _ ih => simp [List.count_append, List.count_eq_zero.mpr h.nl, List.count_eq_zero.mpr h.nl', ih]

theorem SameBlock.nil_iff {x x' : Text} (h : SameBlock x x') : x = [] ↔ x' = [] := by
  cases h <;> simp

theorem SameLines.nil_iff {x x' : Text} (h : SameLines x x') : x = [] ↔ x' = [] := by
  cases h with
  | nil => exact Iff.rfl
  | line h ht => simp
  | last h h1 h2 => constructor <;> (rintro rfl; simp at h1 h2)

/-- From `b` and `b'` texts have been taken that agree; what is left agrees too. -/
structure Took (b b' r r' : Text) : Prop where
  rest : SameLines r r'
  text : ∃ c c', b = c ++ r ∧ b' = c' ++ r' ∧ SameLines c c' ∧ (r ≠ [] → SameBlock c c')

theorem Took.refl {x x' : Text} (h : SameLines x x') : Took x x' x x' := ⟨h, [], [], rfl, rfl, .nil, fun _ => .nil⟩

theorem Took.begin {b b' r r' : Text} (h : Took b b' r r') : SameLines b b' := by
  obtain ⟨hr, c, c', rfl, rfl, h1, h2⟩ := h
  by_cases h0 : r = []
  · have h0' := hr.nil_iff.mp h0
    subst h0 h0'
    simpa using h1
  · exact (h2 h0).appendLines hr

theorem Took.trans {b b' r r' q q' : Text} (h : Took b b' r r') (k : Took r r' q q') : Took b b' q q' := by
  have hb := h.begin
  obtain ⟨hr, c, c', rfl, rfl, h1, h2⟩ := h
  obtain ⟨hq, d, d', rfl, rfl, k1, k2⟩ := k
  refine ⟨hq, c ++ d, c' ++ d', by simp, by simp, ?_, fun hne => (h2 (by simp [hne])).append (k2 hne)⟩
  by_cases h0 : d ++ q = []
  · have h0' := hr.nil_iff.mp h0
    simp only [List.append_eq_nil_iff] at h0 h0'
    obtain ⟨rfl, rfl⟩ := h0
    obtain ⟨rfl, rfl⟩ := h0'
    simpa using h1
  · exact (h2 h0).appendLines k1

theorem Took.step {x x' y y' l l' : Text} (h : SameLines x x') (a : At l x y) (a' : At l' x' y') : Took x x' y y' := by
  cases h with
  | nil => exact absurd rfl a.ne_nil
  | @line k k' t t' h ht =>
    obtain ⟨rfl, rfl⟩ := a.unique (At.nl h.nl)
    obtain ⟨rfl, rfl⟩ := a'.unique (At.nl h.nl')
    have hb : SameBlock (l ++ ['\n']) (l' ++ ['\n']) := .line h .nil
    exact ⟨ht, _, _, by simp, by simp, hb.lines, fun _ => hb⟩
  | last h h1 h2 =>
    have e : ∀ {l z y : Text}, At l z y → '\n' ∉ z → y = [] := by
      intro l z y a hz
      rcases a.2 with rfl | ⟨_, rfl, _⟩
      · simp at hz
      · rfl
    obtain rfl := e a h.nl
    obtain rfl := e a' h.nl'
    exact ⟨.nil, x, x', by simp, by simp, .last h h1 h2, fun h => absurd rfl h⟩

/-- The content of a section: the text from `b` to `r`. -/
theorem Took.content {b b' r r' : Text} (h : Took b b' r r') :
    SameLines (b.take (b.length - r.length)) (b'.take (b'.length - r'.length)) ∧
      (r ≠ [] → SameBlock (b.take (b.length - r.length)) (b'.take (b'.length - r'.length))) := by
  obtain ⟨hr, c, c', rfl, rfl, h1, h2⟩ := h
  simp only [List.length_append, Nat.add_sub_cancel, List.take_left]
  exact ⟨h1, h2⟩

/-- Two results are the same error, or the line counters agree and `W` holds of the values and the remaining texts. -/
def Rel {α β : Type} (W : α → β → Text → Text → Prop) : Except Err (α × St) → Except Err (β × St) → Prop
  | .ok (a, s), .ok (b, s') => s.line = s'.line ∧ W a b s.rest s'.rest
  | .error e, .error e' => e = e'
  | _, _ => False

namespace Rel
variable {α β γ δ : Type} {W : α → β → Text → Text → Prop} {V : γ → δ → Text → Text → Prop}

theorem bind {p : Parser α} {p' : Parser β} {f : α → Parser γ} {f' : β → Parser δ} {s s' : St} (h : Rel W (p s) (p' s'))
    (hf : ∀ a b y y' n, p s = .ok (a, ⟨y, n⟩) → p' s' = .ok (b, ⟨y', n⟩) → W a b y y' → Rel V (f a ⟨y, n⟩) (f' b ⟨y', n⟩)) :
    Rel V ((p >>= f) s) ((p' >>= f') s') := by
  simp only [Parser.bind_run]
  cases hx : p s with
  | error e =>
    cases hx' : p' s' with
    | error e' => rw [hx, hx'] at h; exact h
    | ok q => rw [hx, hx'] at h; exact False.elim h
  | ok q =>
    cases hx' : p' s' with
    | error e' => rw [hx, hx'] at h; exact False.elim h
    | ok q' =>
      rw [hx, hx'] at h
      obtain ⟨a, y, n⟩ := q
      obtain ⟨a', y', n'⟩ := q'
      obtain ⟨h2, h3⟩ := h
      simp only at h2 h3
      subst h2
      exact hf a a' y y' n hx hx' h3

theorem mapErr {p : Parser α} {p' : Parser β} {g : Err → Err} {s s' : St} (h : Rel W (p s) (p' s')) :
    Rel W (Parser.mapErr g p s) (Parser.mapErr g p' s') := by
  unfold Parser.mapErr
  cases hx : p s <;> cases hx' : p' s' <;> rw [hx, hx'] at h
  · exact congrArg g h
  · exact False.elim h
  · exact False.elim h
  · exact h

theorem mono {W' : α → β → Text → Text → Prop} {r : Except Err (α × St)} {r' : Except Err (β × St)} (h : Rel W r r')
    (hW : ∀ a b y y', W a b y y' → W' a b y y') : Rel W' r r' := by
  cases r with
  | error e =>
    cases r' with
    | error e' => exact h
    | ok q => exact False.elim h
  | ok q =>
    cases r' with
    | error e' => exact False.elim h
    | ok q' => exact ⟨h.1, hW _ _ _ _ h.2⟩

theorem ofBlind {p : Parser α} [hp : Blind p] {R : Text → Text → Prop} {x x' : Text} {n : Int} (h : SameText x x')
    (hR : ∀ a a' y y', p ⟨x, n⟩ = .ok (a, y) → p ⟨x', n⟩ = .ok (a', y') → R y.rest y'.rest) :
    Rel (fun a b y y' => a = b ∧ R y y') (p ⟨x, n⟩) (p ⟨x', n⟩) := by
  have h1 := hp.run x x' n h
  cases hx : p ⟨x, n⟩ with
  | error e =>
    cases hx' : p ⟨x', n⟩ with
    | error e' => rw [hx, hx'] at h1; exact h1
    | ok q => rw [hx, hx'] at h1; exact False.elim h1
  | ok q =>
    cases hx' : p ⟨x', n⟩ with
    | error e' => rw [hx, hx'] at h1; exact False.elim h1
    | ok q' =>
      rw [hx, hx'] at h1
      exact ⟨h1.2.1, h1.1, hR _ _ _ _ hx hx'⟩
end Rel

theorem skip_took {x x' : Text} {n : Int} (h : SameLines x x') :
    Rel (fun a b y y' => a = b ∧ Took x x' y y') (skip ⟨x, n⟩) (skip ⟨x', n⟩) :=
  Rel.ofBlind h.text fun a a' y y' h1 h2 => by
    obtain ⟨l, a1, _⟩ := skip_inv h1
    obtain ⟨l', a2, _⟩ := skip_inv h2
    exact Took.step h a1 a2

theorem readDivision_took {x x' : Text} {n : Int} (h : SameLines x x') :
    Rel (fun a b y y' => a = b ∧ Took x x' y y') (readDivision ⟨x, n⟩) (readDivision ⟨x', n⟩) :=
  Rel.ofBlind h.text fun a a' y y' h1 h2 => by
    obtain ⟨l, a1, _⟩ := readDivision_inv h1
    obtain ⟨l', a2, _⟩ := readDivision_inv h2
    exact Took.step h a1 a2

theorem readTpid_took {x x' : Text} {n : Int} (h : SameLines x x') :
    Rel (fun a b y y' => a = b ∧ Took x x' y y') (readTpid ⟨x, n⟩) (readTpid ⟨x', n⟩) :=
  Rel.ofBlind h.text fun a a' y y' h1 h2 => by
    obtain ⟨l, a1, _⟩ := readTpid_line.inv h1
    obtain ⟨l', a2, _⟩ := readTpid_line.inv h2
    exact Took.step h a1 a2

theorem length_lt_of_division {s s' : St} {d : Division} (h : readDivision s = .ok (d, s')) : s'.rest.length < s.rest.length := by
  obtain ⟨l, a, _⟩ := readDivision_inv h
  exact a.length_lt

/-! ### sections -/

theorem findEnd_took : ∀ {fuel fuel' : Nat} {x x' : Text} {n : Int}, x.length < fuel → x'.length < fuel' → SameLines x x' →
    Rel (fun _ _ y y' => Took x x' y y') (findEnd fuel ⟨x, n⟩) (findEnd fuel' ⟨x', n⟩)
  | 0, _, _, _, _, h, _, _ => by omega
  | _ + 1, 0, _, _, _, _, h, _ => by omega
  | fuel + 1, fuel' + 1, x, x', n, h, h', hx => by
    rw [findEnd, findEnd]
    refine Rel.bind (skip_took hx) ?_
    rintro t t' y y' m e1 e2 ⟨rfl, hy⟩
    split
    · simp only [Parser.bind_run, Parser.get_run]
      have hn := hy.rest.nil_iff
      by_cases h0 : y = []
      · rw [if_pos h0, if_pos (hn.mp h0)]; exact rfl
      · rw [if_neg h0, if_neg (fun h => h0 (hn.mpr h))]
        obtain ⟨l, a1, _⟩ := skip_inv e1
        obtain ⟨l', a2, _⟩ := skip_inv e2
        have := a1.length_lt
        have := a2.length_lt
        simp only at *
        exact (findEnd_took (n := m) (by omega) (by omega) hy.rest).mono fun _ _ _ _ k => hy.trans k
    · exact ⟨rfl, hy⟩

/-- Two sections with the same numbers, and contents that agree in columns 1-75. -/
structure SameTSection (s s' : TSection) : Prop where
  mat : s.mat = s'.mat
  mf : s.mf = s'.mf
  mt : s.mt = s'.mt
  content : SameBlock s.content s'.content

/-- `b` begins with the line `d`, behind which `x` follows. -/
def DivAt (d : Division) (b x : Text) : Prop := ∃ l, At l b x ∧ DivLine d l

theorem DivAt.took {d : Division} {b b' x x' : Text} (h : SameLines b b') (a : DivAt d b x) (a' : DivAt d b' x') : Took b b' x x' := by
  obtain ⟨l, a, _⟩ := a
  obtain ⟨l', a', _⟩ := a'
  exact Took.step h a a'

theorem DivAt.length {d : Division} {b x : Text} (a : DivAt d b x) : x.length < b.length := by
  obtain ⟨l, a, _⟩ := a
  exact a.length_lt

theorem readDivision_at' {x x' : Text} {n : Int} (h : SameLines x x') :
    Rel (fun a b y y' => a = b ∧ DivAt a x y ∧ DivAt a x' y') (readDivision ⟨x, n⟩) (readDivision ⟨x', n⟩) := by
  have h1 := (inferInstance : Blind readDivision).run x x' n h.text
  rcases h1.elim with ⟨e, e1, e2⟩ | ⟨d, y, y', m, e1, e2, _⟩
  · rw [e1, e2]; exact rfl
  · rw [e1, e2]
    obtain ⟨l, a1, a2, _⟩ := readDivision_inv e1
    obtain ⟨l', b1, b2, _⟩ := readDivision_inv e2
    exact ⟨rfl, rfl, ⟨l, a1, a2⟩, l', b1, b2⟩

/-- The constructor of an element of the tree. -/
def ItemTook {α : Type} (V : α → α → Prop) (item : Nums → Text → Parser α) : Prop :=
  ∀ (d : Division) {b b' x x' : Text} {n : Int}, SameLines b b' → DivAt d b x → DivAt d b' x' → d.isHead = true →
    Rel (fun a a' y y' => (y ≠ [] → V a a') ∧ Took b b' y y' ∧ y.length < b.length ∧ y'.length < b'.length) (item d.tail b ⟨x, n⟩) (item d.tail b' ⟨x', n⟩)

theorem Took.length {b b' r r' : Text} (h : Took b b' r r') : r.length ≤ b.length ∧ r'.length ≤ b'.length := by
  obtain ⟨_, c, c', rfl, rfl, _⟩ := h
  simp

theorem readTSection_took : ItemTook SameTSection readTSection := by
  intro d b b' x x' n hs a a' hh
  have hb := DivAt.took hs a a'
  have l1 := a.length
  have l2 := a'.length
  unfold readTSection
  refine Rel.mapErr ?_
  simp only [Parser.bind_run, Parser.get_run]
  have := Rel.bind (f := fun _ => do
      let s' ← Parser.get
      pure ⟨d.tail.mat, d.tail.mf, d.tail.mt, b.take (b.length - s'.rest.length)⟩)
    (f' := fun _ => do
      let s' ← Parser.get
      pure ⟨d.tail.mat, d.tail.mf, d.tail.mt, b'.take (b'.length - s'.rest.length)⟩)
    (V := fun (a a' : TSection) y y' => (y ≠ [] → SameTSection a a') ∧ Took b b' y y' ∧ y.length < b.length ∧ y'.length < b'.length)
    (findEnd_took (fuel := x.length + 1) (fuel' := x'.length + 1) (n := n) (by omega) (by omega) hb.rest) (fun _ _ y y' m _ _ hy => by
      have k := hb.trans hy
      have := hy.length
      exact ⟨rfl, fun h0 => ⟨rfl, rfl, rfl, k.content.2 h0⟩, k, show y.length < _ by omega, show y'.length < _ by omega⟩)
  exact this

/-! ### the indexing loops -/

/-- Two maps with the same keys in the same order. -/
def SameMap {α : Type} (V : α → α → Prop) (m m' : SMap α) : Prop := All2 (fun e e' => e.1 = e'.1 ∧ V e.2 e'.2) m m'

namespace SameMap
omit [Disco]
variable {α : Type} {V : α → α → Prop} {m m' : SMap α}

theorem has (h : SameMap V m m') (k : Int) : m.has k = m'.has k := by
  induction h with
  | nil => rfl
  | cons h1 _ ih =>
    unfold SMap.has at ih ⊢
    rw [List.any_cons, List.any_cons, h1.1, ih]

theorem emplaceMulti (h : SameMap V m m') (k : Int) {v v' : α} (hv : V v v') : SameMap V (SMap.emplaceMulti k v m) (SMap.emplaceMulti k v' m') := by
  induction h with
  | nil => exact .cons ⟨rfl, hv⟩ .nil
  | cons h1 h2 ih =>
    rw [SMap.emplaceMulti, SMap.emplaceMulti, h1.1]
    split
    · exact .cons ⟨rfl, hv⟩ (.cons h1 h2)
    · exact .cons h1 ih

theorem emplace (h : SameMap V m m') (k : Int) {v v' : α} (hv : V v v') : SameMap V (m.emplace k v) (m'.emplace k v') := by
  unfold SMap.emplace
  rw [h.has k]
  split
  · exact h
  · exact h.emplaceMulti k hv

theorem keys (h : SameMap V m m') : m.keys = m'.keys := by
  induction h with
  | nil => rfl
  | cons h1 _ ih => unfold SMap.keys at ih ⊢; rw [List.map_cons, List.map_cons, h1.1, ih]

theorem values (h : SameMap V m m') : All2 V m.values m'.values := by
  induction h with
  | nil => exact .nil
  | cons h1 _ ih => exact .cons h1.2 ih

theorem get? (h : SameMap V m m') (k : Int) : (m.get? k = none ∧ m'.get? k = none) ∨ ∃ v v', m.get? k = some v ∧ m'.get? k = some v' ∧ V v v' := by
  induction h with
  | nil => exact .inl ⟨rfl, rfl⟩
  | @cons e e' as bs h1 _ ih =>
    unfold SMap.get? at ih ⊢
    rw [List.find?_cons, List.find?_cons, h1.1]
    cases hk : e'.1 == k with
    | true => exact .inr ⟨_, _, rfl, rfl, h1.2⟩
    | false => exact ih
end SameMap

theorem skipWhile_took {p : Division → Bool} : ∀ {fuel fuel' : Nat} {b b' x x' : Text} {d : Division} {n : Int}, x.length < fuel → x'.length < fuel' →
    SameLines b b' → DivAt d b x → DivAt d b' x' →
    Rel (fun q q' y y' => q.2 = q'.2 ∧ Took b b' q.1 q'.1 ∧ DivAt q.2 q.1 y ∧ DivAt q.2 q'.1 y')
      (skipWhile p fuel b d ⟨x, n⟩) (skipWhile p fuel' b' d ⟨x', n⟩)
  | 0, _, _, _, _, _, _, _, h, _, _, _, _ => by omega
  | _ + 1, 0, _, _, _, _, _, _, _, h, _, _, _ => by omega
  | fuel + 1, fuel' + 1, b, b', x, x', d, n, h, h', hs, a, a' => by
    have hx := DivAt.took hs a a'
    rw [skipWhile, skipWhile]
    split
    · simp only [Parser.bind_run (p := Parser.get), Parser.get_run]
      refine Rel.bind (readDivision_at' hx.rest) ?_
      rintro d1 d1' y y' m e1 e2 ⟨rfl, c1, c2⟩
      have l1 := c1.length
      have l2 := c2.length
      have hy := DivAt.took hx.rest c1 c2
      simp only [Parser.bind_run (p := Parser.get), Parser.get_run]
      have hn := hy.rest.nil_iff
      by_cases h0 : y = []
      · rw [if_pos h0, if_pos (hn.mp h0)]; exact ⟨rfl, rfl, hx, c1, c2⟩
      · rw [if_neg h0, if_neg (fun h => h0 (hn.mpr h))]
        refine (skipWhile_took (b := x) (b' := x') (d := d1) (n := m) (by omega) (by omega) hx.rest c1 c2).mono ?_
        rintro q q' z z' ⟨k1, k2, k3, k4⟩
        exact ⟨k1, hx.trans k2, k3, k4⟩
    · exact ⟨rfl, rfl, .refl hs, a, a'⟩

section
variable {α : Type} {V : α → α → Prop} {mine isEnd isFinal : Division → Bool} {key : Division → Int} {item : Nums → Text → Parser α}

theorem createLoop_took (hi : ItemTook V item) : ∀ {fuel fuel' : Nat} {b b' x x' : Text} {d : Division} {m m' : SMap α} {n : Int},
    b.length < fuel → b'.length < fuel' → SameLines b b' → DivAt d b x → DivAt d b' x' → SameMap V m m' →
    Rel (fun q q' y y' => q.2.1 = q'.2.1 ∧ SameMap V q.2.2 q'.2.2 ∧ Took b b' q.1 q'.1 ∧ Took q.1 q'.1 y y' ∧
        ((d.isHead && mine d) = true → q.1.length < b.length ∧ q'.1.length < b'.length))
      (createLoop mine key item isEnd fuel b d m ⟨x, n⟩) (createLoop mine key item isEnd fuel' b' d m' ⟨x', n⟩)
  | 0, _, _, _, _, _, _, _, _, _, h, _, _, _, _, _ => by omega
  | _ + 1, 0, _, _, _, _, _, _, _, _, _, h, _, _, _, _ => by omega
  | fuel + 1, fuel' + 1, b, b', x, x', d, m, m', n, h, h', hs, a, a', hm => by
    rw [createLoop, createLoop]
    split
    · rename_i hd
      rw [hm.has]
      split
      · exact rfl
      refine Rel.bind (hi d hs a a' (by simp at hd; exact hd.1)) ?_
      rintro v v' y y' k e1 e2 ⟨hv, hy, g1, g2⟩
      simp only [Parser.bind_run (p := Parser.get), Parser.get_run]
      have hn := hy.rest.nil_iff
      by_cases h0 : y = []
      · rw [if_pos h0, if_pos (hn.mp h0)]; exact rfl
      rw [if_neg h0, if_neg (fun h => h0 (hn.mpr h))]
      refine Rel.bind (readDivision_at' hy.rest) ?_
      rintro d1 d1' z z' j f1 f2 ⟨rfl, c1, c2⟩
      simp only [Parser.bind_run (p := Parser.get), Parser.get_run]
      refine Rel.bind (skipWhile_took (b := y) (b' := y') (x := z) (x' := z') (d := d1) (by omega) (by omega) hy.rest c1 c2) ?_
      rintro ⟨q, dq⟩ ⟨q', dq'⟩ w w' i _ _ ⟨k1, k2, k3, k4⟩
      simp only at k1 k2 k3 k4
      subst k1
      have := k2.length
      refine (createLoop_took hi (b := q) (b' := q') (d := dq) (n := i) (by omega) (by omega) k2.rest k3 k4 (hm.emplace _ (hv h0))).mono ?_
      rintro r r' u u' ⟨a1, a2, a3, a4, _⟩
      have := a3.length
      exact ⟨a1, a2, (hy.trans k2).trans a3, a4, fun _ => ⟨by omega, by omega⟩⟩
    · rename_i hd
      exact ⟨rfl, rfl, hm, .refl hs, DivAt.took hs a a', fun h => absurd h hd⟩

theorem createMap_took (hi : ItemTook V item) {b b' x x' : Text} {d : Division} {n : Int} (hs : SameLines b b') (a : DivAt d b x) (a' : DivAt d b' x')
    (hd : (d.isHead && mine d) = true) (y0 y0' : Text) :
    Rel (fun m m' y y' => SameMap V m m' ∧ Took b b' y y' ∧ y.length < b.length ∧ y'.length < b'.length)
      (createMap mine key item isEnd isFinal b ⟨y0, n⟩) (createMap mine key item isEnd isFinal b' ⟨y0', n⟩) := by
  unfold createMap
  simp only [Parser.bind_run (p := Parser.get), Parser.get_run, Parser.bind_run (p := Parser.set _), Parser.set_run]
  refine Rel.bind (readDivision_at' hs) ?_
  rintro d1 d1' z z' j f1 f2 ⟨rfl, c1, c2⟩
  have e : d1 = d := by
    obtain ⟨l, h1, h2⟩ := c1
    obtain ⟨l', h3, h4⟩ := a
    obtain ⟨rfl, _⟩ := h1.unique h3
    exact h2.unique h4
  subst e
  refine Rel.bind (createLoop_took hi (m := []) (m' := []) (by omega) (by omega) hs c1 c2 .nil) ?_
  rintro ⟨q, dq, m⟩ ⟨q', dq', m'⟩ w w' i _ _ ⟨k1, k2, k3, k4, k5⟩
  simp only at k1 k2 k3 k4 k5
  subst k1
  have := k5 hd
  have := k4.length
  simp only [Parser.bind_run (p := Parser.get), Parser.get_run]
  split
  · exact ⟨rfl, k2, k3.trans k4, show w.length < _ by omega, show w'.length < _ by omega⟩
  · exact ⟨rfl, k2, k3, show q.length < _ by omega, show q'.length < _ by omega⟩
end

/-- Two files of the tree with the same numbers, and with the same sections in the same order. -/
structure SameTFile (f f' : TFile) : Prop where
  mat : f.mat = f'.mat
  mf : f.mf = f'.mf
  fits : fits 4 f.mat
  sections : SameMap SameTSection f.sections f'.sections

/-- Two materials of the tree with the same number, and with the same files in the same order. -/
structure SameTMaterial (m m' : TMaterial) : Prop where
  mat : m.mat = m'.mat
  files : SameMap SameTFile m.files m'.files

/-- Two tapes of the tree with the same identification, and with the same materials in the same order. -/
structure SameTTape (t t' : TTape) : Prop where
  tpid : ∃ id, t.tpid = some id ∧ t'.tpid = some id ∧ id.text.length = 66 ∧ '\n' ∉ id.text
  materials : SameMap SameTMaterial t.materials t'.materials

theorem readTFile_took : ItemTook SameTFile readTFile := by
  intro d b b' x x' n hs a a' hh
  unfold readTFile
  refine Rel.mapErr (Rel.bind (createMap_took readTSection_took hs a a' (by simp [hh]) x x') ?_)
  rintro m m' y y' k _ _ ⟨h1, h2, h3, h4⟩
  obtain ⟨l, _, hl⟩ := a
  exact ⟨rfl, fun _ => ⟨rfl, rfl, fits_of_parse (cols_length 67 70 l) hl.1.2.1.1, h1⟩, h2, h3, h4⟩

theorem readTMaterial_took : ItemTook SameTMaterial readTMaterial := by
  intro d b b' x x' n hs a a' hh
  unfold readTMaterial
  refine Rel.mapErr (Rel.bind (createMap_took readTFile_took hs a a' (by simp [hh]) x x') ?_)
  rintro m m' y y' k _ _ ⟨h1, h2, h3, h4⟩
  exact ⟨rfl, fun _ => ⟨rfl, h1⟩, h2, h3, h4⟩

theorem tapeLoop_took : ∀ {fuel fuel' : Nat} {b b' x x' : Text} {d : Division} {m m' : SMap TMaterial} {n : Int},
    b.length < fuel → b'.length < fuel' → SameLines b b' → DivAt d b x → DivAt d b' x' → SameMap SameTMaterial m m' →
    Rel (fun q q' y y' => SameMap SameTMaterial q q') (tapeLoop fuel b d m ⟨x, n⟩) (tapeLoop fuel' b' d m' ⟨x', n⟩)
  | 0, _, _, _, _, _, _, _, _, _, h, _, _, _, _, _ => by omega
  | _ + 1, 0, _, _, _, _, _, _, _, _, _, h, _, _, _, _ => by omega
  | fuel + 1, fuel' + 1, b, b', x, x', d, m, m', n, h, h', hs, a, a', hm => by
    rw [tapeLoop, tapeLoop]
    split
    · rename_i hd
      refine Rel.bind (readTMaterial_took d hs a a' hd) ?_
      rintro v v' y y' k e1 e2 ⟨hv, hy, g1, g2⟩
      simp only [Parser.bind_run (p := Parser.get), Parser.get_run]
      by_cases h0 : y = []
      · have h0' := hy.rest.nil_iff.mp h0
        subst h0 h0'
        have hE : ∃ e, readDivision ⟨[], k⟩ = .error e := by
          cases hq : readDivision ⟨[], k⟩ with
          | error e => exact ⟨e, rfl⟩
          | ok q => exact absurd (length_lt_of_division hq) (by simp)
        obtain ⟨e, he⟩ := hE
        rw [Parser.bind_err he, Parser.bind_err he]
        exact rfl
      refine Rel.bind (readDivision_at' hy.rest) ?_
      rintro d1 d1' z z' j f1 f2 ⟨rfl, c1, c2⟩
      simp only [Parser.bind_run (p := Parser.get), Parser.get_run]
      refine Rel.bind (skipWhile_took (b := y) (b' := y') (x := z) (x' := z') (d := d1) (by omega) (by omega) hy.rest c1 c2) ?_
      rintro ⟨q, dq⟩ ⟨q', dq'⟩ w w' i _ _ ⟨k1, k2, k3, k4⟩
      simp only at k1 k2 k3 k4
      subst k1
      have := k2.length
      exact tapeLoop_took (b := q) (b' := q') (d := dq) (n := i) (by omega) (by omega) k2.rest k3 k4 (hm.emplaceMulti _ (hv h0))
    · split
      · exact ⟨rfl, hm⟩
      · exact rfl

theorem readTTape_took {x x' : Text} {n : Int} (h : SameLines x x') : Rel (fun t t' _ _ => SameTTape t t') (readTTape ⟨x, n⟩) (readTTape ⟨x', n⟩) := by
  unfold readTTape
  refine Rel.mapErr (Rel.bind (readTpid_took h) ?_)
  rintro id id' y y' m e0 _ ⟨rfl, hy⟩
  have hid : id.text.length = 66 ∧ '\n' ∉ id.text := by
    obtain ⟨l, h1, h2, _⟩ := readTpid_line.inv e0
    cases h3 : opt (tailOpt (l.drop 66)) with
    | error e => simp [h3, Except.bind] at h2
    | ok t =>
      simp only [h3, Except.bind] at h2
      split at h2
      · cases h2
      split at h2
      · cases h2
      cases h2
      refine ⟨padded_length 66 l, ?_⟩
      simp only [padded, List.mem_append, not_or]
      exact ⟨fun h => h1.1 (List.mem_of_mem_take h), by simp [blanks]⟩
  simp only [Parser.bind_run (p := Parser.get), Parser.get_run]
  refine Rel.bind (readDivision_at' hy.rest) ?_
  rintro d d' z z' j f1 f2 ⟨rfl, c1, c2⟩
  refine Rel.bind (tapeLoop_took (m := []) (m' := []) (by omega) (by omega) hy.rest c1 c2 .nil) ?_
  rintro q q' w w' i _ _ hq
  exact ⟨rfl, ⟨id, rfl, rfl, hid⟩, hq⟩

/-! ### contents -/

/-- The outcomes are the same exception, or texts that agree. -/
def SameOut : Except Err Text → Except Err Text → Prop
  | .ok c, .ok c' => SameBlock c c'
  | .error e, .error e' => e = e'
  | _, _ => False

theorem SameLine.canonical {t : Nums} {l : Text} (h : CanonicalLine t l) : SameLine l l := by
  have hn : ∃ v, parseInt ((l.drop 75).take 5) = some v := by
    have := h.2.2.2
    exact ⟨0, (congrArg parseInt (show (l.drop 75).take 5 = blanks 5 from this)).trans (Disco.parseInt_blank 5)⟩
  exact ⟨h.2.1, h.2.1, by rw [h.1]; omega, by rw [h.1]; omega, rfl, hn, hn⟩

theorem SameBlock.canonical {t : Nums} {l : Text} (h : CanonicalLine t l) : SameBlock (unlines [l]) (unlines [l]) := by
  have : SameBlock (l ++ '\n' :: []) (l ++ '\n' :: []) := .line (SameLine.canonical h) .nil
  simpa using this

theorem SameBlock.division {t : Nums} (ht : t.Fit) (hh : (Division.mk zeroCont t).isHead = false) :
    SameBlock (Division.mk zeroCont t).print (Division.mk zeroCont t).print := by
  rw [printEnd_eq ht hh]
  exact SameBlock.canonical (endRecord_canonical ht)

theorem SameTFile.content {f f' : TFile} (h : SameTFile f f') : SameOut f.content f'.content := by
  have hc : SameBlock (f.sections'.flatMap (·.content)) (f'.sections'.flatMap (·.content)) := by
    unfold TFile.sections'
    have : ∀ {as bs : List TSection}, All2 SameTSection as bs → SameBlock (as.flatMap (·.content)) (bs.flatMap (·.content)) := by
      intro as bs hv
      induction hv with
      | nil => exact .nil
      | cons h1 _ ih => simpa using h1.content.append ih
    exact this h.sections.values
  have hn := hc.nil_iff
  unfold TFile.content
  simp only [ne_eq, List.length_eq_zero_iff]
  rw [← h.mat]
  by_cases h0 : f.sections'.flatMap (·.content) = []
  · rw [if_neg (by simp [h0]), if_neg (by simp [hn.mp h0])]
    exact hc
  · rw [if_pos h0, if_pos (fun h => h0 (hn.mpr h))]
    unfold FEND
    by_cases hm : f.mat < 1
    · rw [if_pos hm]; exact rfl
    · rw [if_neg hm]; exact hc.append (SameBlock.division ⟨h.fits, fits_zero 1, fits_zero 2⟩ (by simp [Division.isHead]))

theorem SameOut.concat {as as' : List (Except Err Text)} (h : All2 SameOut as as') : SameOut (TMaterial.concat as) (TMaterial.concat as') := by
  induction h with
  | nil => exact .nil
  | @cons a b as bs h1 _ ih =>
    cases a with
    | error e =>
      cases b with
      | error e' => exact h1
      | ok c => exact False.elim h1
    | ok c =>
      cases b with
      | error e' => exact False.elim h1
      | ok c' =>
        rw [TMaterial.concat, TMaterial.concat]
        cases hx : TMaterial.concat as with
        | error e =>
          rw [hx] at ih
          cases hy : TMaterial.concat bs with
          | error e' => rw [hy] at ih; exact ih
          | ok u => rw [hy] at ih; exact False.elim ih
        | ok t =>
          rw [hx] at ih
          cases hy : TMaterial.concat bs with
          | error e' => rw [hy] at ih; exact False.elim ih
          | ok u => rw [hy] at ih; exact SameBlock.append (show SameBlock c c' from h1) ih

omit [Disco] in
theorem All2.map {α β γ δ : Type} {R : α → β → Prop} {S : γ → δ → Prop} {f : α → γ} {g : β → δ} {as : List α} {bs : List β} (h : All2 R as bs)
    (hf : ∀ a b, R a b → S (f a) (g b)) : All2 S (as.map f) (bs.map g) := by
  induction h with
  | nil => exact .nil
  | cons h1 _ ih => exact .cons (hf _ _ h1) ih

theorem SameTMaterial.content {m m' : TMaterial} (h : SameTMaterial m m') : SameOut m.content m'.content := by
  have hc := SameOut.concat (h.files.values.map (f := TFile.content) (g := TFile.content) fun _ _ k => k.content)
  unfold TMaterial.content TMaterial.files'
  cases hx : TMaterial.concat (m.files.values.map TFile.content) with
  | error e =>
    rw [hx] at hc
    cases hy : TMaterial.concat (m'.files.values.map TFile.content) with
    | error e' => rw [hy] at hc; exact hc
    | ok u => rw [hy] at hc; exact False.elim hc
  | ok c =>
    rw [hx] at hc
    cases hy : TMaterial.concat (m'.files.values.map TFile.content) with
    | error e' => rw [hy] at hc; exact False.elim hc
    | ok c' =>
      rw [hy] at hc
      have hc : SameBlock c c' := hc
      have hn := hc.nil_iff
      simp only [ne_eq, List.length_eq_zero_iff]
      by_cases h0 : c = []
      · rw [if_neg (by simp [h0]), if_neg (by simp [hn.mp h0])]; exact hc
      · rw [if_pos h0, if_pos (fun h => h0 (hn.mpr h))]
        exact hc.append (SameBlock.division (t := ⟨0, 0, 0⟩) ⟨fits_zero 3, fits_zero 1, fits_zero 2⟩ (by simp [Division.isHead]))

theorem SameTTape.content {t t' : TTape} (h : SameTTape t t') : SameOut t.content t'.content := by
  have hc := SameOut.concat (h.materials.values.map (f := TMaterial.content) (g := TMaterial.content) fun _ _ k => k.content)
  obtain ⟨id, e1, e2, hid1, hid2⟩ := h.tpid
  unfold TTape.content TTape.materials'
  rw [e1, e2]
  have hp : SameBlock (printTpid id ⟨0, 0, 0⟩) (printTpid id ⟨0, 0, 0⟩) := by
    have : printTpid id ⟨0, 0, 0⟩ = unlines [id.text ++ tailCols ⟨0, 0, 0⟩] := by
      rw [printTpid, writeChars_full hid1, tailText_eq]; simp
    rw [this]
    exact SameBlock.canonical (canonical_line ⟨fits_zero 3, fits_zero 1, fits_zero 2⟩ hid1 hid2)
  cases hx : TMaterial.concat (t.materials.values.map TMaterial.content) with
  | error e =>
    rw [hx] at hc
    cases hy : TMaterial.concat (t'.materials.values.map TMaterial.content) with
    | error e' => rw [hy] at hc; exact hc
    | ok u => rw [hy] at hc; exact False.elim hc
  | ok c =>
    rw [hx] at hc
    cases hy : TMaterial.concat (t'.materials.values.map TMaterial.content) with
    | error e' => rw [hy] at hc; exact False.elim hc
    | ok c' =>
      rw [hy] at hc
      have hc := hp.append (show SameBlock c c' from hc)
      have hn := hc.nil_iff
      simp only [ne_eq, List.length_eq_zero_iff]
      by_cases h0 : printTpid id ⟨0, 0, 0⟩ ++ c = []
      · rw [if_neg (by simpa using h0), if_neg (by simpa using hn.mp h0)]; exact hc
      · rw [if_pos h0, if_pos (fun h => h0 (hn.mpr h))]
        exact hc.append (SameBlock.division (t := ⟨-1, 0, 0⟩) ⟨by decide, fits_zero 1, fits_zero 2⟩ (by simp [Division.isHead]))

/-! ### cleaning -/

theorem cleanLoop_same (t : Nums) : ∀ (n : Nat) {x x' : Text} {k : Int} {out : Text}, SameText x x' →
    TSection.cleanLoop t n ⟨x, k⟩ out = TSection.cleanLoop t n ⟨x', k⟩ out
  | 0, _, _, _, _, _ => rfl
  | n + 1, x, x', k, out, h => by
    rw [TSection.cleanLoop, TSection.cleanLoop]
    rcases ((inferInstance : Blind (readText t)).run x x' k h).elim with ⟨e, e1, e2⟩ | ⟨a, y, y', m, e1, e2, hy⟩
    · rw [e1, e2]
    · rw [e1, e2]
      exact cleanLoop_same t n hy

theorem SameTSection.clean {s s' : TSection} (h : SameTSection s s') : s.clean = s'.clean := by
  have hn : s.nc = s'.nc := by
    have := h.content.count
    unfold TSection.nc
    rw [this]
  unfold TSection.clean
  rw [← hn, ← h.mat, ← h.mf, ← h.mt, cleanLoop_same _ _ h.content.lines.text]

/-- Cleaning all elements has the same outcome; if it succeeds, the elements are identical. -/
theorem SameMap.forEach {α : Type} {V : α → α → Prop} {f : α → Except Err Unit × α}
    (hf : ∀ v v', V v v' → (f v).1 = (f v').1 ∧ ((f v).1 = .ok () → (f v).2 = (f v').2)) {m m' : SMap α} (h : SameMap V m m') :
    (m.forEach f).1 = (m'.forEach f).1 ∧ ((m.forEach f).1 = .ok () → (m.forEach f).2 = (m'.forEach f).2) := by
  induction h with
  | nil => exact ⟨rfl, fun _ => rfl⟩
  | @cons e e' as bs h1 _ ih =>
    obtain ⟨k, v⟩ := e
    obtain ⟨k', v'⟩ := e'
    obtain ⟨h0, h1⟩ := h1
    simp only at h0 h1
    subst h0
    have h2 := hf v v' h1
    rw [SMap.forEach, SMap.forEach]
    generalize f v = q at h2
    generalize f v' = q' at h2
    obtain ⟨r, w⟩ := q
    obtain ⟨r', w'⟩ := q'
    obtain ⟨h2, h3⟩ := h2
    simp only at h2 h3
    subst h2
    cases r with
    | error e => exact ⟨rfl, fun h => by cases h⟩
    | ok u =>
      have := h3 rfl
      subst this
      simp only
      exact ⟨ih.1, fun h => by rw [ih.2 h]⟩

theorem SameTFile.clean {f f' : TFile} (h : SameTFile f f') : f.clean.1 = f'.clean.1 ∧ (f.clean.1 = .ok () → f.clean.2 = f'.clean.2) := by
  have k := h.sections.forEach (f := TSection.clean) (fun v v' hv => by rw [hv.clean]; exact ⟨rfl, fun _ => rfl⟩)
  refine ⟨k.1, fun h0 => ?_⟩
  have := k.2 h0
  cases f; cases f'
  have h1 := h.mat
  have h2 := h.mf
  simp only at h1 h2
  subst h1 h2
  simp only [TFile.clean] at this ⊢
  rw [this]

theorem SameTMaterial.clean {f f' : TMaterial} (h : SameTMaterial f f') : f.clean.1 = f'.clean.1 ∧ (f.clean.1 = .ok () → f.clean.2 = f'.clean.2) := by
  have k := h.files.forEach (f := TFile.clean) (fun v v' hv => hv.clean)
  refine ⟨k.1, fun h0 => ?_⟩
  have := k.2 h0
  cases f; cases f'
  have h1 := h.mat
  simp only at h1
  subst h1
  simp only [TMaterial.clean] at this ⊢
  rw [this]

theorem SameTTape.clean {f f' : TTape} (h : SameTTape f f') : f.clean.1 = f'.clean.1 ∧ (f.clean.1 = .ok () → f.clean.2 = f'.clean.2) := by
  have k := h.materials.forEach (f := TMaterial.clean) (fun v v' hv => hv.clean)
  refine ⟨k.1, fun h0 => ?_⟩
  have := k.2 h0
  cases f; cases f'
  obtain ⟨id, h1, h2, _⟩ := h.tpid
  simp only at h1 h2
  subst h1 h2
  simp only [TTape.clean] at this ⊢
  rw [this]

end ENDFtk

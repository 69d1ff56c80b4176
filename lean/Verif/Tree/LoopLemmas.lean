import Verif.Tree.LineFacts
/-
  The indexing loop: what it does on a well laid out text, and what a text on which it succeeds looks like.
-/
set_option linter.unusedVariables false
set_option linter.unusedSectionVars false
set_option linter.unusedSimpArgs false
namespace ENDFtk
variable [Disco]

/-- An element of the loop: its HEAD line, the other lines it consumes, redundant end records, and its value. -/
structure Item (α : Type) where
  head : DLine
  body : List Text
  extra : List DLine
  val : α

def Item.core {α : Type} (it : Item α) : List Text := it.head.text :: it.body
def Item.lines {α : Type} (it : Item α) : List Text := it.core ++ it.extra.map DLine.text

variable {α : Type} (mine : Division → Bool) (key : Division → Int) (item : Nums → Text → Parser α) (isEnd : Division → Bool)

/-- The map after adding the items. -/
def addItems (m : SMap α) (its : List (Item α)) : SMap α := its.foldl (fun m it => m.emplace (key it.head.div) it.val) m

/-- All lines of the items, then `g`. -/
def itemsText (its : List (Item α)) (g : Text) : Text := unlines (its.flatMap Item.lines) ++ g

/-- The items can be read one after the other. -/
def Good : List (Item α) → Text → Prop
  | [], _ => True
  | it :: its, g =>
      DivLine it.head.div it.head.text ∧ it.head.div.isHead = true ∧ mine it.head.div = true ∧
      (∀ l ∈ it.extra, DivLine l.div l.text ∧ isEnd l.div = true) ∧
      (∀ n, ∃ m, item it.head.div.tail (unlines it.core ++ (unlines (it.extra.map DLine.text) ++ itemsText its g))
        ⟨unlines it.body ++ (unlines (it.extra.map DLine.text) ++ itemsText its g), n⟩ =
          .ok (it.val, ⟨unlines (it.extra.map DLine.text) ++ itemsText its g, m⟩)) ∧
      Good its g

omit [Disco] in
theorem SMap.has_emplaceMulti {β : Type} (m : SMap β) (k k' : Int) (v : β) :
    (SMap.emplaceMulti k v m).has k' = (k == k' || m.has k') := by
  induction m with
  | nil => simp [SMap.emplaceMulti, SMap.has]
  | cons e m ih =>
    simp only [SMap.emplaceMulti]
    split
    · simp [SMap.has]
    · simp only [SMap.has, List.any_cons] at ih ⊢
      rw [ih]
      cases (k == k') <;> cases (e.1 == k') <;> simp

omit [Disco] in
theorem SMap.has_emplace {β : Type} (m : SMap β) (k k' : Int) (v : β) :
    (m.emplace k v).has k' = (k == k' || m.has k') := by
  unfold SMap.emplace
  split
  · rename_i h
    by_cases hk : k = k'
    · subst hk; simp [h]
    · have : (k == k') = false := by simpa using hk
      simp [this]
  · exact SMap.has_emplaceMulti m k k' v

/-- The first line of the text of the items. -/
def firstLine (its : List (Item α)) (f : DLine) : DLine :=
  match its with
  | [] => f
  | it :: _ => it.head

/-- The text after the first line. -/
def afterFirst (its : List (Item α)) (g r : Text) : Text :=
  match its with
  | [] => r
  | it :: its => unlines it.body ++ (unlines (it.extra.map DLine.text) ++ itemsText its g)

theorem itemsText_first {its : List (Item α)} {f : DLine} {g r : Text} (hg : At f.text g r)
    (hits : ∀ it ∈ its, DivLine it.head.div it.head.text) :
    At (firstLine its f).text (itemsText its g) (afterFirst its g r) := by
  cases its with
  | nil => simpa [itemsText, firstLine, afterFirst] using hg
  | cons it its =>
    simp only [itemsText, firstLine, afterFirst, Item.lines, Item.core, List.flatMap_cons, unlines_append, unlines_cons, List.append_assoc,
      List.cons_append]
    exact At.nl (hits it (by simp)).1.1

theorem Good.heads {its : List (Item α)} {g : Text} (h : Good mine item isEnd its g) : ∀ it ∈ its, DivLine it.head.div it.head.text := by
  induction its with
  | nil => simp
  | cons i is ih =>
    intro it hit
    rcases List.mem_cons.mp hit with rfl | hit
    · exact h.1
    · exact ih h.2.2.2.2.2 it hit

theorem createLoop_run (hEnd : ∀ d : Division, d.isHead = true → isEnd d = false) {f : DLine} {g r : Text} (hf : DivLine f.div f.text)
    (hat : At f.text g r) (hfe : isEnd f.div = false) :
    ∀ (its : List (Item α)) (m : SMap α) (fuel : Nat) (n : Int), Good mine item isEnd its g →
    (its.map (fun it => key it.head.div)).Nodup → (∀ it ∈ its, m.has (key it.head.div) = false) →
    ∃ n', createLoop mine key item isEnd (fuel + its.length) (itemsText its g) (firstLine its f).div m
        ⟨afterFirst its g r, n⟩ =
      createLoop mine key item isEnd fuel g f.div (addItems key m its) ⟨r, n'⟩ := by
  intro its
  induction its with
  | nil => intro m fuel n _ _ _; exact ⟨n, by simp [itemsText, firstLine, afterFirst, addItems]⟩
  | cons it its ih =>
    intro m fuel n hg hnd hm
    obtain ⟨g1, g2, g3, g4, g5, g6⟩ := hg
    obtain ⟨n1, hn1⟩ := g5 n
    have hdiv : DivLine (firstLine its f).div (firstLine its f).text ∧ isEnd (firstLine its f).div = false := by
      cases its with
      | nil => exact ⟨hf, hfe⟩
      | cons i is => exact ⟨g6.1, hEnd _ g6.2.1⟩
    have hat' := itemsText_first hat (Good.heads mine item isEnd g6)
    obtain ⟨n2, hn2⟩ := skipWhile_first (p := isEnd) hdiv.1 hat' hdiv.2 it.extra g4 n1
    simp only [List.map_cons, List.nodup_cons] at hnd
    have hm' : ∀ i ∈ its, (m.emplace (key it.head.div) it.val).has (key i.head.div) = false := by
      intro i hi
      rw [SMap.has_emplace, hm i (by simp [hi])]
      simp only [Bool.or_false, beq_eq_false_iff_ne]
      intro he
      exact hnd.1 (he ▸ List.mem_map.mpr ⟨i, hi, rfl⟩)
    obtain ⟨n3, hn3⟩ := ih (m.emplace (key it.head.div) it.val) fuel n2 g6 hnd.2 hm'
    refine ⟨n3, ?_⟩
    have e1 : itemsText (it :: its) g = unlines it.core ++ (unlines (it.extra.map DLine.text) ++ itemsText its g) := by
      simp [itemsText, Item.lines, unlines_append]
    rw [show fuel + (it :: its).length = (fuel + its.length) + 1 by simp; omega]
    simp only [firstLine, afterFirst, e1]
    rw [createLoop, if_pos (by simp [g2, g3]), if_neg (by simp [hm it (by simp)]), Parser.bind_ok hn1, Parser.bind_ok (Parser.get_run _),
      if_neg (by simp [hat'.ne_nil])]
    -- read the next division and skip the redundant end records
    simp only [Parser.bind_run] at hn2 ⊢
    simp only [Parser.get_run] at hn2 ⊢
    cases hd : readDivision ⟨unlines (it.extra.map DLine.text) ++ itemsText its g, n1⟩ with
    | error e => rw [hd] at hn2; simp at hn2
    | ok x =>
      obtain ⟨d1, s1⟩ := x
      rw [hd] at hn2
      simp only at hn2 ⊢
      rw [hn2]
      simp only
      exact hn3

theorem Good.length_le {its : List (Item α)} {g : Text} : its.length ≤ (itemsText its g).length := by
  induction its with
  | nil => simp
  | cons it its ih => simp [itemsText, Item.lines, Item.core, unlines_append] at ih ⊢; omega

/-- `createMap` on a well laid out text. -/
theorem createMap_run (isFinal : Division → Bool) (hEnd : ∀ d : Division, d.isHead = true → isEnd d = false) {f : DLine} {g r : Text}
    (hf : DivLine f.div f.text) (hat : At f.text g r) (hfe : isEnd f.div = false) (hfm : (f.div.isHead && mine f.div) = false)
    {its : List (Item α)} (hg : Good mine item isEnd its g) (hnd : (its.map (fun it => key it.head.div)).Nodup) (s : St) :
    ∃ n', createMap mine key item isEnd isFinal (itemsText its g) s =
      .ok (addItems key [] its, ⟨if isFinal f.div then r else g, n'⟩) := by
  have hfirst : DivLine (firstLine its f).div (firstLine its f).text := by
    cases its with
    | nil => exact hf
    | cons i is => exact hg.1
  have hlen := Good.length_le (its := its) (g := g)
  obtain ⟨n1, hn1⟩ := createLoop_run mine key item isEnd hEnd hf hat hfe its [] ((itemsText its g).length + 1 - its.length)
    (s.line - 1 + 1) hg hnd (by simp [SMap.has])
  rw [show (itemsText its g).length + 1 - its.length + its.length = (itemsText its g).length + 1 by omega] at hn1
  have hstop : createLoop mine key item isEnd ((itemsText its g).length + 1 - its.length) g f.div
      (addItems key [] its) ⟨r, n1⟩ = .ok ((g, f.div, addItems key [] its), ⟨r, n1⟩) := by
    obtain ⟨k, hk⟩ := Nat.exists_eq_succ_of_ne_zero (show (itemsText its g).length + 1 - its.length ≠ 0 by omega)
    rw [hk, createLoop, if_neg (by simp [hfm])]
    rfl
  rw [hstop] at hn1
  refine ⟨n1, ?_⟩
  have hd : readDivision ⟨itemsText its g, s.line - 1⟩ = .ok ((firstLine its f).div, ⟨afterFirst its g r, s.line - 1 + 1⟩) :=
    readDivision_at hfirst (itemsText_first hat (Good.heads mine item isEnd hg)) _
  rw [createMap, Parser.bind_ok (Parser.get_run _), Parser.bind_ok (Parser.set_run _ _), Parser.bind_ok hd, Parser.bind_ok hn1]
  simp only
  rw [Parser.bind_ok (Parser.get_run _)]
  by_cases h : isFinal f.div = true
  · simp [h]
  · simp only [h]
    rw [if_neg (by simp), Parser.bind_ok (Parser.set_run _ _)]
    rfl

/-! ### every text -/

/-- The items lie one after the other from `s` to `b`; `Q` relates each item to the text that follows its core. -/
inductive Chain (Q : DLine → List Text → α → Text → Prop) : List (Item α) → Text → Text → Prop
  | nil (s : Text) : Chain Q [] s s
  | cons {it : Item α} {its : List (Item α)} {s s1 s2 b : Text} (h1 : Lines it.core s s1) (h2 : s1 ≠ [])
      (h3 : Q it.head it.body it.val s1) (h4 : Lines (it.extra.map DLine.text) s1 s2) (h5 : Chain Q its s2 b) : Chain Q (it :: its) s b

theorem Chain.lines {Q : DLine → List Text → α → Text → Prop} {its : List (Item α)} {s b : Text} (h : Chain Q its s b) :
    Lines (its.flatMap Item.lines) s b := by
  induction h with
  | nil s => exact Lines.nil s
  | cons h1 h2 h3 h4 h5 ih => exact (h1.trans h4).trans ih

/-- Well formedness of the lines around the core of an item. -/
def Item.Ok (it : Item α) : Prop :=
  DivLine it.head.div it.head.text ∧ it.head.div.isHead = true ∧ mine it.head.div = true ∧
    ∀ l ∈ it.extra, DivLine l.div l.text ∧ isEnd l.div = true

/-- `P` holds if there is a result; otherwise there is an exception derived from `std::exception`. -/
def Post {β : Type} (x : Except Err β) (P : β → Prop) : Prop :=
  match x with
  | .ok b => P b
  | .error e => StdErr e

theorem createLoop_inv {Q : DLine → List Text → α → Text → Prop}
    (hitem : ∀ d l begin s, At l begin s.rest → DivLine d l → d.isHead = true → mine d = true →
      Post (item d.tail begin s) (fun x => ∃ body, Lines (l :: body) begin x.2.rest ∧ Q ⟨l, d⟩ body x.1 x.2.rest)) :
    ∀ (fuel : Nat) (begin l0 : Text) (d0 : Division) (m : SMap α) (s : St), begin.length < fuel → At l0 begin s.rest → DivLine d0 l0 →
    match createLoop mine key item isEnd fuel begin d0 m s with
    | .ok ((begin', d', m'), s') => ∃ (its : List (Item α)) (l' : Text), Chain Q its begin begin' ∧
        (∀ it ∈ its, it.Ok mine isEnd) ∧ m' = addItems key m its ∧
        (its.map (fun it => key it.head.div)).Nodup ∧ (∀ it ∈ its, m.has (key it.head.div) = false) ∧
        At l' begin' s'.rest ∧ DivLine d' l' ∧ (d'.isHead && mine d') = false ∧
        (its = [] → d' = d0) ∧ (∀ it is, its = it :: is → it.head = ⟨l0, d0⟩)
    | .error e => StdErr e := by
  intro fuel
  induction fuel with
  | zero => intro begin l0 d0 m s h; omega
  | succ fuel ih =>
    intro begin l0 d0 m s hfu ha hd
    rw [createLoop]
    by_cases hc : (d0.isHead && mine d0) = true
    · rw [if_pos hc]
      simp only [Bool.and_eq_true] at hc
      by_cases hk : m.has (key d0) = true
      · rw [if_pos hk]; rfl
      rw [if_neg hk, Parser.bind_run]
      have hi := hitem d0 l0 begin s ha hd hc.1 hc.2
      cases hx : item d0.tail begin s with
      | error e => rw [hx] at hi; exact hi
      | ok x =>
        obtain ⟨v, s1⟩ := x
        rw [hx] at hi
        obtain ⟨body, hl, hq⟩ := hi
        simp only at hl hq ⊢
        rw [Parser.bind_ok (Parser.get_run _)]
        by_cases hs1 : s1.rest = []
        · rw [if_pos hs1]; rfl
        rw [if_neg hs1, Parser.bind_run]
        cases hr : readDivision s1 with
        | error e => exact readDivision_err hr
        | ok y =>
          obtain ⟨d1, s2⟩ := y
          obtain ⟨l1, ha1, hd1, _⟩ := readDivision_inv hr
          simp only
          rw [Parser.bind_ok (Parser.get_run _), Parser.bind_run]
          have hsw := skipWhile_inv (p := isEnd) (s2.rest.length + 1) s1.rest l1 d1 s2 (by omega) ha1 hd1
          cases hw : skipWhile isEnd (s2.rest.length + 1) s1.rest d1 s2 with
          | error e => rw [hw] at hsw; exact hsw
          | ok z =>
            obtain ⟨⟨begin2, d2⟩, s3⟩ := z
            rw [hw] at hsw
            obtain ⟨extra, l2, e1, e2, e3, e4, e5⟩ := hsw
            simp only
            have hlt : begin2.length < fuel := by
              have h1 := hl.length_lt (by simp)
              have h2 := e1.length_le
              omega
            have := ih begin2 l2 d2 (m.emplace (key d0) v) s3 hlt e3 e4
            cases hcl : createLoop mine key item isEnd fuel begin2 d2 (m.emplace (key d0) v) s3 with
            | error e => rw [hcl] at this; exact this
            | ok w =>
              obtain ⟨⟨begin', d', m'⟩, s'⟩ := w
              rw [hcl] at this
              obtain ⟨its, l', f1, f2, f4, f5, f6, f7, f8, f9, f10, f11⟩ := this
              have hnin : ∀ it ∈ its, key d0 ≠ key it.head.div ∧ m.has (key it.head.div) = false := by
                intro it hit
                have := f6 it hit
                rw [SMap.has_emplace, Bool.or_eq_false_iff, beq_eq_false_iff_ne] at this
                exact this
              refine ⟨⟨⟨l0, d0⟩, body, extra, v⟩ :: its, l', Chain.cons hl hs1 hq e1 f1, ?_, ?_, ?_, ?_, f7, f8, f9, by simp, ?_⟩
              · intro it hit
                rcases List.mem_cons.mp hit with rfl | hit
                · exact ⟨hd, hc.1, hc.2, e2⟩
                · exact f2 it hit
              · rw [f4]; rfl
              · simp only [List.map_cons, List.nodup_cons]
                refine ⟨?_, f5⟩
                intro hmem
                obtain ⟨it, hit, heq⟩ := List.mem_map.mp hmem
                exact (hnin it hit).1 heq.symm
              · intro it hit
                rcases List.mem_cons.mp hit with rfl | hit
                · simpa using hk
                · exact (hnin it hit).2
              · intro it is heq
                simp only [List.cons.injEq] at heq
                rw [← heq.1]
    · rw [if_neg hc]
      exact ⟨[], l0, Chain.nil _, by simp, rfl, by simp, by simp, ha, hd, by simpa using hc, fun _ => rfl, by simp⟩

theorem createMap_inv (isFinal : Division → Bool) {Q : DLine → List Text → α → Text → Prop}
    (hitem : ∀ d l begin s, At l begin s.rest → DivLine d l → d.isHead = true → mine d = true →
      Post (item d.tail begin s) (fun x => ∃ body, Lines (l :: body) begin x.2.rest ∧ Q ⟨l, d⟩ body x.1 x.2.rest))
    {begin l0 r0 : Text} {d0 : Division} (ha : At l0 begin r0) (hd : DivLine d0 l0) (hh : d0.isHead = true) (hmine : mine d0 = true) (s : St) :
    match createMap mine key item isEnd isFinal begin s with
    | .ok (m', s') => ∃ (it : Item α) (is : List (Item α)) (fin : List DLine) (begin' l' r' : Text) (d' : Division),
        Chain Q (it :: is) begin begin' ∧ Lines (fin.map DLine.text) begin' s'.rest ∧
        (∀ i ∈ it :: is, i.Ok mine isEnd) ∧ m' = addItems key [] (it :: is) ∧
        ((it :: is).map (fun i => key i.head.div)).Nodup ∧ it.head = ⟨l0, d0⟩ ∧
        At l' begin' r' ∧ DivLine d' l' ∧ (d'.isHead && mine d') = false ∧
        ((isFinal d' = true ∧ fin = [⟨l', d'⟩]) ∨ (isFinal d' = false ∧ fin = []))
    | .error e => StdErr e := by
  rw [createMap, Parser.bind_ok (Parser.get_run _), Parser.bind_ok (Parser.set_run _ _), Parser.bind_ok (readDivision_at hd ha _), Parser.bind_run]
  have h := createLoop_inv mine key item isEnd hitem (begin.length + 1) begin l0 d0 [] ⟨r0, s.line - 1 + 1⟩ (by omega) ha hd
  cases hc : createLoop mine key item isEnd (begin.length + 1) begin d0 [] ⟨r0, s.line - 1 + 1⟩ with
  | error e => rw [hc] at h; exact h
  | ok w =>
    obtain ⟨⟨begin', d', m'⟩, s'⟩ := w
    rw [hc] at h
    obtain ⟨its, l', f1, f2, f4, f5, f6, f7, f8, f9, f10, f11⟩ := h
    simp only
    rw [Parser.bind_ok (Parser.get_run _)]
    cases its with
    | nil =>
      rw [f10 rfl] at f9
      rw [hh, hmine] at f9
      cases f9
    | cons it is =>
      by_cases hfin : isFinal d' = true
      · rw [if_pos hfin]
        exact ⟨it, is, [⟨l', d'⟩], begin', l', s'.rest, d', f1, f7.lines, f2, f4, f5, f11 it is rfl, f7, f8, f9, .inl ⟨hfin, rfl⟩⟩
      · rw [if_neg hfin, Parser.bind_ok (Parser.set_run _ _)]
        exact ⟨it, is, [], begin', l', s'.rest, d', f1, Lines.nil _, f2, f4, f5, f11 it is rfl, f7, f8, f9,
          .inr ⟨by simpa using hfin, rfl⟩⟩

end ENDFtk

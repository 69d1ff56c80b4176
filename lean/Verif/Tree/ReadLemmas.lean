import Verif.Tree.LoopLemmas
/-
  The constructors of tree::Section, tree::File, tree::Material and tree::Tape: what they do on a well laid out text (`_run`), and what a
  text accepted by them looks like (`_inv`).
-/
set_option linter.unusedVariables false
set_option linter.unusedSectionVars false
set_option linter.unusedSimpArgs false
namespace ENDFtk
variable [Disco]

theorem stdErr_catchStd {e : Err} (h : StdErr e) : StdErr (catchStd e) := by
  cases e <;> simp_all [StdErr, catchStd, Err.isStd]

/-- No division of the given kind comes next. -/
def NextNot (p : Division → Bool) (b : Text) : Prop := ∀ l d r, At l b r → DivLine d l → p d = false

theorem nextNot_iff {p : Division → Bool} {l b r : Text} {d : Division} (ha : At l b r) (hd : DivLine d l) : NextNot p b ↔ p d = false := by
  constructor
  · intro h; exact h l d r ha hd
  · intro h l' d' r' ha' hd'
    obtain ⟨rfl, rfl⟩ := ha.unique ha'
    rw [hd'.unique hd]; exact h

/-! ### section -/

theorem take_sub_append (a b : Text) : (a ++ b).take ((a ++ b).length - b.length) = a := by
  simp

theorem readTSection_run {S : SecL} (hS : S.Valid) (r : Text) (n : Int) :
    ∃ m, readTSection S.nums (unlines S.core ++ r) ⟨unlines (S.body ++ [S.send]) ++ r, n⟩ = .ok (S.tree, ⟨r, m⟩) := by
  have hlen : S.body.length < (unlines (S.body ++ [S.send]) ++ r).length + 1 := by
    generalize S.body = body
    induction body with
    | nil => simp
    | cons l ls ih => simp at ih ⊢; omega
  obtain ⟨m, hm⟩ := findEnd_run hS.2.1 hS.2.2.1 r _ n hlen
  refine ⟨m, ?_⟩
  rw [readTSection, Parser.mapErr_ok, Parser.bind_ok (Parser.get_run _), Parser.bind_ok hm, Parser.bind_ok (Parser.get_run _)]
  simp only [Parser.pure_run, take_sub_append]
  rfl

/-- What is known of a section that was read. -/
def QS (h : DLine) (body : List Text) (v : TSection) (rest : Text) : Prop :=
  ∃ S : SecL, S.Valid ∧ S.extra = [] ∧ S.head = h ∧ S.core = h.text :: body ∧ (rest ≠ [] → v = S.tree)

theorem readTSection_inv {d : Division} {l begin : Text} {s : St} (ha : At l begin s.rest) (hd : DivLine d l) (hh : d.isHead = true) :
    Post (readTSection d.tail begin s) (fun x => ∃ body, Lines (l :: body) begin x.2.rest ∧ QS ⟨l, d⟩ body x.1 x.2.rest) := by
  have h := findEnd_inv (s.rest.length + 1) s (by omega)
  cases hf : findEnd (s.rest.length + 1) s with
  | error e =>
    rw [hf] at h
    have : readTSection d.tail begin s = .error (catchStd e) := by
      rw [readTSection, Parser.mapErr_error]
      exact ⟨e, by rw [Parser.bind_ok (Parser.get_run _), Parser.bind_err hf], rfl⟩
    rw [this]
    exact stdErr_catchStd h
  | ok x =>
    obtain ⟨u, s'⟩ := x
    rw [hf] at h
    obtain ⟨body, send, h1, h2, h3⟩ := h
    have : readTSection d.tail begin s = .ok (⟨d.tail.mat, d.tail.mf, d.tail.mt, begin.take (begin.length - s'.rest.length)⟩, s') := by
      rw [readTSection, Parser.mapErr_ok, Parser.bind_ok (Parser.get_run _), Parser.bind_ok hf, Parser.bind_ok (Parser.get_run _)]
      rfl
    rw [this]
    have hl : Lines (l :: (body ++ [send])) begin s'.rest := by simpa using ha.lines.trans h1
    refine ⟨body ++ [send], hl, ⟨⟨l, d⟩, body, send, []⟩, ⟨DLine.isHead_iff.mpr ⟨hd, hh⟩, h2, h3, by simp⟩, rfl, rfl, rfl, ?_⟩
    intro hr
    have hb := hl.eq_unlines hr
    simp only [SecL.tree, SecL.nums, SecL.core, TSection.mk.injEq, true_and]
    rw [hb, take_sub_append]
    simp

/-! ### file -/

namespace FileL
/-- The lines up to and including the first FEND. -/
def core (f : FileL) : List Text := f.secs.flatMap SecL.lines ++ (f.fends.take 1).map DLine.text
def head (f : FileL) : DLine := f.first.head
/-- The lines of the core after the first one. -/
def tailLines (f : FileL) : List Text :=
  (f.first.body ++ [f.first.send] ++ f.first.extra.map DLine.text) ++ f.others.flatMap SecL.lines ++ (f.fends.take 1).map DLine.text
theorem core_eq (f : FileL) : f.core = f.head.text :: f.tailLines := by
  simp [core, head, tailLines, secs, SecL.lines, SecL.core]
theorem lines_eq (f : FileL) : f.lines = f.core ++ (f.fends.drop 1).map DLine.text := by
  simp only [lines, core, List.append_assoc, ← List.map_append, List.take_append_drop]
end FileL

def SecL.item (s : SecL) : Item TSection := ⟨s.head, s.body ++ [s.send], s.extra, s.tree⟩

theorem SecL.item_core (s : SecL) : s.item.core = s.core := by simp [SecL.item, Item.core, SecL.core]
theorem SecL.item_lines (s : SecL) : s.item.lines = s.lines := by
  simp [SecL.item, Item.lines, Item.core, SecL.core, SecL.lines]

theorem secs_good {mf : Int} {g : Text} : ∀ (ss : List SecL), (∀ s ∈ ss, s.Valid ∧ s.nums.mf = mf) →
    Good (fun d => d.tail.mf == mf) readTSection Division.isSend (ss.map SecL.item) g := by
  intro ss
  induction ss with
  | nil => intro _; trivial
  | cons s ss ih =>
    intro h
    obtain ⟨hv, hm⟩ := h s (by simp)
    refine ⟨hv.1.1, (DLine.isHead_iff.mp hv.1).2, by simpa [SecL.item, SecL.nums] using hm, ?_, ?_, ih fun x hx => h x (by simp [hx])⟩
    · intro l hl; exact DLine.isSend_iff.mp (hv.2.2.2 l hl)
    · intro n; rw [SecL.item_core]; exact readTSection_run hv _ n

theorem addItems_secs (ss : List SecL) (m : SMap TSection) :
    addItems (fun d => d.tail.mt) m (ss.map SecL.item) = ss.foldl (fun m s => m.emplace s.nums.mt s.tree) m := by
  simp only [addItems, List.foldl_map]
  rfl

theorem isHead_not_isSend (d : Division) (h : d.isHead = true) : d.isSend = false := ((Division.kinds d).1 h).1
theorem isHead_not_isFend (d : Division) (h : d.isHead = true) : d.isFend = false := ((Division.kinds d).1 h).2.1

theorem itemsText_secs (ss : List SecL) (g : Text) : itemsText (ss.map SecL.item) g = unlines (ss.flatMap SecL.lines) ++ g := by
  simp only [itemsText, List.flatMap_map, SecL.item_lines]

/-- What must hold of the line that follows a file without FEND. -/
def FileL.Next (f : FileL) (b : Text) : Prop :=
  f.fends = [] → ∃ l d r, At l b r ∧ DivLine d l ∧ d.isSend = false ∧ d.isFend = false ∧ (d.isHead && d.tail.mf == f.mf) = false

theorem readTFile_run {F : FileL} (hF : F.Valid) {b : Text} (hb : F.Next b) (s : St) :
    ∃ m, readTFile F.head.div.tail (unlines F.core ++ b) s = .ok (F.tree, ⟨b, m⟩) := by
  have hgood := fun g => secs_good (g := g) F.secs hF.1
  have hnd : ((F.secs.map SecL.item).map (fun it => it.head.div.tail.mt)).Nodup := by
    rw [List.map_map]; exact hF.2.1
  have key : ∃ m, createMap (fun d => d.tail.mf == F.mf) (fun d => d.tail.mt) readTSection Division.isSend Division.isFend (unlines F.core ++ b) s
      = .ok (addItems (fun d => d.tail.mt) [] (F.secs.map SecL.item), ⟨b, m⟩) := by
    cases hfe : F.fends with
    | nil =>
      obtain ⟨l, d, r, h1, h2, h3, h4, h5⟩ := hb hfe
      obtain ⟨m, hm⟩ := createMap_run (fun d => d.tail.mf == F.mf) (fun d => d.tail.mt) readTSection Division.isSend Division.isFend
        isHead_not_isSend (f := ⟨l, d⟩) h2 h1 h3 h5 (hgood b) hnd s
      refine ⟨m, ?_⟩
      rw [itemsText_secs] at hm
      simp only [FileL.core, hfe, List.take_nil, List.map_nil, List.append_nil]
      rw [hm]
      simp [h4]
    | cons fe fes =>
      have hfe1 := DLine.isFend_iff.mp (hF.2.2 fe (by simp [hfe]))
      have hk := Division.kinds fe.div
      obtain ⟨m, hm⟩ := createMap_run (fun d => d.tail.mf == F.mf) (fun d => d.tail.mt) readTSection Division.isSend Division.isFend
        isHead_not_isSend (f := fe) hfe1.1 (At.nl hfe1.1.1.1 (r := b))
        (by cases h : fe.div.isSend with
            | false => rfl
            | true => have := (hk.2.1 h).1; rw [hfe1.2] at this; cases this)
        (by cases h : fe.div.isHead with
            | false => rfl
            | true => have := (hk.1 h).2.1; rw [hfe1.2] at this; cases this)
        (hgood _) hnd s
      refine ⟨m, ?_⟩
      rw [itemsText_secs] at hm
      simp only [FileL.core, hfe, List.take_succ_cons, List.take_zero, List.map_cons, List.map_nil, unlines_append, unlines_cons, unlines_nil,
        List.append_assoc, List.cons_append, List.nil_append]
      rw [hm]
      simp [hfe1.2]
  obtain ⟨m, hm⟩ := key
  refine ⟨m, ?_⟩
  rw [readTFile, Parser.mapErr_ok]
  rw [show F.head.div.tail.mf = F.mf from rfl, Parser.bind_ok hm, addItems_secs]
  rfl

/-- What is known of a file that was read. -/
def QF (h : DLine) (body : List Text) (v : TFile) (rest : Text) : Prop :=
  ∃ F : FileL, F.Valid ∧ F.fends.length ≤ 1 ∧ F.head = h ∧ F.lines = h.text :: body ∧ v = F.tree ∧
    (F.fends = [] → NextNot Division.isFend rest ∧ NextNot (fun d => d.isHead && d.tail.mf == F.mf) rest)

/-- The sections of a chain of items. -/
theorem chain_secs {its : List (Item TSection)} {s b : Text} (h : Chain QS its s b) {mf : Int}
    (hok : ∀ i ∈ its, i.Ok (fun d => d.tail.mf == mf) Division.isSend) :
    ∃ Ss : List SecL, Ss.map (fun S => (S.head, S.lines, S.tree)) = its.map (fun i => (i.head, i.lines, i.val)) ∧ ∀ S ∈ Ss, S.Valid ∧ S.nums.mf = mf := by
  induction h with
  | nil s => exact ⟨[], rfl, by simp⟩
  | @cons it its s s1 s2 b h1 h2 h3 h4 h5 ih =>
    obtain ⟨Ss, e1, e2⟩ := ih fun i hi => hok i (by simp [hi])
    obtain ⟨S, q1, q2, q3, q4, q5⟩ := h3
    obtain ⟨o1, o2, o3, o4⟩ := hok it (by simp)
    refine ⟨{ S with extra := it.extra } :: Ss, ?_, ?_⟩
    · simp only [List.map_cons, e1, List.cons.injEq, and_true, Prod.mk.injEq]
      refine ⟨q3, ?_, (q5 h2).symm⟩
      show S.core ++ it.extra.map DLine.text = it.lines
      rw [q4]; rfl
    · intro X hX
      rcases List.mem_cons.mp hX with rfl | hX
      · refine ⟨⟨q1.1, q1.2.1, q1.2.2.1, fun l hl => DLine.isSend_iff.mpr (o4 l hl)⟩, ?_⟩
        show S.head.div.tail.mf = mf
        rw [q3]; simpa using o3
      · exact e2 X hX

theorem map_triple {A B : Type} {f1 : A → DLine} {f2 : A → List Text} {T : Type} {f3 : A → T} {g1 : B → DLine} {g2 : B → List Text}
    {g3 : B → T} {as : List A} {bs : List B}
    (h : as.map (fun a => (f1 a, f2 a, f3 a)) = bs.map (fun b => (g1 b, g2 b, g3 b))) :
    as.map f1 = bs.map g1 ∧ as.flatMap f2 = bs.flatMap g2 ∧ as.map f3 = bs.map g3 ∧
      ∀ (U : Type) (k : DLine → Int) (F : U → Int → T → U) (u : U),
        as.foldl (fun u a => F u (k (f1 a)) (f3 a)) u = bs.foldl (fun u b => F u (k (g1 b)) (g3 b)) u := by
  refine ⟨?_, ?_, ?_, ?_⟩
  · have := congrArg (List.map (·.1)) h; rw [List.map_map, List.map_map] at this; exact this
  · simpa [List.flatMap_map] using congrArg (List.flatMap (·.2.1)) h
  · have := congrArg (List.map (·.2.2)) h; rw [List.map_map, List.map_map] at this; exact this
  · intro U k F u
    have := congrArg (List.foldl (fun u (x : DLine × List Text × T) => F u (k x.1) x.2.2) u) h
    simpa [List.foldl_map] using this

theorem readTFile_inv {d : Division} {l begin : Text} {s : St} (ha : At l begin s.rest) (hd : DivLine d l) (hh : d.isHead = true) :
    Post (readTFile d.tail begin s) (fun x => ∃ body, Lines (l :: body) begin x.2.rest ∧ QF ⟨l, d⟩ body x.1 x.2.rest) := by
  have h := createMap_inv (fun x => x.tail.mf == d.tail.mf) (fun d => d.tail.mt) readTSection Division.isSend Division.isFend (Q := QS)
    (fun d l begin s h1 h2 h3 _ => readTSection_inv h1 h2 h3) ha hd hh (by simp) s
  cases hc : createMap (fun x => x.tail.mf == d.tail.mf) (fun d => d.tail.mt) readTSection Division.isSend Division.isFend begin s with
  | error e =>
    rw [hc] at h
    have : readTFile d.tail begin s = .error (catchStd e) := by
      rw [readTFile, Parser.mapErr_error]
      exact ⟨e, by rw [Parser.bind_err hc], rfl⟩
    rw [this]
    exact stdErr_catchStd h
  | ok x =>
    obtain ⟨m', s'⟩ := x
    rw [hc] at h
    have : readTFile d.tail begin s = .ok (⟨d.tail.mat, d.tail.mf, m'⟩, s') := by
      rw [readTFile, Parser.mapErr_ok, Parser.bind_ok hc]; rfl
    rw [this]
    obtain ⟨it, is, fin, begin', l', r', d', c1, c2, c3, c4, c5, c6, c7, c8, c9, c10⟩ := h
    obtain ⟨Ss, e1, e2⟩ := chain_secs c1 c3
    cases Ss with
    | nil => simp at e1
    | cons S Ss =>
      obtain ⟨t1, t2, t3, t4⟩ := map_triple e1
      have hS : S.head = ⟨l, d⟩ := by
        simp only [List.map_cons, List.cons.injEq] at t1
        rw [t1.1, c6]
      have hfin : (∀ f ∈ fin, f.IsFend) ∧ fin.length ≤ 1 := by
        rcases c10 with ⟨h1, rfl⟩ | ⟨h1, rfl⟩
        · refine ⟨?_, by simp⟩
          intro f hf
          simp only [List.mem_singleton] at hf
          subst hf
          exact DLine.isFend_iff.mpr ⟨c8, h1⟩
        · simp
      let F : FileL := ⟨S, Ss, fin⟩
      have hlines : Lines F.lines begin s'.rest := by
        have := c1.lines.trans c2
        rw [← t2] at this
        exact this
      have hcons : F.lines = l :: (F.lines.drop 1) := by
        simp [F, FileL.lines, FileL.secs, SecL.lines, SecL.core, hS]
      refine ⟨F.lines.drop 1, by rw [← hcons]; exact hlines, F, ⟨?_, ?_, hfin.1⟩, hfin.2, hS, hcons, ?_, ?_⟩
      · intro X hX
        obtain ⟨v1, v2⟩ := e2 X hX
        refine ⟨v1, ?_⟩
        show _ = S.head.div.tail.mf
        rw [hS]; exact v2
      · have : F.secs.map (fun s => s.nums.mt) = ((S :: Ss).map (·.head)).map (fun h => h.div.tail.mt) := by
          rw [List.map_map]; rfl
        rw [this, t1, List.map_map]
        exact c5
      · have := t4 (SMap TSection) (fun h => h.div.tail.mt) (fun u k v => u.emplace k v) []
        show TFile.mk _ _ _ = TFile.mk S.head.div.tail.mat S.head.div.tail.mf _
        rw [hS, c4]
        congr 1
        exact this.symm
      · intro hnil
        have hnil : fin = [] := hnil
        rcases c10 with ⟨h1, h2⟩ | ⟨h1, h2⟩
        · rw [hnil] at h2; cases h2
        · subst h2
          have : begin' = s'.rest := by cases c2; rfl
          rw [← this]
          refine ⟨(nextNot_iff c7 c8).mpr h1, (nextNot_iff c7 c8).mpr ?_⟩
          show (d'.isHead && d'.tail.mf == S.head.div.tail.mf) = false
          rw [hS]; exact c9

end ENDFtk

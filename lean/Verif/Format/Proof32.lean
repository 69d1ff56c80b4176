import Verif.Format.Spec32
import Verif.Format.Accept
/-
  The reader of section 32/151 accepts exactly the format of `Fmt32`.
-/
set_option linter.unusedVariables false
set_option linter.unusedSectionVars false
set_option linter.unusedSimpArgs false
namespace ENDFtk
variable [Disco] [CorrOps]

/-- As `Is`, with the records of section 32/151. -/
def Is32 {α : Type} (p : Parser α) (t : Nums) (G : α → List Rec32 → Prop) : Prop :=
  ∀ s a s', p s = .ok (a, s') ↔ ∃ rs, Recs32 t rs s s' ∧ G a rs

theorem recs32_nil {t : Nums} {s s' : St} : Recs32 t [] s s' ↔ s' = s := by
  constructor
  · intro h; cases h; rfl
  · rintro rfl; exact .nil

theorem recs32_cons {t : Nums} {r : Rec32} {rs : List Rec32} {s s' : St} : Recs32 t (r :: rs) s s' ↔ ∃ s1, r.At t s s1 ∧ Recs32 t rs s1 s' := by
  constructor
  · intro h; cases h with
    | cons h1 h2 => exact ⟨_, h1, h2⟩
  · rintro ⟨s1, h1, h2⟩; exact .cons h1 h2

theorem recs32_append {t : Nums} {r1 r2 : List Rec32} {s s' : St} : Recs32 t (r1 ++ r2) s s' ↔ ∃ s1, Recs32 t r1 s s1 ∧ Recs32 t r2 s1 s' := by
  induction r1 generalizing s with
  | nil => simp [recs32_nil]
  | cons r rs ih =>
    simp only [List.cons_append, recs32_cons, ih]
    constructor
    · rintro ⟨a, h1, b, h2, h3⟩; exact ⟨b, ⟨a, h1, h2⟩, h3⟩
    · rintro ⟨b, ⟨a, h1, h2⟩, h3⟩; exact ⟨a, h1, b, h2, h3⟩

theorem recs32_map {t : Nums} {rs : List Rec} {s s' : St} : Recs32 t (rs.map .plain) s s' ↔ Recs t rs s s' := by
  induction rs generalizing s with
  | nil => simp [recs32_nil, recs_nil]
  | cons r rs ih => simp only [List.map_cons, recs32_cons, recs_cons, ih]; rfl

namespace Is32
variable {α β : Type} {t : Nums}

theorem congr {p : Parser α} {G H : α → List Rec32 → Prop} (h : Is32 p t G) (e : ∀ a rs, G a rs ↔ H a rs) : Is32 p t H := by
  intro s a s'
  rw [h s a s']
  constructor
  · rintro ⟨rs, h1, h2⟩; exact ⟨rs, h1, (e _ _).mp h2⟩
  · rintro ⟨rs, h1, h2⟩; exact ⟨rs, h1, (e _ _).mpr h2⟩

theorem lift {p : Parser α} {G : α → List Rec → Prop} (h : Is p t G) : Is32 p t (fun a rs => ∃ r, rs = r.map .plain ∧ G a r) := by
  intro s a s'
  rw [h s a s']
  constructor
  · rintro ⟨rs, h1, h2⟩; exact ⟨_, recs32_map.mpr h1, rs, rfl, h2⟩
  · rintro ⟨_, h1, r, rfl, h2⟩; exact ⟨r, recs32_map.mp h1, h2⟩

theorem matrix : Is32 (CorrMatrix.read t) t (fun a rs => rs = [.matrix a]) := by
  intro s a s'
  constructor
  · intro h; exact ⟨[.matrix a], recs32_cons.mpr ⟨s', h, .nil⟩, rfl⟩
  · rintro ⟨_, h, rfl⟩
    obtain ⟨s1, h1, h2⟩ := recs32_cons.mp h
    rw [recs32_nil.mp h2]; exact h1

theorem bind {p : Parser α} {f : α → Parser β} {G : α → List Rec32 → Prop} {H : α → β → List Rec32 → Prop} (h1 : Is32 p t G) (h2 : ∀ a, Is32 (f a) t (H a)) :
    Is32 (p >>= f) t (fun b rs => ∃ a r1 r2, rs = r1 ++ r2 ∧ G a r1 ∧ H a b r2) := by
  intro s b s'
  rw [Parser.bind_eq_ok]
  constructor
  · rintro ⟨a, s1, e1, e2⟩
    obtain ⟨r1, a1, a2⟩ := (h1 _ _ _).mp e1
    obtain ⟨r2, b1, b2⟩ := (h2 a _ _ _).mp e2
    exact ⟨r1 ++ r2, recs32_append.mpr ⟨s1, a1, b1⟩, a, r1, r2, rfl, a2, b2⟩
  · rintro ⟨_, h, a, r1, r2, rfl, a2, b2⟩
    obtain ⟨s1, a1, b1⟩ := recs32_append.mp h
    exact ⟨a, s1, (h1 _ _ _).mpr ⟨r1, a1, a2⟩, (h2 a _ _ _).mpr ⟨r2, b1, b2⟩⟩

theorem pure (x : α) : Is32 (Pure.pure x) t (fun a rs => rs = [] ∧ a = x) := by
  intro s a s'
  rw [Parser.pure_run]
  constructor
  · intro h; cases h; exact ⟨[], .nil, rfl, rfl⟩
  · rintro ⟨_, h, rfl, rfl⟩; cases h; rfl

theorem fail (e : Err) : Is32 (Parser.fail e : Parser α) t (fun _ _ => False) := by
  intro s a s'; simp

theorem ite {c : Prop} {inst : Decidable c} {p q : Parser α} {G H : α → List Rec32 → Prop} (h1 : c → Is32 p t G) (h2 : ¬c → Is32 q t H) :
    Is32 (if c then p else q) t (fun a rs => (c ∧ G a rs) ∨ (¬c ∧ H a rs)) := by
  intro s a s'
  by_cases hc : c
  · simp only [if_pos hc, hc, true_and, not_true_eq_false, false_and, or_false]; exact h1 hc s a s'
  · simp only [if_neg hc, hc, false_and, not_false_eq_true, true_and, false_or]; exact h2 hc s a s'

theorem mapErr {p : Parser α} {g : Err → Err} {G : α → List Rec32 → Prop} (h : Is32 p t G) : Is32 (Parser.mapErr g p) t G := by
  intro s a s'; rw [Parser.mapErr_ok]; exact h s a s'

theorem map {p : Parser α} {f : α → β} {G : α → List Rec32 → Prop} (h : Is32 p t G) :
    Is32 (p >>= fun a => Pure.pure (f a)) t (fun b rs => ∃ a, b = f a ∧ G a rs) :=
  (bind h (fun a => pure (f a))).congr (by
    intro b rs
    constructor
    · rintro ⟨a, r1, r2, rfl, h1, rfl, rfl⟩; exact ⟨a, rfl, by simpa using h1⟩
    · rintro ⟨a, rfl, h1⟩; exact ⟨a, rs, [], by simp, h1, rfl, rfl⟩)

theorem contBind {f : Cont → Parser β} {H : Cont → β → List Rec32 → Prop} (h : ∀ a, Is32 (f a) t (H a)) :
    Is32 (readCont t >>= f) t (fun b rs => ∃ a r, rs = .plain (.cont a) :: r ∧ H a b r) :=
  (bind (lift Is.cont) h).congr (by
    intro b rs
    constructor
    · rintro ⟨a, _, r2, rfl, ⟨_, rfl, rfl⟩, h2⟩; exact ⟨a, r2, rfl, h2⟩
    · rintro ⟨a, r, rfl, h2⟩; exact ⟨a, [_], r, rfl, ⟨_, rfl, rfl⟩, h2⟩)

theorem many {p : Parser α} {G : α → List Rec32 → Prop} (h : Is32 p t G) (n : Nat) :
    Is32 (readMany p n) t (fun xs rs => xs.length = n ∧ Many G xs rs) := by
  induction n with
  | zero => exact (pure ([] : List α)).congr (by
      intro xs rs
      constructor
      · rintro ⟨rfl, rfl⟩; exact ⟨rfl, .nil⟩
      · rintro ⟨h1, h2⟩
        have : xs = [] := List.length_eq_zero_iff.mp h1
        subst this
        exact ⟨many_nil.mp h2, rfl⟩)
  | succ n ih =>
    refine (bind h fun x => map ih).congr ?_
    intro xs rs
    constructor
    · rintro ⟨x, r1, r2, rfl, h1, ys, rfl, h2, h3⟩
      exact ⟨by simp [h2], .cons h1 h3⟩
    · rintro ⟨h1, h2⟩
      cases xs with
      | nil => simp at h1
      | cons x xs =>
        obtain ⟨r1, r2, rfl, h3, h4⟩ := many_cons.mp h2
        exact ⟨x, r1, r2, rfl, h3, xs, rfl, by simpa using h1, h4⟩

theorem sequence {p : Parser α} {G : α → List Rec32 → Prop} (h : Is32 p t G) (n : Int) :
    Is32 (readSequence p n) t (fun xs rs => toInt32 n = xs.length ∧ Many G xs rs) := by
  refine (ite (fun _ => fail _) (fun _ => many h _)).congr ?_
  intro xs rs
  constructor
  · rintro (⟨_, h⟩ | ⟨h1, h2, h3⟩)
    · exact h.elim
    · exact ⟨by omega, h3⟩
  · rintro ⟨h1, h2⟩; exact .inr ⟨by omega, by omega, h2⟩

end Is32

/-! ### conditions on LIST records -/

theorem tri_iff (m n : Int) : m = Int.tdiv (n * (n + 1)) 2 ↔ 2 * m = n * (n + 1) := by
  have hk : ∃ k, n * (n + 1) = 2 * k := by
    rcases (by omega : n % 2 = 0 ∨ n % 2 = 1) with h | h
    · exact ⟨n / 2 * (n + 1), by
        have e : n = 2 * (n / 2) := by omega
        rw [← Int.mul_assoc, ← e]⟩
    · exact ⟨n * ((n + 1) / 2), by
        have e : n + 1 = 2 * ((n + 1) / 2) := by omega
        rw [show (2 : Int) * (n * ((n + 1) / 2)) = n * (2 * ((n + 1) / 2)) from by rw [← Int.mul_assoc, Int.mul_comm 2 n, Int.mul_assoc], ← e]⟩
  obtain ⟨k, hk⟩ := hk
  rw [hk, Int.mul_tdiv_cancel_left _ (by omega)]; omega

theorem limitedOk_iff (l : LIST) : limitedLValueOk l ↔ Fmt32.limitedOk l := by
  unfold limitedLValueOk Fmt32.limitedOk LIST.npl; omega
theorem compactOk_iff (l : LIST) : compactOk l ↔ Fmt32.compactOk l := by
  unfold compactOk Fmt32.compactOk LIST.npl; omega
theorem triangle_iff (l : LIST) : triangleOk l ↔ Fmt32.triangle l := by
  unfold triangleOk Fmt32.triangle
  rw [tri_iff]
  simp only [Over]
  have p := mulSucc_nonneg (toInt32 l.n2)
  constructor
  · rintro ⟨_, h2, h4, h3⟩; exact ⟨h2, h3, by omega⟩
  · rintro ⟨h2, h3, h4⟩
    refine ⟨?_, h2, by omega, h3⟩
    have : 0 < toInt32 l.n2 * (toInt32 l.n2 + 1) := Int.mul_pos (by omega) (by omega)
    unfold LIST.npl; omega
theorem shortOk_iff (l : LIST) : shortRangeOk l ↔ Fmt32.shortOk l := by
  unfold shortRangeOk Fmt32.shortOk
  have h := tri_iff (toInt32 (l.npl : Int) - 6 * toInt32 l.n2) (toInt32 l.l1 * toInt32 l.n2)
  have p := mulSucc_nonneg (toInt32 l.l1 * toInt32 l.n2)
  simp only [Over]
  constructor
  · rintro ⟨_, h2, h3, h4, h7, h5⟩
    exact ⟨h4, h2, h3, h.mp (by omega), by omega⟩
  · rintro ⟨h4, h2, h3, h5, h7⟩
    have h6 := h.mpr h5
    refine ⟨?_, h2, h3, h4, by omega, by omega⟩
    have : 0 < toInt32 l.l1 * toInt32 l.n2 := Int.mul_pos (by omega) (by omega)
    have : 0 < (toInt32 l.l1 * toInt32 l.n2) * (toInt32 l.l1 * toInt32 l.n2 + 1) := Int.mul_pos (by omega) (by omega)
    unfold LIST.npl; omega
theorem rmlParams_iff (l : LIST) : rmlParametersOk l ↔ 1 ≤ toInt32 l.data.length ∧ 6 ∣ toInt32 l.data.length := by
  simp only [rmlParametersOk, LIST.npl]; rw [Int.dvd_iff_tmod_eq_zero]
theorem compactRmlParams_iff (l : LIST) : compactRmlParametersOk l ↔ 1 ≤ toInt32 l.data.length ∧ 12 ∣ toInt32 l.data.length := by
  simp only [compactRmlParametersOk, LIST.npl]; rw [Int.dvd_iff_tmod_eq_zero]
theorem channels_iff (l : LIST) : channelsOk l ↔ 1 ≤ toInt32 l.n2 ∧ toInt32 l.data.length = 6 * toInt32 l.n2 := by
  simp only [channelsOk, LIST.npl]; omega
theorem pairs_iff (l : LIST) : particlePairsOk l ↔ 1 ≤ toInt32 l.l1 ∧ toInt32 l.data.length = 12 * toInt32 l.l1 := by
  simp only [particlePairsOk, LIST.npl]; omega
theorem longOk_iff (l : LIST) : longRangeCheck l = .ok () ↔ Fmt32.longOk l := by
  unfold longRangeCheck Fmt32.longOk
  simp only [List.mem_cons, List.not_mem_nil, or_false]
  have e : toInt32 (l.npl : Int) = toInt32 (l.data.length : Int) := rfl
  split
  · rename_i h
    have hi : toInt32 l.l2 = l.l2 := toInt32_id (by omega) (by omega)
    rw [covariancePairsCheck_ok, hi]
    simp only [List.mem_cons, List.not_mem_nil, or_false]
    omega
  · split
    · rename_i h5
      have hi : toInt32 l.l2 = l.l2 := toInt32_id (by omega) (by omega)
      rw [squareMatrixCheck, hi, if_neg (by omega), squareSizeCheck_ok _ (isInt32_toInt32 _) (isInt32_toInt32 _), e]
      simp [h5]
    · simp only [reduceCtorEq, false_iff]; omega

/-! ### parts -/
section
variable {t : Nums}

theorem Is.hdr {σ β : Type} {of : Cont → σ} {cont : σ → β → Cont} {d : Cont → Comp β} {G : Cont → β → List Rec → Prop} (h : ∀ r, Is ((d r).read t) t (G r)) :
    Is ((hdrC of cont d).read t) t (fun x rs => ∃ c r, rs = .cont c :: r ∧ x.1 = of c ∧ G c x.2 r) :=
  (Is.contBind fun c => Is.map (h c)).congr (by
    intro x rs
    constructor
    · rintro ⟨c, r, rfl, b, rfl, h1⟩; exact ⟨c, r, rfl, rfl, h1⟩
    · rintro ⟨c, r, rfl, h1, h2⟩; exact ⟨c, r, rfl, x.2, by rw [← h1], h2⟩)

theorem dap_is : Is (dapC.read t) t Fmt32.dap := by
  refine (Is.map Is.cont).congr ?_
  intro x rs
  constructor
  · rintro ⟨c, rfl, rfl⟩; exact ⟨c, rfl, rfl⟩
  · rintro ⟨c, rfl, rfl⟩; exact ⟨c, rfl, rfl⟩
theorem dapList_is : Is (dapListC.read t) t Fmt32.dapList := Is.list
theorem dapNone_is : Is (dapNoneC.read t) t Fmt32.dapNone := Is.none

theorem optional_is {δ : Type} {c : Comp δ} {G : δ → List Rec → Prop} (h : Is (c.read t) t G) (n : Int) :
    Is ((optC (n ≠ 0) c).read t) t (Fmt32.optional n G) := by
  refine (Is.opt h).congr ?_
  intro o rs
  unfold Fmt32.optional
  cases o with
  | none => simp
  | some d => simp

theorem list_is {P Q : LIST → Prop} [DecidablePred P] {ov : LIST → Prop} [DecidablePred ov] (h : ∀ l, P l ↔ Q l) : Is ((listC.checked P ov).read t) t (Fmt32.list Q) :=
  is_list.congr (by intro l rs; unfold Fmt32.list; rw [h])

theorem longRange_is : Is (longRangeC.read t) t (fun l rs => rs = [.list l] ∧ Fmt32.longOk l) :=
  is_listE.congr (by intro l rs; rw [longOk_iff])

theorem limited_is : Is (limitedC.read t) t Fmt32.limited := by
  refine (Is.hdr fun r => Is.checked (Is.andThen (optional_is dap_is _) fun _ => Is.seqC (is_list (P := limitedLValueOk)) _)).congr ?_
  intro x rs
  simp only [many_map, limitedOk_iff]
  constructor
  · rintro ⟨c, r, rfl, h1, ⟨r1, r2, rfl, h2, h3, rfl, h4⟩, h5⟩
    exact ⟨c, r1, rfl, h1, h2, h3, (count_pos h3).mp (by omega), h4⟩
  · rintro ⟨c, r, rfl, h1, h2, h3, h4, h5⟩
    exact ⟨c, _, rfl, h1, ⟨r, _, rfl, h2, h3, rfl, h5⟩, by have := (count_pos h3).mpr h4; omega⟩

theorem general_is {δ α : Type} {dap : Comp δ} {short : Comp α} {D : δ → List Rec → Prop} {S : α → List Rec → Prop} (h1 : Is (dap.read t) t D)
    (h2 : Is (short.read t) t S) : Is ((generalC dap short).read t) t (Fmt32.general D S) := by
  refine (Is.hdr fun r => Is.andThen (optional_is h1 _) fun _ => Is.hdr fun q => Is.andThen (Is.seqC h2 _) fun _ => Is.seqC longRange_is _).congr ?_
  rintro ⟨⟨spi, ap, nls⟩, o, awri, sh, lo⟩ rs
  simp only [many_map, Prod.mk.injEq]
  constructor
  · rintro ⟨c, r, rfl, ⟨a1, a2, a3⟩, r1, r2, rfl, b1, q, r3, rfl, b2, r4, r5, rfl, ⟨b3, b4⟩, b5, rfl, b6⟩
    exact ⟨c, r1, q, r4, by simp, a1, a2, a3, b1, b2, b3, b4, b5, b6⟩
  · rintro ⟨c, r, q, r', rfl, a1, a2, a3, b1, b2, b3, b4, b5, b6⟩
    exact ⟨c, r ++ .cont q :: (r' ++ lo.map .list), by simp, ⟨a1, a2, a3⟩, r, _, rfl, b1, q, _, rfl, b2, r', _, rfl, ⟨b3, b4⟩, b5, rfl, b6⟩

theorem shortRml_is : Is (shortRangeRmlC.read t) t Fmt32.shortRml := by
  refine (Is.hdr fun r => Is.andThen (Is.seqC (is_list (P := rmlParametersOk)) _) fun _ => is_list (P := triangleOk)).congr ?_
  intro x rs
  simp only [many_map, rmlParams_iff, triangle_iff]
  constructor
  · rintro ⟨c, r, rfl, _, r1, r2, rfl, ⟨h1, rfl, h2⟩, rfl, h3⟩
    exact ⟨c, by simp, h1, h2, h3⟩
  · rintro ⟨c, rfl, h1, h2, h3⟩
    exact ⟨c, x.2.1.map .list ++ [.list x.2.2], by simp, trivial, _, _, rfl, ⟨h1, rfl, h2⟩, rfl, h3⟩

theorem unresolved_is : Is (unresolvedC.read t) t Fmt32.unresolved := by
  refine (Is.hdr fun r => Is.andThen (Is.seqC (is_list (P := lvalueAOk)) _) fun _ => is_list (P := triangleOk)).congr ?_
  intro x rs
  have k : ∀ l : LIST, lvalueAOk l ↔ toInt32 l.data.length = 6 * toInt32 l.n2 := by intro l; simp only [lvalueAOk, LIST.npl]
  simp only [many_map, k, triangle_iff]
  constructor
  · rintro ⟨c, r, rfl, h0, r1, r2, rfl, ⟨h1, rfl, h2⟩, rfl, h3⟩
    exact ⟨c, by simp, h0, h1, h2, h3⟩
  · rintro ⟨c, rfl, h0, h1, h2, h3⟩
    exact ⟨c, x.2.1.map .list ++ [.list x.2.2], by simp, h0, _, _, rfl, ⟨h1, rfl, h2⟩, rfl, h3⟩

theorem compactGroup_is : Is (compactGroupC.read t) t (fun g rs => rs = [.list g.1, .list g.2] ∧ (1 ≤ toInt32 g.1.n2 ∧ toInt32 g.1.data.length = 6 * toInt32 g.1.n2 ∧
    1 ≤ toInt32 g.2.data.length ∧ 12 ∣ toInt32 g.2.data.length)) := by
  refine (Is.andThen (c := channelsC) (is_list (P := channelsOk)) fun _ => is_list (P := compactRmlParametersOk)).congr ?_
  intro x rs
  simp only [channels_iff, compactRmlParams_iff]
  constructor
  · rintro ⟨r1, r2, rfl, ⟨rfl, h1, h2⟩, rfl, h3, h4⟩; exact ⟨rfl, h1, h2, h3, h4⟩
  · rintro ⟨rfl, h1, h2, h3, h4⟩; exact ⟨[_], [_], rfl, ⟨rfl, h1, h2⟩, rfl, h3, h4⟩

theorem compactRml_is : Is (compactRmlC.read t) t Fmt32.compactRml := by
  refine (Is.checked (Is.andThen (c := particlePairsC) (is_list (P := particlePairsOk)) fun l => Is.seqC compactGroup_is _)).congr ?_
  intro x rs
  simp only [many_exact, pairs_iff, toInt32_toInt32]
  constructor
  · rintro ⟨⟨r1, r2, rfl, ⟨rfl, h1, h2⟩, h3, rfl, h4⟩, h5⟩
    exact ⟨rfl, h1, h2, h3, (count_pos h3).mp (by omega), h4⟩
  · rintro ⟨rfl, h1, h2, h3, h5, h4⟩
    exact ⟨⟨[_], _, rfl, ⟨rfl, h1, h2⟩, h3, rfl, h4⟩, by have := (count_pos h3).mpr h5; omega⟩

theorem compact_is {δ α : Type} {dap : Comp δ} {unc : Comp α} {D : δ → List Rec → Prop} {U : α → List Rec → Prop} (h1 : Is (dap.read t) t D)
    (h2 : Is (unc.read t) t U) : Is32 ((compactC dap unc).read t) t (Fmt32.compact D U) := by
  refine (Is32.contBind fun c => Is32.map (Is32.bind (Is32.lift (optional_is h1 _)) fun o => Is32.map (Is32.bind (Is32.lift h2) fun u => Is32.map Is32.matrix))).congr ?_
  rintro ⟨h, o, u, m⟩ rs
  constructor
  · rintro ⟨c, r, rfl, b, e1, o', _, _, rfl, ⟨r1, rfl, a1⟩, b', rfl, u', _, _, rfl, ⟨r2, rfl, a2⟩, m', rfl, rfl⟩
    cases e1
    exact ⟨c, r1, r2, by simp, rfl, a1, a2⟩
  · rintro ⟨c, r1, r2, rfl, rfl, a1, a2⟩
    exact ⟨c, r1.map .plain ++ (r2.map .plain ++ [.matrix m]), by simp, (o, u, m), rfl, o, _, _, rfl, ⟨r1, rfl, a1⟩, (u, m), rfl, u, _, _, rfl,
      ⟨r2, rfl, a2⟩, m, rfl, rfl⟩

theorem params_is : (k : CovType) → Is32 (k.comp.read t) t (Fmt32.params k)
  | .limitedSLBW => Is32.lift limited_is
  | .limitedMLBW => Is32.lift limited_is
  | .generalSLBW => Is32.lift (general_is dap_is (list_is shortOk_iff))
  | .generalMLBW => Is32.lift (general_is dap_is (list_is shortOk_iff))
  | .generalRM => Is32.lift (general_is dapList_is (list_is shortOk_iff))
  | .generalRML => Is32.lift (general_is dapNone_is shortRml_is)
  | .compactSLBW => compact_is dap_is (list_is compactOk_iff)
  | .compactMLBW => compact_is dap_is (list_is compactOk_iff)
  | .compactRM => compact_is dapList_is (list_is compactOk_iff)
  | .compactRML => compact_is dapNone_is compactRml_is
  | .unresolved => Is32.lift unresolved_is

theorem isType_iff (lru lrf lcomp : Int) (k : CovType) : CovType.ofFlags lru lrf lcomp = some k ↔ Fmt32.isType lru lrf lcomp k := by
  unfold CovType.ofFlags
  constructor
  · intro h
    repeat' split at h
    all_goals first
      | (cases h; done)
      | (cases h; simp only [Fmt32.isType]; first | omega | exact ⟨by omega, by omega, by omega⟩)
  · intro h
    cases k <;> simp only [Fmt32.isType] at h <;> first
      | (obtain ⟨rfl, rfl, rfl⟩ := h; rfl)
      | (subst h; rfl)

theorem covParams_is (lru lrf : Int) : Is32 (CovParams.read lru lrf t) t
    (fun p rs => ∃ c r, rs = .look c :: r ∧ Fmt32.isType lru lrf (toInt32 c.l2) p.type ∧ Fmt32.params p.type p.data r) := by
  rintro s ⟨k, x⟩ s'
  unfold CovParams.read
  constructor
  · intro h
    split at h
    · cases h
    · rename_i c s1 hc
      cases hk : CovType.ofFlags lru lrf (toInt32 c.l2) with
      | none => rw [hk] at h; cases h
      | some k' =>
        rw [hk] at h
        obtain ⟨y, s2, h1, h2⟩ := Parser.bind_eq_ok.mp h
        rw [Parser.pure_run] at h2
        injection h2 with h2; injection h2 with h2 h3
        cases h2; subst h3
        obtain ⟨rs, a1, a2⟩ := (params_is k _ _ _).mp h1
        exact ⟨.look c :: rs, recs32_cons.mpr ⟨_, ⟨s1, hc, rfl⟩, a1⟩, c, rs, rfl, (isType_iff _ _ _ _).mp hk, a2⟩
  · rintro ⟨_, h, c, r, rfl, h1, h2⟩
    obtain ⟨s1, ⟨s2, hc, rfl⟩, h4⟩ := recs32_cons.mp h
    rw [hc]
    simp only
    rw [(isType_iff _ _ _ _).mpr h1]
    exact Parser.bind_eq_ok.mpr ⟨x, s', (params_is k _ _ _).mpr ⟨r, h4, h2⟩, rfl⟩

/-! ### ranges and isotopes -/

theorem radius_is : Is (radiusCovC.read t) t Fmt32.radius := by
  refine (Is.hdr fun r => Is.seqC explicit_is _).congr ?_
  intro x rs
  simp only [many_map]
  constructor
  · rintro ⟨c, r, rfl, _, h1, rfl, h2⟩; exact ⟨c, rfl, h1, h2⟩
  · rintro ⟨c, rfl, h1, h2⟩; exact ⟨c, _, rfl, trivial, h1, rfl, h2⟩

theorem isType_lru {lru lrf lcomp : Int} {k : CovType} (h : Fmt32.isType lru lrf lcomp k) : lru = k.lru ∧ (lru = 1 → lrf = k.lrf) := by
  cases k <;> simp [Fmt32.isType, CovType.lru, CovType.lrf] at h ⊢ <;> omega

theorem range_is : Is32 (CovRange.read t) t Fmt32.range := by
  refine (Is32.contBind fun c => Is32.ite (fun _ => Is32.fail _) fun _ => Is32.bind (Is32.lift (Is.opt radius_is)) fun o =>
    Is32.bind (covParams_is _ _) fun p => Is32.ite (fun _ => Is32.pure _) fun _ => Is32.fail _).congr ?_
  intro x rs
  constructor
  · rintro ⟨c, r, rfl, (⟨_, h⟩ | ⟨h0, o, _, _, rfl, ⟨r1, rfl, h1⟩, p, _, _, rfl, ⟨c', r', rfl, h2, h3⟩, (⟨h4, rfl, rfl⟩ | ⟨_, h⟩)⟩)⟩
    · exact h.elim
    · obtain ⟨e1, e2⟩ := isType_lru h2
      obtain ⟨o1, o2, o3, o4⟩ := h4
      refine ⟨c, r1, c', r', by simp, rfl, rfl, rfl, h2, h3, ?_, ?_⟩
      · cases o with
        | none => exact (o1 rfl).1
        | some a => exact (o2 rfl).1
      · rcases h1 with ⟨a, rfl, h1, h5⟩ | ⟨rfl, h1, rfl⟩
        · refine .inr ⟨h1, ⟨a, rfl, h5⟩, (o2 rfl).2, fun hc => o4 rfl ⟨by omega, ?_⟩⟩
          rw [← e2 hc.1]; exact hc.2
        · exact .inl ⟨by omega, rfl, rfl, (o1 rfl).2⟩
    · exact h.elim
  · rintro ⟨c, r, c', r', rfl, h1, h2, h3, h4, h5, h6, h7⟩
    obtain ⟨e1, e2⟩ := isType_lru h4
    refine ⟨c, r.map .plain ++ .look c' :: r', by simp, .inr ⟨by omega, x.radius, _, _, rfl, ⟨r, rfl, ?_⟩, x.parameters, _, [], by simp, ⟨c', r', rfl, h4, h5⟩,
      .inl ⟨?_, rfl, ?_⟩⟩⟩
    · rcases h7 with ⟨a, b, d, f⟩ | ⟨a, ⟨y, b, d⟩, f⟩
      · exact .inr ⟨b, by omega, d⟩
      · exact .inl ⟨y, b, a, d⟩
    · rw [← h3]
      rcases h7 with ⟨a, b, d, f⟩ | ⟨a, ⟨y, b, d⟩, f, g⟩
      · simp [covOptionsOk, b]; omega
      · simp only [covOptionsOk, b, Option.isSome_some, reduceCtorEq, false_implies, true_implies, true_and]
        refine ⟨⟨h6, f⟩, ?_, ?_⟩
        · generalize x.parameters.type = k; cases k <;> simp [CovType.lru]
        · rintro ⟨g1, g2⟩
          exact g ⟨by omega, by rw [e2 (by omega)]; exact g2⟩
    · rw [← h1, ← h2, ← h3]

theorem covIsotope_is : Is32 (CovIsotope.read t) t Fmt32.isotope := by
  refine (Is32.mapErr (Is32.contBind fun c => Is32.map (Is32.sequence range_is _))).congr ?_
  intro x rs
  constructor
  · rintro ⟨c, r, rfl, e, rfl, h3, h4⟩; exact ⟨c, r, rfl, rfl, rfl, by simp [toBool], h3, h4⟩
  · rintro ⟨c, r, rfl, h1, h2, h3, h4, h5⟩
    rw [← toBool_iff] at h3
    exact ⟨c, r, rfl, x.ranges, by rw [← h1, ← h2, ← h3], h4, h5⟩

theorem mf32mt151_is (head : Division) : Is32 (mf32mt151.read head t) t (Fmt32.body head.base) := by
  refine (Is32.bind (Is32.sequence covIsotope_is _) fun b => Is32.ite (fun _ => Is32.fail _) fun _ => Is32.pure _).congr ?_
  intro x rs
  constructor
  · rintro ⟨b, r1, r2, rfl, ⟨h1, h2⟩, (⟨_, h⟩ | ⟨h3, rfl, rfl⟩)⟩
    · exact h.elim
    · exact ⟨h1, (count_pos h1).mp (by omega), by simpa using h2⟩
  · rintro ⟨h1, h2, h3⟩
    have := (count_pos h1).mpr h2
    exact ⟨x, rs, [], by simp, ⟨h1, h3⟩, .inr ⟨by omega, rfl, rfl⟩⟩

end
end ENDFtk

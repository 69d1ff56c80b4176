import Verif.Section.Base
import Verif.Tree.ContentLemmas
/-
  What follows for a section type from the requirements `SecDef.Law`.
-/
set_option linter.unusedVariables false
set_option linter.unusedSectionVars false
set_option linter.unusedSimpArgs false
namespace ENDFtk
variable [Disco]

/-- Failures that stay failures of the same kind when they are caught and thrown again. -/
class ErrOk (E : Err → Prop) : Prop where
  std : ∀ e, StdErr e → E e
  again : ∀ e, E e → E (catchStd e)

theorem catchStd_std {e : Err} (h : StdErr e) : StdErr (catchStd e) := by
  cases e <;> simp_all [catchStd, StdErr, Err.isStd]

instance : ErrOk StdErr := ⟨fun _ h => h, fun _ => catchStd_std⟩
instance : ErrOk UbErr := ⟨fun _ h => .inl h, fun e h => h.elim (fun h => .inl (catchStd_std h)) (fun h => .inr (by subst h; rfl))⟩

theorem isSend_zero {d : Division} (h : d.isSend = true) : ZeroCols d.base ∧ d.tail.mt = 0 ∧ d.tail.mf ≠ 0 ∧ 0 < d.tail.mat := by
  simp [Division.isSend, Division.isSendPermissive, Division.baseIsZero] at h
  simp only [ZeroCols]
  grind

theorem readSEND_reads (mat mf : Int) : Reads StdErr (fun _ ls => ∃ l, ls = [l] ∧ SendLine mat mf l) (readSEND mat mf) := by
  unfold readSEND
  refine Reads.mapErr (E := StdErr) ?_ (fun e => catchStd_std)
  refine Reads.bind readDivision_reads ?_
  rintro d ls ⟨l, rfl, h1, h2, h3, h4, h5⟩
  refine Reads.ite (fun _ => Reads.fail rfl) fun hs => Reads.ite (fun _ => Reads.fail rfl) fun hm =>
    Reads.ite (fun _ => Reads.fail rfl) fun hf => Reads.pure ?_
  obtain ⟨k1, k2, k3, k4⟩ := isSend_zero (d := d) (by simpa using hs)
  have e1 : mat = d.tail.mat := by simpa using hm
  have e2 : mf = d.tail.mf := by simpa using hf
  refine ⟨l, rfl, d.base, h1, k1, ?_, by omega, by omega⟩
  rw [e1, e2, ← k2]; exact h2

theorem readSEND_print {mat mf : Int} (h1 : 1 ≤ mat) (h2 : fits 4 mat) (h3 : 1 ≤ mf) (h4 : mf < 100) (s : Text) (n : Int) :
    readSEND mat mf ⟨unlines [endRecord ⟨mat, mf, 0⟩] ++ s, n⟩ = .ok ((), ⟨s, n + 1⟩) := by
  have ht : Nums.Fit ⟨mat, mf, 0⟩ := ⟨h2, by simp [fits]; omega, fits_zero 2⟩
  rw [← printEnd_eq ht (by simp [Division.isHead])]
  unfold readSEND
  rw [Parser.mapErr_ok]
  rw [Parser.bind_ok (readDivision_print (by simp [Division.isHead]) (by simp) ht (by simp; omega) (by simp; omega) (by simp) s n)]
  rw [if_neg]
  · simp [Parser.pure_run]
  · simp [Division.isSend, Division.isSendPermissive, Division.baseIsZero, zeroCont, Disco.eqD_zero]
    omega

/-- The line the section prints for its HEAD record is read as such. -/
theorem headCont_ok {β : Type} {D : SecDef β} {E : Err → Prop} (hD : D.Law E) {x : Sect β} (hv : D.WellFormed x) (hr : Reps (D.realsSect x)) : (D.headCont x).Ok := by
  obtain ⟨h1, h2, h3, h4⟩ := hD.head_fits hv.2.2.2.2.2
  exact Cont.ok_iff.mpr ⟨⟨h1, h2, h3, h4⟩, hr _ (by simp [SecDef.realsSect, SecDef.headCont]), hr _ (by simp [SecDef.realsSect, SecDef.headCont])⟩

theorem mf_fits {β : Type} {D : SecDef β} {E : Err → Prop} (hD : D.Law E) : fits 2 D.mf := by
  have := hD.mf_pos; simp [fits]; omega

theorem mt_pos {β : Type} {D : SecDef β} {E : Err → Prop} (hD : D.Law E) {x : Sect β} (hv : D.WellFormed x) : 1 ≤ x.mt := by
  have h := hv.2.2.2.1
  cases hf : D.fixedMT with
  | none => simpa [hf] using h
  | some mt => have := hD.mt_fits mt hf; simp [hf] at h; omega

/-- The HEAD record of a printed section. -/
def SecDef.headDiv {β : Type} (D : SecDef β) (x : Sect β) (mat : Int) : Division := ⟨D.headCont x, ⟨mat, D.mf, x.mt⟩⟩

theorem readDivision_head {β : Type} {D : SecDef β} {E : Err → Prop} (hD : D.Law E) {x : Sect β} (hv : D.WellFormed x) (hr : Reps (D.realsSect x))
    {mat : Int} (h1 : 1 ≤ mat) (h2 : fits 4 mat) (s : Text) (n : Int) :
    readDivision ⟨printCont (D.headCont x) ⟨mat, D.mf, x.mt⟩ ++ s, n⟩ = .ok (D.headDiv x mat, ⟨s, n + 1⟩) := by
  have h3 := hD.mf_pos
  have h4 := mt_pos hD hv
  have hh : (D.headDiv x mat).isHead = true := by
    have e1 : x.mt ≠ 0 := by omega
    have e2 : D.mf ≠ 0 := by omega
    have e3 : mat ≠ 0 := by omega
    simp [Division.isHead, SecDef.headDiv, e1, e2, e3]
  have e : printCont (D.headCont x) ⟨mat, D.mf, x.mt⟩ = (D.headDiv x mat).print := by
    rw [Division.print, if_pos hh]; rfl
  rw [e]
  exact readDivision_print (fun _ => headCont_ok hD hv hr) (fun h => by simp [hh] at h) ⟨h2, mf_fits hD, hv.2.2.2.2.1⟩
    (by show -1 ≤ mat; omega) (by show 0 ≤ D.mf; omega) (by show 0 ≤ x.mt; omega) s n

/-- `print` of a valid section. -/
theorem print_eq {β : Type} {D : SecDef β} {E : Err → Prop} (hD : D.Law E) (x : Sect β) {mat : Int} (h1 : 1 ≤ mat) (h2 : fits 4 mat) :
    D.print x mat D.mf = .ok (D.lines x mat D.mf ++ unlines [endRecord ⟨mat, D.mf, 0⟩]) := by
  have h3 := hD.mf_pos
  rw [SecDef.print, SEND, if_neg (by omega), if_neg (by omega)]
  simp only
  rw [printEnd_eq (t := ⟨mat, D.mf, 0⟩) ⟨h2, mf_fits hD, fits_zero 2⟩ (by simp [Division.isHead])]

theorem checkHead_headDiv {β : Type} {D : SecDef β} {E : Err → Prop} (hD : D.Law E) {x : Sect β} (hv : D.WellFormed x) (mat : Int) :
    (if D.checksHead then checkHead (D.headDiv x mat) mat D.mf (D.mtCheck (D.headDiv x mat))
      else checkBase (headZA (D.headDiv x mat)) (D.headDiv x mat).base.c2 (D.mtCheck (D.headDiv x mat))) = .ok () := by
  obtain ⟨a1, a2, a3, a4, a5, a6⟩ := hv
  have hz : headZA (D.headDiv x mat) = x.za := by
    simp only [headZA, SecDef.headDiv, SecDef.headCont]
    rw [Disco.round_ofInt _ a2.1 a2.2, toInt32_id a2.1 a2.2]
  have hb : checkBase (headZA (D.headDiv x mat)) (D.headDiv x mat).base.c2 (D.mtCheck (D.headDiv x mat)) = .ok () := by
    unfold checkBase
    rw [hz, if_neg (by omega)]
    have hc : (D.headDiv x mat).base.c2 = x.awr := rfl
    rw [hc, a3]
    cases hf : D.fixedMT with
    | none =>
      simp only [hf] at a4
      simp [hf, SecDef.headDiv, SecDef.mtCheck]
      omega
    | some mt => simp [hf, SecDef.headDiv, SecDef.mtCheck]
  rw [checkHead, hb]
  simp [SecDef.headDiv]

/-- A valid section that is printed is read back; every line is consumed, including SEND. -/
theorem sect_readSect {β : Type} {D : SecDef β} {E : Err → Prop} (hD : D.Law E) {x : Sect β} (hv : D.ValidSect x) (hr : Reps (D.realsSect x))
    {mat : Int} (h1 : 1 ≤ mat) (h2 : fits 4 mat) (s : Text) (n : Int) :
    D.readSect (D.headDiv x mat) mat ⟨D.body x.awr x.data ⟨mat, D.mf, x.mt⟩ ++ unlines [endRecord ⟨mat, D.mf, 0⟩] ++ s, n⟩
      = .ok (x, ⟨s, n + (D.NC x : Int)⟩) := by
  have hm : D.mtOf (D.headDiv x mat) = x.mt := by
    have := hv.1.2.2.2.1
    cases hf : D.fixedMT <;> simp [hf, SecDef.mtOf, SecDef.headDiv] at this ⊢
    exact this.symm
  have hn : D.recNums (D.headDiv x mat) mat = ⟨mat, D.mf, x.mt⟩ := by
    simp [SecDef.recNums, hm]
    simp [SecDef.headDiv]
  have hz : headZA (D.headDiv x mat) = x.za := by
    simp only [headZA, SecDef.headDiv, SecDef.headCont]
    rw [Disco.round_ofInt _ hv.1.2.1.1 hv.1.2.1.2, toInt32_id hv.1.2.1.1 hv.1.2.1.2]
  have hp := hD.mf_pos
  unfold SecDef.readSect
  rw [Parser.mapErr_ok, checkHead_headDiv hD hv.1 mat, hn, hm, List.append_assoc]
  show ((D.read _ _ >>= _) : Parser _) _ = _
  rw [Parser.bind_ok (hD.round (D.headDiv x mat) hv.1.2.2.2.2.2 (hr x.awr (by simp [SecDef.realsSect])) (fun y hy => hr y (by simp [SecDef.realsSect, hy]))
    (t := ⟨mat, D.mf, x.mt⟩) ⟨h2, mf_fits hD, hv.1.2.2.2.2.1⟩ rfl hv.2 _ n),
    Parser.bind_ok (readSEND_print h1 h2 hp.1 hp.2 s _), hz]
  simp [SecDef.NC, Parser.pure_run, Int.add_assoc, SecDef.headDiv, SecDef.headCont]

theorem sect_round {β : Type} {D : SecDef β} {E : Err → Prop} (hD : D.Law E) {x : Sect β} (hv : D.ValidSect x) (hr : Reps (D.realsSect x))
    {mat : Int} (h1 : 1 ≤ mat) (h2 : fits 4 mat) : ∃ txt, D.print x mat D.mf = .ok txt ∧
      ∀ s n, D.parse ⟨txt ++ s, n⟩ = .ok (x, ⟨s, n + (D.NC x : Int) + 1⟩) := by
  refine ⟨_, print_eq hD x h1 h2, fun s n => ?_⟩
  rw [SecDef.parse, SecDef.lines, List.append_assoc, List.append_assoc, Parser.bind_ok (readDivision_head hD hv.1 hr h1 h2 _ n)]
  rw [← List.append_assoc]
  have := sect_readSect hD hv hr h1 h2 s (n + 1)
  rw [show (D.headDiv x mat).tail.mat = mat from rfl, this]
  congr 3; omega

/-- What is printed: `NC()` canonical lines and the SEND line. -/
theorem sect_canon {β : Type} {D : SecDef β} {E : Err → Prop} (hD : D.Law E) {x : Sect β} (hv : D.WellFormed x) {mat : Int} (h1 : 1 ≤ mat) (h2 : fits 4 mat) :
    ∃ ls, D.print x mat D.mf = .ok (unlines (ls ++ [endRecord ⟨mat, D.mf, 0⟩])) ∧ ls.length = D.NC x ∧
      ∀ l ∈ ls, CanonicalLine ⟨mat, D.mf, x.mt⟩ l := by
  have ht : Nums.Fit ⟨mat, D.mf, x.mt⟩ := ⟨h2, mf_fits hD, hv.2.2.2.2.1⟩
  obtain ⟨ls, e1, e2, e3⟩ := (Cont.Fits.canonical (c := D.headCont x) (hD.head_fits hv.2.2.2.2.2) ht).append (hD.canon x.awr hv.2.2.2.2.2 ht)
  refine ⟨ls, ?_, ?_, e3⟩
  · rw [print_eq hD x h1 h2, SecDef.lines, e1]; simp
  · rw [e2, SecDef.NC]; omega

/-- What a section that was read looks like on the tape after its HEAD line: `NC() - 1` lines with these numbers, and the SEND line. -/
def SecDef.Shows {β : Type} (D : SecDef β) (t : Nums) (mat : Int) (x : Sect β) (ls : List Text) : Prop :=
  ∃ mid e, ls = mid ++ [e] ∧ AllTail t mid ∧ mid.length = D.nc x.data ∧ SendLine mat D.mf e

theorem Reads.withOk {α : Type} {E : Err → Prop} {Q : α → List Text → Prop} {R : α → Prop} {p : Parser α} (h : Reads E Q p)
    (hR : ∀ s a s', p s = .ok (a, s') → R a) : Reads E (fun a ls => Q a ls ∧ R a) p := by
  apply Reads.intro
  · intro s a s' hp
    obtain ⟨ls, h1, h2, h3⟩ := h.ok hp
    exact ⟨ls, h1, h2, h3, hR s a s' hp⟩
  · intro s e hp; exact h.err hp

theorem readSect_reads {β : Type} {D : SecDef β} {E : Err → Prop} [ErrOk E] (hD : D.Law E) (head : Division) (hf : head.base.Fits) (ht : fits 3 head.tail.mt) (mat : Int) :
    Reads E (fun x ls => D.WellFormed x ∧ (D.strict = true → D.ValidSect x) ∧ (D.checksHead = true → head.tail.mat = mat ∧ head.tail.mf = D.mf) ∧
      (D.fixedMT = none → head.tail.mt = x.mt) ∧ x.za = headZA head ∧ x.awr = head.base.c2 ∧ x.mt = D.mtOf head ∧
      D.Shows (D.recNums head mat) mat x ls) (D.readSect head mat) := by
  unfold SecDef.readSect
  refine Reads.mapErr (E := E) ?_ (fun e => ErrOk.again e)
  refine Reads.bind (Q := fun _ ls => ls = [] ∧ (if D.checksHead then checkHead head mat D.mf (D.mtCheck head)
    else checkBase (headZA head) head.base.c2 (D.mtCheck head)) = .ok ()) (Reads.liftE (fun a h => ⟨rfl, h⟩) ?_) ?_
  · intro e h
    have he : e = .exc := by unfold checkHead checkBase at h; grind
    exact ErrOk.std e (by rw [he]; rfl)
  · rintro _ _ ⟨rfl, hc⟩
    refine Reads.bind ((hD.reads head _ hf).withOk (R := fun b => D.strict = true → D.mtOk _ b) (fun _ _ _ h hs => hD.mt_reads hs h)) ?_
    rintro b ls ⟨⟨v1, v2, v3⟩, v4⟩
    refine Reads.bind ((readSEND_reads mat D.mf).conseq (E' := E) ErrOk.std (fun _ _ h => h)) ?_
    rintro _ _ ⟨l, rfl, hl⟩
    refine Reads.pure ?_
    have hb : checkBase (headZA head) head.base.c2 (D.mtCheck head) = .ok () ∧
        (D.checksHead = true → head.tail.mat = mat ∧ head.tail.mf = D.mf) := by
      unfold checkHead at hc; grind
    obtain ⟨hb, hcm⟩ := hb
    unfold checkBase at hb
    split at hb
    · cases hb
    split at hb
    · cases hb
    rename_i g3 g4
    have hw : D.WellFormed ⟨headZA head, head.base.c2, D.mtOf head, b⟩ := by
      refine ⟨by simp only; omega, toInt32_range _, by simpa using g4, ?_, ?_, v1⟩
      · cases hm : D.fixedMT with
        | none => simpa [hm, SecDef.mtOf, SecDef.mtCheck] using hb
        | some mt => simp [SecDef.mtOf, hm]
      · cases hm : D.fixedMT with
        | none => simpa [SecDef.mtOf, hm] using ht
        | some mt => simpa [SecDef.mtOf, hm] using (hD.mt_fits mt hm).2
    refine ⟨hw, fun hs => ⟨hw, ?_⟩, hcm, ?_, rfl, rfl, rfl, ⟨ls, l, by simp, v2, v3, hl⟩⟩
    · cases hm : D.recHeadMT with
      | true => exact hD.mt_any hm _ _
      | false => simpa [SecDef.recNums, hm] using v4 hs
    · intro hm; simp [SecDef.mtOf, hm]

theorem parse_reads {β : Type} {D : SecDef β} {E : Err → Prop} [ErrOk E] (hD : D.Law E) :
    Reads E (fun x ls => D.WellFormed x ∧ (D.strict = true → D.ValidSect x) ∧ ∃ hl rest hd mat mf mt, ls = hl :: rest ∧ ShowsCont hd hl ∧ HasTail ⟨mat, mf, mt⟩ hl ∧
      (D.checksHead = true → mf = D.mf) ∧ (D.fixedMT = none → mt = x.mt) ∧ x.za = toInt32 (Disco.round hd.c1) ∧ x.awr = hd.c2 ∧
      D.Shows ⟨mat, D.mf, if D.recHeadMT then mt else x.mt⟩ mat x rest) D.parse := by
  refine Reads.bind (readDivision_reads.conseq (E' := E) ErrOk.std (fun _ _ h => h)) ?_
  rintro d ls ⟨l, rfl, h1, h2, h3, h4, h5⟩
  refine (readSect_reads hD d (showsCont_fits h1) (fits_of_parse (cols_length 73 75 l) h2.2.2) d.tail.mat).post ?_
  rintro x ls ⟨a1, a0, a2, a3, a4, a5, a6, a7⟩
  refine ⟨a1, a0, l, ls, d.base, d.tail.mat, d.tail.mf, d.tail.mt, rfl, h1, h2, fun h => (a2 h).2, a3, a4, a5, ?_⟩
  have : D.recNums d d.tail.mat = ⟨d.tail.mat, D.mf, if D.recHeadMT then d.tail.mt else x.mt⟩ := by simp [SecDef.recNums, a6]
  rw [← this]; exact a7

end ENDFtk

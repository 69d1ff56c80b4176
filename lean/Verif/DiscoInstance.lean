import Verif.DiscoLemmas
/-
  A concrete instance of `Disco`: integers in decimal notation, reals as decimal floating point numbers written in the
  ENDF 11 column notation (" 1.001000+3", "-1.23456-12").  It shows that the assumptions on disco are consistent and is
  used for concrete examples and counterexamples.
-/
namespace ENDFtk

/-- Decimal floating point number `mant * 10 ^ exp`. -/
structure DecReal where
  mant : Int
  exp : Int
deriving DecidableEq, Repr

namespace Conc

def isDigit (c : Char) : Bool := decide (48 ≤ c.toNat ∧ c.toNat ≤ 57)

/-- value of a list of digits, `none` if some character is not a digit -/
def digitsVal : Nat → Text → Option Nat
  | acc, [] => some acc
  | acc, c :: s => if isDigit c then digitsVal (acc * 10 + (c.toNat - 48)) s else none

def dropBlanks : Text → Text
  | [] => []
  | c :: s => if c = ' ' then dropBlanks s else c :: s

def trim (t : Text) : Text := (dropBlanks (dropBlanks t).reverse).reverse

/-- unsigned, non empty -/
def natVal (t : Text) : Option Nat := if t = [] then none else digitsVal 0 t

def parseInt (t : Text) : Option Int :=
  match trim t with
  | [] => some 0
  | '-' :: s => (natVal s).map (fun n => -(n : Int))
  | '+' :: s => (natVal s).map (fun n => (n : Int))
  | s => (natVal s).map (fun n => (n : Int))

def padLeft (w : Nat) (t : Text) : Text := blanks (w - t.length) ++ t

def writeInt (w : Nat) (n : Int) : Text := padLeft w (dec n)

/-- `k` decimal digits of `n`, with leading zeros -/
def fixDigits : Nat → Nat → Text
  | 0, _ => []
  | k + 1, n => fixDigits k (n / 10) ++ [digitChar (n % 10)]

def signChar (b : Bool) : Char := if b then '-' else ' '
def expSign (b : Bool) : Char := if b then '-' else '+'

/-- ENDF 11 column notation: seven digits with a one digit exponent, or six digits with a two digit exponent. -/
def writeReal (x : DecReal) : Text :=
  let neg := decide (x.mant < 0)
  let m := x.mant.natAbs
  if m = 0 then " 0.000000+0".toList
  else if 1000000 ≤ m ∧ m < 10000000 ∧ (x.exp + 6).natAbs < 10 then
    signChar neg :: digitChar (m / 1000000) :: '.' :: fixDigits 6 m ++
      [expSign (decide (x.exp + 6 < 0)), digitChar (x.exp + 6).natAbs]
  else if 100000 ≤ m ∧ m < 1000000 ∧ (x.exp + 5).natAbs < 100 then
    signChar neg :: digitChar (m / 100000) :: '.' :: fixDigits 5 m ++
      expSign (decide (x.exp + 5 < 0)) :: fixDigits 2 (x.exp + 5).natAbs
  else "***********".toList

/-- digits up to the first character that is not a digit -/
def spanDigits : Text → Text × Text
  | [] => ([], [])
  | c :: s => if isDigit c then let r := spanDigits s; (c :: r.1, r.2) else ([], c :: s)

def parseExp : Text → Option Int
  | [] => some 0
  | '-' :: s => (natVal s).map (fun n => -(n : Int))
  | '+' :: s => (natVal s).map (fun n => (n : Int))
  | _ => none

def parseUnsigned (neg : Bool) (t : Text) : Option DecReal :=
  let (a, t1) := spanDigits t
  let (b, t2) := match t1 with
    | '.' :: t' => spanDigits t'
    | _ => ([], t1)
  match natVal (a ++ b), parseExp t2 with
  | some m, some e =>
    if m = 0 then some ⟨0, 0⟩
    else some ⟨if neg then -(m : Int) else m, e - b.length⟩
  | _, _ => none

def parseReal (t : Text) : Option DecReal :=
  match trim t with
  | [] => some ⟨0, 0⟩
  | '-' :: s => parseUnsigned true s
  | '+' :: s => parseUnsigned false s
  | s => parseUnsigned false s

/-- `x < y` -/
def ltD (x y : DecReal) : Bool :=
  let e := min x.exp y.exp
  decide (x.mant * 10 ^ (x.exp - e).toNat < y.mant * 10 ^ (y.exp - e).toNat)

def eqD (x y : DecReal) : Bool :=
  let e := min x.exp y.exp
  decide (x.mant * 10 ^ (x.exp - e).toNat = y.mant * 10 ^ (y.exp - e).toNat)

/-- nearest integer, halves away from zero -/
def round (x : DecReal) : Int :=
  if 0 ≤ x.exp then x.mant * 10 ^ x.exp.toNat
  else
    let d : Nat := 10 ^ (-x.exp).toNat
    let a : Nat := (2 * x.mant.natAbs + d) / (2 * d)
    if x.mant < 0 then -(a : Int) else a

/-- the integer part -/
def trunc (x : DecReal) : Int :=
  if 0 ≤ x.exp then x.mant * 10 ^ x.exp.toNat else Int.tdiv x.mant (10 ^ (-x.exp).toNat)

/-- power of ten that brings `n` to seven digits -/
def scaleOf (n : Nat) : Nat :=
  if n < 10 then 6 else if n < 100 then 5 else if n < 1000 then 4 else if n < 10000 then 3
  else if n < 100000 then 2 else if n < 1000000 then 1 else 0

def ofInt (n : Int) : DecReal :=
  if n = 0 then ⟨0, 0⟩ else ⟨n * 10 ^ scaleOf n.natAbs, -(scaleOf n.natAbs : Int)⟩

/-! ### the laws -/

theorem dropBlanks_blanks (k : Nat) (t : Text) : dropBlanks (blanks k ++ t) = dropBlanks t := by
  induction k with
  | zero => rfl
  | succ k ih => simp only [blanks, List.replicate_succ, List.cons_append, dropBlanks] at *; simpa using ih

theorem trim_blanks (k : Nat) : trim (blanks k) = [] := by
  have := dropBlanks_blanks k []
  simp at this
  simp [trim, this, dropBlanks]

theorem digitChar_isDigit (d : Nat) : isDigit (digitChar d) = true ∧ (digitChar d).toNat - 48 = d % 10 := by
  unfold digitChar
  have h : d % 10 < 10 := Nat.mod_lt _ (by decide)
  generalize d % 10 = m at h
  revert m
  decide

theorem digitChar_ne_blank (d : Nat) : digitChar d ≠ ' ' := by
  unfold digitChar
  have h : d % 10 < 10 := Nat.mod_lt _ (by decide)
  generalize d % 10 = m at h
  revert m
  decide

theorem digitsVal_append (t : Text) (c : Char) (acc : Nat) (v : Nat) (h : digitsVal acc t = some v) (hc : isDigit c = true) :
    digitsVal acc (t ++ [c]) = some (v * 10 + (c.toNat - 48)) := by
  induction t generalizing acc with
  | nil => simp [digitsVal] at *; simp [hc, h]
  | cons d t ih =>
    simp [digitsVal] at *
    exact ⟨h.1, ih _ h.2⟩

theorem digitsVal_decAux (fuel n : Nat) (hf : n < fuel) : digitsVal 0 (decAux fuel n) = some n := by
  induction fuel generalizing n with
  | zero => omega
  | succ k ih =>
    unfold decAux
    split
    · rename_i h
      have hd := digitChar_isDigit n
      simp [digitsVal, hd.1, hd.2]; omega
    · rename_i h
      have hd := digitChar_isDigit (n % 10)
      rw [digitsVal_append _ _ _ _ (ih (n / 10) (by omega)) hd.1, hd.2]
      simp; omega

theorem decAux_ne_nil (fuel n : Nat) (hf : 0 < fuel) : decAux fuel n ≠ [] := by
  cases fuel with
  | zero => omega
  | succ k => unfold decAux; split <;> simp

theorem natVal_decNat (n : Nat) : natVal (decNat n) = some n := by
  have h := decAux_ne_nil (n + 1) n (by omega)
  simp only [natVal, decNat, h, if_false]
  exact digitsVal_decAux _ _ (by omega)

theorem decAux_all_digits (fuel n : Nat) : ∀ c ∈ decAux fuel n, isDigit c = true := by
  induction fuel generalizing n with
  | zero => simp [decAux]
  | succ k ih =>
    unfold decAux
    split
    · simp; exact (digitChar_isDigit _).1
    · intro c hc
      simp at hc
      rcases hc with hc | rfl
      · exact ih _ c hc
      · exact (digitChar_isDigit _).1

theorem dropBlanks_id {t : Text} (h : ∀ c ∈ t, c ≠ ' ') : dropBlanks t = t := by
  cases t with
  | nil => rfl
  | cons c s => simp [dropBlanks, h c (by simp)]

theorem trim_blanks_append (k : Nat) {t : Text} (h : ∀ c ∈ t, c ≠ ' ') : trim (blanks k ++ t) = t := by
  unfold trim
  rw [dropBlanks_blanks, dropBlanks_id h, dropBlanks_id (by simpa using h)]
  simp

theorem isDigit_ne {c : Char} (h : isDigit c = true) : c ≠ ' ' ∧ c ≠ '-' ∧ c ≠ '+' := by
  refine ⟨?_, ?_, ?_⟩ <;> (rintro rfl; revert h; decide)

theorem dec_ne_blank (n : Int) : ∀ c ∈ dec n, c ≠ ' ' := by
  cases n with
  | ofNat n => intro c hc; exact (isDigit_ne (decAux_all_digits _ _ c hc)).1
  | negSucc n =>
    intro c hc
    simp [dec] at hc
    rcases hc with rfl | hc
    · decide
    · exact (isDigit_ne (decAux_all_digits _ _ c hc)).1

theorem parseInt_dec (k : Nat) (n : Int) : parseInt (blanks k ++ dec n) = some n := by
  unfold parseInt
  rw [trim_blanks_append k (dec_ne_blank n)]
  cases n with
  | ofNat n =>
    have hne := decAux_ne_nil (n + 1) n (by omega)
    have hd := decAux_all_digits (n + 1) n
    have hv := natVal_decNat n
    simp only [dec]
    unfold decNat at *
    cases hx : decAux (n + 1) n with
    | nil => exact absurd hx hne
    | cons c s =>
      have := isDigit_ne (hd c (by simp [hx]))
      rw [hx] at hv
      split
      · rename_i h; cases h
      · rename_i h; cases h; exact absurd rfl this.2.1
      · rename_i h; cases h; exact absurd rfl this.2.2
      · rw [hv]; rfl
  | negSucc n =>
    simp only [dec, natVal_decNat]
    simp; omega

theorem parseInt_blank (k : Nat) : parseInt (blanks k) = some 0 := by
  simp [parseInt, trim_blanks]

theorem digitsVal_lt {t : Text} : ∀ {acc v : Nat}, digitsVal acc t = some v → v < (acc + 1) * 10 ^ t.length := by
  induction t with
  | nil => intro acc v h; simp only [digitsVal, Option.some.injEq] at h; subst h; simp
  | cons c t ih =>
    intro acc v h
    simp only [digitsVal] at h
    split at h
    · rename_i hc
      have h1 := ih h
      have h2 : c.toNat - 48 ≤ 9 := by simp [isDigit] at hc; omega
      have h3 : acc * 10 + (c.toNat - 48) + 1 ≤ (acc + 1) * 10 := by omega
      have h4 := Nat.mul_le_mul_right (10 ^ t.length) h3
      rw [List.length_cons, Nat.pow_succ, Nat.mul_comm (10 ^ t.length) 10, ← Nat.mul_assoc]
      omega
    · cases h

theorem natVal_lt {t : Text} {v : Nat} (h : natVal t = some v) : v < 10 ^ t.length := by
  unfold natVal at h
  split at h
  · cases h
  · have := digitsVal_lt h
    omega

theorem dropBlanks_length (t : Text) : (dropBlanks t).length ≤ t.length := by
  induction t with
  | nil => simp [dropBlanks]
  | cons c t ih =>
    simp only [dropBlanks]
    split
    · simp; omega
    · simp

theorem trim_length (t : Text) : (trim t).length ≤ t.length := by
  have h1 := dropBlanks_length t
  have h2 := dropBlanks_length (dropBlanks t).reverse
  simp only [trim, List.length_reverse] at h2 ⊢
  omega

theorem parseInt_fits (f : Text) (n : Int) (h : parseInt f = some n) : fits f.length n := by
  have hl := trim_length f
  have hp : ∀ w, (0 : Int) < 10 ^ w := fun w => Int.pow_pos (by omega)
  have hpos : ∀ (s : Text) (v : Nat), s.length ≤ f.length → natVal s = some v → fits f.length (v : Int) := by
    intro s v hs hv
    have h1 := natVal_lt hv
    have h2 : v < 10 ^ f.length := Nat.lt_of_lt_of_le h1 (Nat.pow_le_pow_right (by omega) hs)
    refine ⟨by exact_mod_cast h2, ?_⟩
    have := hp (f.length - 1)
    omega
  unfold parseInt at h
  split at h
  · cases h
    refine ⟨hp _, ?_⟩
    have := hp (f.length - 1)
    omega
  · rename_i s heq
    cases hv : natVal s with
    | none => simp [hv] at h
    | some v =>
      simp [hv] at h
      subst h
      rw [heq] at hl
      simp only [List.length_cons] at hl
      have h1 := natVal_lt hv
      have h2 : v < 10 ^ (f.length - 1) := Nat.lt_of_lt_of_le h1 (Nat.pow_le_pow_right (by omega) (by omega))
      have h3 : (v : Int) < 10 ^ (f.length - 1) := by exact_mod_cast h2
      have := hp f.length
      exact ⟨by omega, by omega⟩
  · rename_i s heq
    cases hv : natVal s with
    | none => simp [hv] at h
    | some v =>
      simp [hv] at h
      subst h
      rw [heq] at hl
      simp only [List.length_cons] at hl
      exact hpos s v (by omega) hv
  · cases hv : natVal (trim f) with
    | none => simp [hv] at h
    | some v =>
      simp [hv] at h
      subst h
      exact hpos _ v hl hv

theorem fixDigits_length (k n : Nat) : (fixDigits k n).length = k := by
  induction k generalizing n with
  | zero => rfl
  | succ k ih => simp [fixDigits, ih]

theorem fixDigits_nl (k n : Nat) : '\n' ∉ fixDigits k n := by
  induction k generalizing n with
  | zero => simp [fixDigits]
  | succ k ih => simp [fixDigits, ih]; exact fun h => digitChar_ne_nl _ h.symm

theorem writeReal_length (x : DecReal) : (writeReal x).length = 11 := by
  unfold writeReal
  dsimp only
  split
  · decide
  · split
    · simp [fixDigits_length]
    · split
      · simp [fixDigits_length]
      · decide

theorem writeReal_nl (x : DecReal) : '\n' ∉ writeReal x := by
  have hd : ∀ d, '\n' ≠ digitChar d := fun d h => digitChar_ne_nl d h.symm
  have hs : ∀ b, '\n' ≠ signChar b := by decide
  have he : ∀ b, '\n' ≠ expSign b := by decide
  unfold writeReal
  dsimp only
  split
  · decide
  · split
    · simp [fixDigits_nl, hd, hs, he]
    · split
      · simp [fixDigits_nl, hd, hs, he]
      · decide

theorem trunc_ofInt (n : Int) : trunc (ofInt n) = n := by
  unfold ofInt
  split
  · rename_i h; subst h; rfl
  · rename_i hn
    generalize scaleOf n.natAbs = k
    unfold trunc
    dsimp only
    cases k with
    | zero => simp
    | succ k =>
      rw [if_neg (by omega)]
      have e1 : (- -((k + 1 : Nat) : Int)).toNat = k + 1 := by omega
      rw [e1]
      exact Int.mul_tdiv_cancel _ (Int.ne_of_gt (Int.pow_pos (by decide)))

theorem round_ofInt (n : Int) : round (ofInt n) = n := by
  unfold ofInt
  split
  · rename_i h; subst h; rfl
  · rename_i hn
    generalize scaleOf n.natAbs = k
    unfold round
    dsimp only
    cases k with
    | zero => simp
    | succ k =>
      rw [if_neg (by omega)]
      have e1 : (- -((k + 1 : Nat) : Int)).toNat = k + 1 := by omega
      rw [e1]
      have hp : 0 < 10 ^ (k + 1) := Nat.pow_pos (by decide)
      have e2 : (n * 10 ^ (k + 1)).natAbs = n.natAbs * 10 ^ (k + 1) := by
        rw [Int.natAbs_mul, Int.natAbs_pow]; rfl
      rw [e2]
      generalize hD : 10 ^ (k + 1) = D at *
      have hD' : (10 : Int) ^ (k + 1) = (D : Int) := by rw [← hD]; push_cast; rfl
      rw [hD']
      have e3 : (2 * (n.natAbs * D) + D) / (2 * D) = n.natAbs := by
        rw [show 2 * (n.natAbs * D) + D = D + (2 * D) * n.natAbs by
              rw [Nat.mul_assoc, Nat.mul_comm D]; omega,
            Nat.add_mul_div_left _ _ (by omega)]
        have : D / (2 * D) = 0 := Nat.div_eq_of_lt (by omega)
        omega
      rw [e3]
      have hDpos : (0 : Int) < D := by exact_mod_cast hp
      by_cases hneg : n < 0
      · have : n * (D : Int) < 0 := Int.mul_neg_of_neg_of_pos hneg hDpos
        rw [if_pos this]; omega
      · have : ¬ n * (D : Int) < 0 := by
          have := Int.mul_nonneg (by omega : 0 ≤ n) (Int.le_of_lt hDpos); omega
        rw [if_neg this]; omega

end Conc

/-- The assumptions on disco are satisfiable. -/
@[reducible] def concDisco : Disco where
  Dbl := DecReal
  decEqDbl := inferInstance
  zero := ⟨0, 0⟩
  eqD := Conc.eqD
  ltD := Conc.ltD
  round := Conc.round
  ofInt := Conc.ofInt
  trunc := Conc.trunc
  parseReal := Conc.parseReal
  writeReal := Conc.writeReal
  parseInt := Conc.parseInt
  writeInt := Conc.writeInt
  parseReal_blank n := by simp [Conc.parseReal, Conc.trim_blanks]
  parseInt_blank := Conc.parseInt_blank
  writeInt_fits w n _ := rfl
  parseInt_dec := Conc.parseInt_dec
  parseInt_fits := Conc.parseInt_fits
  writeReal_length := Conc.writeReal_length
  writeReal_nl := Conc.writeReal_nl
  eqD_zero := by decide
  round_ofInt n _ _ := Conc.round_ofInt n
  trunc_ofInt n _ _ := Conc.trunc_ofInt n

/-- " 1.001000+3" is the ENDF notation of 1001, and it survives. -/
example : Conc.writeReal (Conc.ofInt 1001) = " 1.001000+3".toList ∧ @Rep concDisco (Conc.ofInt 1001) := by decide +kernel
example : Conc.parseReal "-1.23456-12".toList = some ⟨-123456, -17⟩ ∧ @Rep concDisco ⟨-123456, -17⟩ := by decide +kernel
example : Conc.parseReal "        125".toList = some ⟨125, 0⟩ := by decide +kernel

end ENDFtk

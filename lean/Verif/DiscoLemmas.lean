import Verif.Disco
/-  Consequences of the disco assumptions: lengths, newline freeness, reading back written fields. -/
namespace ENDFtk

theorem digitChar_ne_nl (d : Nat) : digitChar d ≠ '\n' := by
  unfold digitChar
  have h : d % 10 < 10 := Nat.mod_lt _ (by decide)
  generalize d % 10 = m at h
  revert m
  decide

theorem decAux_nl (fuel n : Nat) : '\n' ∉ decAux fuel n := by
  induction fuel generalizing n with
  | zero => simp [decAux]
  | succ k ih =>
    unfold decAux
    split
    · simp; exact fun h => digitChar_ne_nl _ h.symm
    · simp; exact ⟨ih _, fun h => digitChar_ne_nl _ h.symm⟩

theorem dec_nl (n : Int) : '\n' ∉ dec n := by
  cases n with
  | ofNat n => exact decAux_nl _ _
  | negSucc n => simp [dec]; exact decAux_nl _ _

theorem decAux_length (fuel w n : Nat) (hw : 0 < w) (h : n < 10 ^ w) : (decAux fuel n).length ≤ w := by
  induction fuel generalizing w n with
  | zero => simp [decAux]
  | succ k ih =>
    unfold decAux
    split
    · simp; omega
    · rename_i h10
      simp
      obtain ⟨w', rfl⟩ : ∃ w', w = w' + 1 := ⟨w - 1, by omega⟩
      have hw' : 0 < w' := by
        rcases Nat.eq_zero_or_pos w' with h0 | h0
        · subst h0; simp at h; omega
        · exact h0
      have := ih w' (n / 10) hw' (by rw [Nat.pow_succ] at h; omega)
      omega

theorem dec_length {w : Nat} {n : Int} (hw : 0 < w) (h : fits w n) : (dec n).length ≤ w := by
  obtain ⟨h1, h2⟩ := h
  cases n with
  | ofNat n =>
    refine decAux_length _ _ _ hw ?_
    have : (Int.ofNat n : Int) = (n : Int) := rfl
    rw [this] at h1
    exact_mod_cast h1
  | negSucc n =>
    obtain ⟨w', rfl⟩ : ∃ w', w = w' + 1 := ⟨w - 1, by omega⟩
    simp at h2
    have h3 : ((n + 1 : Nat) : Int) < ((10 ^ w' : Nat) : Int) := by push_cast; omega
    have h4 : n + 1 < 10 ^ w' := by exact_mod_cast h3
    have hw' : 0 < w' := by
      rcases Nat.eq_zero_or_pos w' with h0 | h0
      · subst h0; simp at h4
      · exact h0
    have := decAux_length (n + 1 + 1) w' (n + 1) hw' h4
    simpa [dec, decNat] using this

/-! ### written integers -/
section
variable [Disco]

theorem writeInt_length {w : Nat} {n : Int} (hw : 0 < w) (h : fits w n) : (writeInt w n).length = w := by
  rw [Disco.writeInt_fits _ _ h]
  have := dec_length hw h
  simp; omega

theorem writeInt_nl {w : Nat} {n : Int} (h : fits w n) : '\n' ∉ writeInt w n := by
  rw [Disco.writeInt_fits _ _ h]
  simp [nl_not_mem_blanks, dec_nl]

theorem parseInt_writeInt {w : Nat} {n : Int} (h : fits w n) : parseInt (writeInt w n) = some n := by
  rw [Disco.writeInt_fits _ _ h]
  exact Disco.parseInt_dec _ _

omit [Disco] in
theorem fits_mono {w w' : Nat} {n : Int} (hw : w ≤ w') (h : fits w n) : fits w' n := by
  obtain ⟨h1, h2⟩ := h
  have a : (10 : Int) ^ w ≤ 10 ^ w' := by
    exact_mod_cast Nat.pow_le_pow_right (by decide : 0 < 10) hw
  have b : (10 : Int) ^ (w - 1) ≤ 10 ^ (w' - 1) := by
    exact_mod_cast Nat.pow_le_pow_right (by decide : 0 < 10) (by omega : w - 1 ≤ w' - 1)
  exact ⟨by omega, by omega⟩

/-- A wide integer field is blanks followed by the narrow field, if the integer fits the narrow one. -/
theorem writeInt_wide {w : Nat} {n : Int} (k : Nat) (hw : 0 < w) (h : fits w n) :
    writeInt (k + w) n = blanks k ++ writeInt w n := by
  rw [Disco.writeInt_fits _ _ h, Disco.writeInt_fits _ _ (fits_mono (by omega) h), ← List.append_assoc, ← blanks_add]
  have := dec_length hw h
  congr 2
  omega

end

/-! ### fields -/

theorem takeField_append {w : Nat} {f : Text} (s : Text) (hl : f.length = w) (hn : '\n' ∉ f) :
    takeField w (f ++ s) = .ok (f, s) := by
  induction f generalizing w with
  | nil => subst hl; rfl
  | cons c f ih =>
    subst hl
    simp at hn
    have hc : c ≠ '\n' := fun h => hn.1 h.symm
    simp [takeField, hc, ih rfl hn.2]

/-- Everything `takeField` can do. -/
theorem takeField_ok {w : Nat} {s f r : Text} (h : takeField w s = .ok (f, r)) :
    s = f ++ r ∧ '\n' ∉ f ∧ f.length ≤ w ∧ (f.length < w → ∃ r', r = '\n' :: r') := by
  induction w generalizing s f r with
  | zero => simp [takeField] at h; obtain ⟨rfl, rfl⟩ := h; simp
  | succ n ih =>
    cases s with
    | nil => simp [takeField] at h
    | cons c s =>
      unfold takeField at h
      split at h
      · rename_i hc
        simp at h; obtain ⟨rfl, rfl⟩ := h; simp [hc]
      · rename_i hc
        split at h
        · rename_i f' s' h'
          simp at h; obtain ⟨rfl, rfl⟩ := h
          obtain ⟨h1, h2, h3, h4⟩ := ih h'
          refine ⟨by simp [h1], ?_, by simpa using h3, fun hlt => h4 (by simpa using hlt)⟩
          simp; exact ⟨fun e => hc e.symm, h2⟩
        · simp at h

theorem takeField_error {w : Nat} {s : Text} {e : Err} (h : takeField w s = .error e) :
    e = .exc ∧ s.length < w ∧ '\n' ∉ s := by
  induction w generalizing s with
  | zero => simp [takeField] at h
  | succ n ih =>
    cases s with
    | nil => simp [takeField] at h; simp [h]
    | cons c s =>
      unfold takeField at h
      split at h
      · simp at h
      · rename_i hc
        split at h
        · simp at h
        · rename_i e' h'
          simp at h; subst h
          obtain ⟨h1, h2, h3⟩ := ih h'
          refine ⟨h1, by simpa using h2, ?_⟩
          simp; exact ⟨fun e => hc e.symm, h3⟩

/-- At a newline every field is empty. -/
theorem takeField_nl (w : Nat) (s : Text) : takeField w ('\n' :: s) = .ok ([], '\n' :: s) := by
  cases w <;> simp [takeField]

theorem endLine_append_nl {f : Text} (s : Text) (hn : '\n' ∉ f) : endLine (f ++ '\n' :: s) = s := by
  induction f with
  | nil => simp [endLine]
  | cons c f ih =>
    simp at hn
    have hc : c ≠ '\n' := fun h => hn.1 h.symm
    simp [endLine, hc, ih hn.2]

theorem endLine_no_nl {f : Text} (hn : '\n' ∉ f) : endLine f = [] := by
  induction f with
  | nil => rfl
  | cons c f ih =>
    simp at hn
    have hc : c ≠ '\n' := fun h => hn.1 h.symm
    simp [endLine, hc, ih hn.2]

/-- `endLine` removes a newline free prefix and its newline, or everything if there is no newline. -/
theorem endLine_spec (s : Text) :
    (∃ f, '\n' ∉ f ∧ s = f ++ '\n' :: endLine s) ∨ ('\n' ∉ s ∧ endLine s = []) := by
  induction s with
  | nil => right; simp [endLine]
  | cons c s ih =>
    by_cases hc : c = '\n'
    · left; exact ⟨[], by simp, by simp [endLine, hc]⟩
    · rcases ih with ⟨f, h1, h2⟩ | ⟨h1, h2⟩
      · left
        refine ⟨c :: f, ?_, ?_⟩
        · simp; exact ⟨fun e => hc e.symm, h1⟩
        · simp [endLine, hc]; exact h2
      · right
        refine ⟨?_, by simp [endLine, hc, h2]⟩
        simp; exact ⟨fun e => hc e.symm, h1⟩

section
variable [Disco]

omit [Disco] in
theorem readField_append {w : Nat} {f : Text} (s : Text) (n : Int) (hl : f.length = w) (hn : '\n' ∉ f) :
    readField w ⟨f ++ s, n⟩ = .ok (f, ⟨s, n⟩) := by
  simp [readField, takeField_append s hl hn]

theorem readInt_append {w : Nat} {f : Text} {v : Int} (s : Text) (n : Int)
    (hl : f.length = w) (hn : '\n' ∉ f) (hp : parseInt f = some v) :
    readInt w ⟨f ++ s, n⟩ = .ok (v, ⟨s, n⟩) := by
  unfold readInt
  rw [Parser.bind_ok (readField_append s n hl hn), hp]
  rfl

theorem readInt_writeInt {w : Nat} {v : Int} (s : Text) (n : Int) (hw : 0 < w) (h : fits w v) :
    readInt w ⟨writeInt w v ++ s, n⟩ = .ok (v, ⟨s, n⟩) :=
  readInt_append s n (writeInt_length hw h) (writeInt_nl h) (parseInt_writeInt h)

theorem readInt_blanks (w : Nat) (s : Text) (n : Int) :
    readInt w ⟨blanks w ++ s, n⟩ = .ok (0, ⟨s, n⟩) :=
  readInt_append s n (by simp) (nl_not_mem_blanks _) (Disco.parseInt_blank _)

theorem readReal_append {f : Text} {v : Dbl} (s : Text) (n : Int)
    (hl : f.length = 11) (hn : '\n' ∉ f) (hp : parseReal f = some v) :
    readReal ⟨f ++ s, n⟩ = .ok (v, ⟨s, n⟩) := by
  unfold readReal
  rw [Parser.bind_ok (readField_append s n hl hn), hp]
  rfl

theorem readReal_writeReal {v : Dbl} (s : Text) (n : Int) (h : Rep v) :
    readReal ⟨writeReal v ++ s, n⟩ = .ok (v, ⟨s, n⟩) :=
  readReal_append s n (Disco.writeReal_length v) (Disco.writeReal_nl v) h

theorem readReal_blanks (s : Text) (n : Int) :
    readReal ⟨blanks 11 ++ s, n⟩ = .ok (Disco.zero, ⟨s, n⟩) :=
  readReal_append s n (by simp) (nl_not_mem_blanks _) (Disco.parseReal_blank _)

omit [Disco] in
theorem readChars_append {w : Nat} {f : Text} (s : Text) (n : Int) (hl : f.length = w) (hn : '\n' ∉ f) :
    readChars w ⟨f ++ s, n⟩ = .ok (f, ⟨s, n⟩) := by
  unfold readChars
  rw [Parser.bind_ok (readField_append s n hl hn)]
  simp [hl, blanks]

end

end ENDFtk

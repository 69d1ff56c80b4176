import Verif.Section.Build5
import Verif.Props.Build2
/-
  C61, part 5: the resonance parameters (MF2 MT151).
-/
set_option linter.unusedVariables false
set_option linter.unusedSectionVars false
set_option linter.unusedSimpArgs false
namespace ENDFtk
namespace Props
variable [Disco]

/-! ### l values and j values -/

theorem resolved_built {awri c2 : Dbl} {l : Int} {l2 : Bool} {energies spins c3 c4 c5 c6 : List Dbl} {x : LIST}
    (h : ResolvedLValue.make awri c2 l l2 energies spins c3 c4 c5 c6 = .ok x) (hi : x.Ints) : lvalueC.Valid x := by
  unfold ResolvedLValue.make at h
  simp only at h
  split at h
  · cases h
  obtain ⟨rfl, hv⟩ := built_list h
  exact ⟨list_fits hi, hv⟩

theorem breitWigner_valid {spi ap : Dbl} {lad : Bool} {nlsc : Int} {lvalues : List LIST} {b : BwHeader × Unit × List LIST}
    (h : Make.breitWignerBase spi ap lad nlsc lvalues = .ok b) :
    b = (⟨spi, ap, lad, nlsc⟩, (), lvalues) ∧ (IsInt32 nlsc → (lvalues.length : Int) < 2147483648 → (∀ x ∈ lvalues, lvalueC.Valid x) → breitWignerC.Valid b) := by
  unfold Make.breitWignerBase at h
  split at h
  · cases h
    rename_i h1
    exact ⟨rfl, fun h2 h3 h4 => ⟨⟨h2, trivial, h3, h4⟩, h1⟩⟩
  · cases h

theorem lvalueC_valid {x : LValueC} (h : Make.LValueCBuilt x) (hi : Make.LValueCInts x) : lvalueCC.Valid x := by
  obtain ⟨awri, l, js, hj, h⟩ := h
  unfold Make.lvalueC at h
  split at h
  · rename_i h1
    cases h
    obtain ⟨i1, i2, i3⟩ := hi
    refine ⟨⟨i1, trivial, i2, fun j hj' => ?_⟩, h1⟩
    obtain ⟨_, _, _, _, _, _, _, _, _, _, _, _, hq⟩ := hj j hj'
    unfold UnresolvedCJValue.make at hq
    simp only at hq
    split at hq
    · cases hq
    obtain ⟨rfl, hv⟩ := verified_ok hq
    exact ⟨list_fits (i3 _ hj'), hv⟩
  · cases h

theorem lvalueB_valid {x : LValueC} (h : Make.LValueBBuilt x) (hi : Make.LValueCInts x) : lvalueBC.Valid x := by
  obtain ⟨awri, l, js, hj, h⟩ := h
  unfold Make.lvalueB at h
  split at h
  · rename_i h1
    split at h
    · rename_i h2
      cases h
      obtain ⟨i1, i2, i3⟩ := hi
      refine ⟨⟨⟨i1, trivial, i2, fun j hj' => ?_⟩, h1⟩, fun j hj' => ?_⟩
      · obtain ⟨_, _, _, _, _, _, _, _, hq⟩ := hj j hj'
        obtain ⟨rfl, hv⟩ := verified_ok hq
        exact ⟨list_fits (i3 _ hj'), hv⟩
      · have := h2 j hj'
        unfold lvalueBNE
        simp only at hj' ⊢
        cases js with
        | nil => cases hj'
        | cons k ks => simpa using this
    · cases h
  · cases h

/-! ### R-matrix limited -/

theorem placed_length {items : List (Int × Background)} {bs out : List (Option Background)} (h : Make.placeBackgrounds bs items = .ok out) : out.length = bs.length := by
  induction items generalizing bs with
  | nil => cases h; rfl
  | cons x xs ih =>
    unfold Make.placeBackgrounds at h
    simp only at h
    split at h
    · cases h
    split at h
    · cases h
    · rw [ih h, List.length_set]

/-- Placing is possible if and only if the indices (as `unsigned int`) are between 1 and the number of channels, different, and not used before; every R-matrix is then
    found at its index, and the other channels are as before. -/
theorem placed_spec (items : List (Int × Background)) (bs : List (Option Background)) :
    (∀ out, Make.placeBackgrounds bs items = .ok out →
      (∀ x ∈ items, 1 ≤ toUInt32 x.1 ∧ toUInt32 x.1 ≤ bs.length ∧ out[(toUInt32 x.1 - 1).toNat]? = some (some x.2)) ∧
      (∀ i : Nat, (∀ x ∈ items, toUInt32 x.1 ≠ i + 1) → out[i]? = bs[i]?) ∧
      (∀ (i : Nat) b, bs[i]? = some (some b) → ∀ x ∈ items, toUInt32 x.1 ≠ i + 1) ∧
      (items.map (fun x => toUInt32 x.1)).Nodup) ∧
    ((∀ x ∈ items, 1 ≤ toUInt32 x.1 ∧ toUInt32 x.1 ≤ bs.length ∧ bs[(toUInt32 x.1 - 1).toNat]? = some none) → (items.map (fun x => toUInt32 x.1)).Nodup →
      ∃ out, Make.placeBackgrounds bs items = .ok out) ∧
    (∀ e, Make.placeBackgrounds bs items = .error e → e = .exc) := by
  induction items generalizing bs with
  | nil => exact ⟨fun out h => by cases h; simp, fun _ _ => ⟨_, rfl⟩, fun e h => by cases h⟩
  | cons x xs ih =>
    unfold Make.placeBackgrounds
    simp only
    by_cases h1 : toUInt32 x.1 ≤ 0 ∨ (bs.length : Int) < toUInt32 x.1
    · rw [if_pos h1]
      refine ⟨fun _ h => (by cases h), fun h _ => ?_, fun e h => by cases h; rfl⟩
      have := h x (by simp)
      omega
    rw [if_neg h1]
    have hlt : (toUInt32 x.1 - 1).toNat < bs.length := by omega
    obtain ⟨ih1, ih2, ih3⟩ := ih (bs.set (toUInt32 x.1 - 1).toNat (some x.2))
    have hset : (bs.set (toUInt32 x.1 - 1).toNat (some x.2))[(toUInt32 x.1 - 1).toNat]? = some (some x.2) := List.getElem?_set_self hlt
    cases hc : bs[(toUInt32 x.1 - 1).toNat]? with
    | none => simp at hc; omega
    | some c =>
      cases c with
      | some c =>
        refine ⟨fun _ h => (by cases h), fun h _ => ?_, fun e h => by cases h; rfl⟩
        have := (h x (by simp)).2.2
        rw [hc] at this; cases this
      | none =>
        refine ⟨fun out h => ?_, fun h hn => ?_, ih3⟩
        · obtain ⟨a1, a2, a3, a4⟩ := ih1 out h
          have hx : ∀ y ∈ xs, toUInt32 y.1 ≠ toUInt32 x.1 := by
            intro y hy he
            exact a3 _ _ hset y hy (by omega)
          refine ⟨?_, ?_, ?_, ?_⟩
          · intro y hy
            rcases List.mem_cons.mp hy with rfl | hy
            · refine ⟨by omega, by omega, ?_⟩
              rw [a2 _ (fun z hz he => hx z hz (by omega))]
              exact hset
            · simpa using a1 y hy
          · intro i hi
            rw [a2 i (fun y hy => hi y (by simp [hy]))]
            have : (toUInt32 x.1 - 1).toNat ≠ i := by
              intro e
              exact hi x (by simp) (by omega)
            exact List.getElem?_set_ne this
          · intro i b hb y hy
            rcases List.mem_cons.mp hy with rfl | hy
            · intro he
              have : (toUInt32 y.1 - 1).toNat = i := by omega
              rw [this, hb] at hc; cases hc
            · refine a3 i b ?_ y hy
              have : (toUInt32 x.1 - 1).toNat ≠ i := by
                intro e
                rw [e, hb] at hc; cases hc
              rw [List.getElem?_set_ne this]; exact hb
          · simp only [List.map_cons, List.nodup_cons, List.mem_map]
            exact ⟨fun ⟨y, hy, he⟩ => hx y hy he, a4⟩
        · simp only [List.map_cons, List.nodup_cons, List.mem_map] at hn
          refine ih2 (fun y hy => ?_) hn.2
          obtain ⟨b1, b2, b3⟩ := h y (by simp [hy])
          refine ⟨b1, by simpa using b2, ?_⟩
          have : (toUInt32 x.1 - 1).toNat ≠ (toUInt32 y.1 - 1).toNat := by
            intro e
            exact hn.1 ⟨y, hy, by omega⟩
          rw [List.getElem?_set_ne this]; exact b3

/-- The constructor of the background channels: for fewer than 2^31 channels it accepts R-matrices whose channel indices are between 1 and the number of channels and
    different, and throws otherwise; each R-matrix is then found at its channel, and the other channels have none. -/
theorem C61_backgroundChannels {nch : Nat} {channels : List (Int × Background)} (hn : (nch : Int) < 2147483648) (hi : ∀ x ∈ channels, IsInt32 x.1) :
    let ok := (∀ x ∈ channels, 1 ≤ x.1 ∧ x.1 ≤ nch) ∧ (channels.map Prod.fst).Nodup
    (ok → ∃ out, Make.backgroundChannels nch channels = .ok out ∧ out.length = nch ∧
      (∀ x ∈ channels, out[(x.1 - 1).toNat]? = some (some x.2)) ∧ ∀ i : Nat, i < nch → (∀ x ∈ channels, x.1 ≠ i + 1) → out[i]? = some none) ∧
    (¬ok → Make.backgroundChannels nch channels = .error .exc) := by
  have hu : ∀ x ∈ channels, (0 ≤ x.1 → toUInt32 x.1 = x.1) ∧ (x.1 < 0 → 2147483648 ≤ toUInt32 x.1) := by
    intro x hx
    have := hi x hx
    unfold IsInt32 at this
    unfold toUInt32
    omega
  have e : ∀ x ∈ channels, (1 ≤ toUInt32 x.1 ∧ toUInt32 x.1 ≤ nch) ↔ (1 ≤ x.1 ∧ x.1 ≤ nch) := by
    intro x hx
    have := hu x hx
    have := hi x hx
    unfold IsInt32 at this
    omega
  have hmap : (∀ x ∈ channels, 1 ≤ x.1) → channels.map (fun x => toUInt32 x.1) = channels.map Prod.fst :=
    fun h => List.map_congr_left fun x hx => (hu x hx).1 (by have := h x hx; omega)
  obtain ⟨s1, s2, s3⟩ := placed_spec channels (List.replicate nch none)
  simp only [List.length_replicate] at s1 s2
  constructor
  · rintro ⟨h1, h2⟩
    obtain ⟨out, ho⟩ := s2 (fun x hx => ⟨((e x hx).mpr (h1 x hx)).1, ((e x hx).mpr (h1 x hx)).2, by
      have := ((e x hx).mpr (h1 x hx))
      simp only [List.getElem?_replicate]
      rw [if_pos (by omega)]⟩) (by rw [hmap fun x hx => (h1 x hx).1]; exact h2)
    refine ⟨out, ho, by rw [placed_length ho]; simp, fun x hx => ?_, fun i hi' hn' => ?_⟩
    · have := ((s1 out ho).1 x hx).2.2
      rwa [(hu x hx).1 (by have := h1 x hx; omega)] at this
    · rw [(s1 out ho).2.1 i (fun x hx => by rw [(hu x hx).1 (by have := h1 x hx; omega)]; exact hn' x hx)]
      simp [hi']
  · intro hnot
    cases ho : Make.backgroundChannels nch channels with
    | error er => rw [s3 er ho]
    | ok out =>
      exfalso
      obtain ⟨a1, _, _, a4⟩ := s1 out ho
      have h1 : ∀ x ∈ channels, 1 ≤ x.1 ∧ x.1 ≤ nch := fun x hx => (e x hx).mp ⟨(a1 x hx).1, (a1 x hx).2.1⟩
      rw [hmap fun x hx => (h1 x hx).1] at a4
      exact hnot ⟨h1, a4⟩

/-- Whatever holds for what is placed and for what was there, holds for the result. -/
theorem placed_all {P : Background → Prop} {items : List (Int × Background)} {bs out : List (Option Background)} (h : Make.placeBackgrounds bs items = .ok out)
    (hb : ∀ r, some r ∈ bs → P r) (hx : ∀ x ∈ items, P x.2) : ∀ r, some r ∈ out → P r := by
  induction items generalizing bs with
  | nil => cases h; exact hb
  | cons x xs ih =>
    unfold Make.placeBackgrounds at h
    simp only at h
    split at h
    · cases h
    split at h
    · cases h
    · refine ih h (fun r hr => ?_) (fun y hy => hx y (by simp [hy]))
      rcases List.mem_or_eq_of_mem_set hr with hr | hr
      · exact hb r hr
      · cases hr; exact hx x (by simp)

theorem background_valid {x : Int × Background} (h : Make.BackgroundBuilt x) (hi : Make.BackgroundInts x.2) : (backgroundBodyC x.2.lbk).Valid x.2 := by
  cases h with
  | none i => exact ⟨(), rfl, trivial⟩
  | sammy => exact ⟨_, _, _, rfl, rfl⟩
  | frohner => exact ⟨_, _, _, rfl, rfl⟩
  | tabulated h =>
    obtain ⟨a, ha, hq⟩ := bind_eq h
    obtain ⟨b, hb, hq⟩ := bind_eq hq
    split at hq
    · rename_i hk
      cases hq
      exact ⟨(a, b), rfl, ⟨tab1_fits ha hi.1, tab1_fits hb hi.2⟩, hk⟩
    · cases hq

theorem present_mem {bs : List (Option Background)} {i : Nat} {x : Int × Background} (h : x ∈ presentFrom i bs) : (i : Int) ≤ x.1 ∧ x.1 < i + bs.length ∧ some x.2 ∈ bs := by
  induction bs generalizing i with
  | nil => cases h
  | cons b bs ih =>
    cases b with
    | none =>
      obtain ⟨h1, h2, h3⟩ := ih (i := i + 1) h
      refine ⟨by omega, by simp only [List.length_cons]; omega, by simp [h3]⟩
    | some b =>
      rcases List.mem_cons.mp h with rfl | h
      · refine ⟨by simp, by simp only [List.length_cons]; omega, by simp⟩
      · obtain ⟨h1, h2, h3⟩ := ih (i := i + 1) h
        refine ⟨by omega, by simp only [List.length_cons]; omega, by simp [h3]⟩

/-- The constructor of the spin group accepts the components if and only if KBK of the resonance channels is the number of background R-matrices and NCH is the number of
    channels in both. -/
theorem C61_spinGroup {channels parameters : LIST} {background : List (Option Background)} (hc : channels.Ints) (hk : IsInt32 channels.l1)
    (hb : (background.length : Int) < 2147483648) :
    let ok := channels.l1 = (background.filter Option.isSome).length ∧ ((channels.data.length / 6 : Nat) : Int) = background.length
    (ok → Make.spinGroup channels parameters background = .ok ((channels, parameters), background)) ∧
    (¬ok → Make.spinGroup channels parameters background = .error .exc) := by
  have hl : (background.filter Option.isSome).length ≤ background.length := List.length_filter_le _ _
  have e1 : toInt32 channels.l1 = channels.l1 := toInt32_of hk
  have e2 : asInt (countPresent background) = (background.filter Option.isSome).length := toInt32_of ⟨by unfold countPresent; omega, by unfold countPresent; omega⟩
  have e3 : asInt background.length = background.length := toInt32_of ⟨by omega, hb⟩
  have e4 : channelsNCH channels = ((channels.data.length / 6 : Nat) : Int) := by
    have := hc.2.2.2
    exact toInt32_of (show IsInt32 ((channels.data.length : Int) / 6) from ⟨by omega, by omega⟩)
  unfold Make.spinGroup
  rw [e1, e2, e3, e4]
  constructor
  · rintro ⟨h1, h2⟩
    rw [if_neg (by simp [h1]), if_neg (by simp only [h2]; simp)]
  · intro h
    by_cases h1 : channels.l1 = (background.filter Option.isSome).length
    · rw [if_neg (by simp [h1]), if_pos]
      intro h2
      exact h ⟨h1, h2⟩
    · rw [if_pos h1]

theorem channels_ok {x : LIST} (h : Make.ChannelsBuilt x) : channelsOk x := by
  cases h with
  | two h =>
    unfold ResonanceChannels.make at h
    simp only at h
    split at h
    · cases h
    obtain ⟨rfl, hv⟩ := built_list h
    exact hv
  | one h =>
    unfold ResonanceChannels.make1 at h
    simp only at h
    split at h
    · cases h
    obtain ⟨rfl, hv⟩ := built_list h
    exact hv

theorem parameters_ok {energies : List Dbl} {widths : List (List Dbl)} {x : LIST} (h : ResonanceParameters.make energies widths = .ok x) : rmlParametersOk x := by
  unfold ResonanceParameters.make at h
  simp only at h
  split at h
  · cases h
  split at h
  · cases h
  split at h
  · cases h
  obtain ⟨rfl, hv⟩ := built_list h
  exact hv

theorem spinGroup_valid_of {channels parameters : LIST} {background : List (Option Background)} {x : SpinGroup} (hc : Make.ChannelsBuilt channels)
    (hp : rmlParametersOk parameters) (hb : (background.length : Int) < 4294967296) (hr : ∀ r, some r ∈ background → Make.BackgroundInts r → (backgroundBodyC r.lbk).Valid r)
    (h : Make.spinGroup channels parameters background = .ok x) (hi : Make.SpinGroupInts x) : spinGroupC.Valid x := by
  unfold Make.spinGroup at h
  split at h
  · cases h
  split at h
  · cases h
  cases h
  rename_i h1 h2
  obtain ⟨i1, i2, i3, i4⟩ := hi
  have hnn := i1.2.2.2
  simp only at i1 i2 i3 i4 hnn
  have e4 : channelsNCH channels = ((channels.data.length / 6 : Nat) : Int) :=
    toInt32_of (show IsInt32 ((channels.data.length : Int) / 6) from ⟨by omega, by omega⟩)
  have hl : (background.filter Option.isSome).length ≤ background.length := List.length_filter_le _ _
  have e3 : channelsNCH channels = background.length := by
    have h2 := Decidable.not_not.mp h2
    rw [e4] at h2 ⊢
    have : asInt background.length = ((channels.data.length / 6 : Nat) : Int) := h2.symm
    unfold asInt toInt32 at this
    omega
  have hlt : (background.length : Int) < 2147483648 := by rw [← e3, e4]; omega
  have e2 : asInt (countPresent background) = countPresent background := toInt32_of ⟨by unfold countPresent; omega, by unfold countPresent; omega⟩
  refine ⟨⟨⟨list_fits i1, channels_ok hc⟩, list_fits i3, hp⟩, e3.symm, hlt, ?_, ?_⟩
  · have h1 := Decidable.not_not.mp h1
    rw [e2] at h1
    exact h1
  · intro y hy
    obtain ⟨p1, p2, p3⟩ := present_mem hy
    simp only at p2 p3
    exact ⟨by omega, by rw [show channelsNCH ((channels, parameters), background).1.1 = channelsNCH channels from rfl, e3]; omega, ⟨by omega, by omega⟩, hr _ p3 (i4 _ p3)⟩

theorem spinGroup_valid {x : SpinGroup} (h : Make.SpinGroupBuilt x) (hi : Make.SpinGroupInts x) : spinGroupC.Valid x := by
  cases h with
  | full hc hp hn hr hb h =>
    refine spinGroup_valid_of hc (parameters_ok hp) ?_ (placed_all (P := fun r => Make.BackgroundInts r → (backgroundBodyC r.lbk).Valid r) hb
      (fun r hr' => by simp at hr') (fun y hy => background_valid (hr y hy))) h hi
    rw [placed_length hb]; simp; omega
  | @short channels _ _ _ _ hc hp h =>
    refine spinGroup_valid_of hc (parameters_ok hp) ?_ (fun r hr => by simp at hr) h hi
    have : ∀ n, toUInt32 n < 4294967296 := fun n => by unfold toUInt32; omega
    simp only [List.length_replicate]
    have := this (channels.npl / 6)
    omega

/-! ### resonance parameters -/

theorem params_valid {x : ResParams} (h : Make.ParamsBuilt x) (hi : Make.ParamsInts x) : x.Valid := by
  cases h with
  | special => trivial
  | slbw hl h =>
    unfold Make.singleLevel at h
    cases hb : Make.breitWignerBase _ _ false 0 _ with
    | error e => rw [hb] at h; cases h
    | ok b =>
      rw [hb] at h; cases h
      obtain ⟨rfl, hv⟩ := breitWigner_valid hb
      refine hv hi.1 hi.2.1 fun y hy => ?_
      obtain ⟨_, _, _, _, _, _, _, _, _, _, hq⟩ := hl y hy
      exact resolved_built hq (hi.2.2 y hy)
  | mlbw hl h =>
    unfold Make.multiLevel at h
    cases hb : Make.breitWignerBase _ _ false 0 _ with
    | error e => rw [hb] at h; cases h
    | ok b =>
      rw [hb] at h; cases h
      obtain ⟨rfl, hv⟩ := breitWigner_valid hb
      refine hv hi.1 hi.2.1 fun y hy => ?_
      obtain ⟨_, _, _, _, _, _, _, _, _, _, hq⟩ := hl y hy
      exact resolved_built hq (hi.2.2 y hy)
  | reichMoore hl h =>
    obtain ⟨b, hb, hq⟩ := bind_eq h
    obtain ⟨rfl, hv⟩ := breitWigner_valid hb
    split at hq
    · rename_i hn
      cases hq
      refine ⟨hv hi.1 hi.2.1 fun y hy => ?_, hn⟩
      obtain ⟨_, _, _, _, _, _, _, _, _, hq⟩ := hl y hy
      exact resolved_built hq (hi.2.2 y hy)
    · cases hq
  | rml hp hg h =>
    unfold Make.rMatrixLimited at h
    split at h
    · rename_i h1
      cases h
      obtain ⟨i1, i2, i3, i4⟩ := hi
      refine ⟨⟨i1, ⟨list_fits i2, ?_⟩, i3, fun y hy => spinGroup_valid (hg y hy) (i4 y hy)⟩, h1⟩
      obtain ⟨_, _, _, _, _, _, _, _, _, _, _, _, hq⟩ := hp
      unfold ParticlePairs.make at hq
      simp only at hq
      split at hq
      · cases hq
      obtain ⟨rfl, hv⟩ := built_list hq
      exact hv
    · cases h
  | caseA hl h =>
    unfold Make.unresolvedA at h
    split at h
    · rename_i h1
      cases h
      refine ⟨⟨trivial, trivial, hi.1, fun y hy => ⟨list_fits (hi.2 y hy), ?_⟩⟩, h1⟩
      obtain ⟨_, _, _, _, _, _, _, hq⟩ := hl y hy
      unfold UnresolvedALValue.make at hq
      simp only at hq
      split at hq
      · cases hq
      obtain ⟨rfl, hv⟩ := built_list hq
      exact hv
    · cases h
  | caseB hl h =>
    unfold Make.unresolvedB at h
    split at h
    · rename_i h1
      split at h
      · rename_i h2
        cases h
        exact ⟨⟨list_fits hi.1, (seq_count hi.2.1).symm, fun y hy => lvalueB_valid (hl y hy) (hi.2.2 y hy)⟩, h1, h2⟩
      · cases h
    · cases h
  | caseC hl h =>
    unfold Make.unresolvedC at h
    split at h
    · rename_i h1
      cases h
      exact ⟨⟨trivial, trivial, hi.1, fun y hy => lvalueC_valid (hl y hy) (hi.2 y hy)⟩, h1⟩
    · cases h

/-! ### ranges, isotopes and the section -/

/-- The constructor of the resonance range accepts NAPS 0 and 1 without an energy dependent scattering radius, and NAPS 0 to 2 with one, which the special case (LRU = 0) and
    the R-matrix limited parameters (LRF = 7) must not have; it throws otherwise. -/
theorem C61_resonanceRange {el eh : Dbl} {naps : Int} {parameters : ResParams} {radius : Option TAB1} :
    let ok := match radius with
      | none => naps = 0 ∨ naps = 1
      | some _ => (naps = 0 ∨ naps = 1 ∨ naps = 2) ∧ parameters.lru ≠ 0 ∧ ¬(parameters.lru = 1 ∧ parameters.lrf = 7)
    (ok → Make.resonanceRange el eh naps parameters radius = .ok ⟨el, eh, naps, parameters, radius⟩) ∧
    (¬ok → Make.resonanceRange el eh naps parameters radius = .error .exc) := by
  unfold Make.resonanceRange
  cases radius with
  | none =>
    have : optionsOk ⟨el, eh, naps, parameters, none⟩ ↔ naps = 0 ∨ naps = 1 := by
      unfold optionsOk; simp; omega
    exact ⟨fun h => if_pos (this.mpr h), fun h => if_neg (fun h' => h (this.mp h'))⟩
  | some r =>
    have : optionsOk ⟨el, eh, naps, parameters, some r⟩ ↔ (naps = 0 ∨ naps = 1 ∨ naps = 2) ∧ parameters.lru ≠ 0 ∧ ¬(parameters.lru = 1 ∧ parameters.lrf = 7) := by
      unfold optionsOk
      constructor
      · rintro ⟨_, h⟩
        obtain ⟨h1, h2, h3, h4⟩ := h (by simp)
        simp only at h1 h2
        exact ⟨by omega, h3, h4⟩
      · rintro ⟨h1, h2, h3⟩
        exact ⟨by simp, fun _ => ⟨by simp only; omega, by simp only; omega, h2, h3⟩⟩
    exact ⟨fun h => if_pos (this.mpr h), fun h => if_neg (fun h' => h (this.mp h'))⟩

theorem range_valid {x : ResRange} {lfw : Int} (h : Make.RangeBuilt x) (hi : Make.RangeInts x) (hl : x.parameters.lfwOk lfw) : (resRangeC lfw).Valid x := by
  obtain ⟨el, eh, naps, parameters, radius, hp, hr, h⟩ := h
  unfold Make.resonanceRange at h
  split at h
  · rename_i ho
    cases h
    obtain ⟨i1, i2⟩ := hi
    refine ⟨?_, ?_, hl, params_valid hp i1, ho⟩
    · obtain ⟨o1, o2⟩ := ho
      simp only at o1 o2 ⊢
      by_cases hc : radius = none
      · have := o1 hc; exact ⟨by omega, by omega⟩
      · have := o2 hc; exact ⟨by omega, by omega⟩
    · cases radius with
      | none => exact ⟨by simp [optC, ResRange.nro, ofBool], Or.inl rfl⟩
      | some r =>
        obtain ⟨_, _, _, _, hq⟩ := hr r rfl
        refine ⟨?_, Or.inr rfl⟩
        have := tab1_fits hq (i2 r rfl)
        simp [optC, ResRange.nro, ofBool]
        exact this
  · cases h

/-- Resonance parameters (MF2 MT151): the section has the isotopes that were given.  It can be written and read back if for every isotope LFW is 0 if it has unresolved
    resonances of case A (energy independent) and 1 if it has those of case B (energy dependent fission widths), which the constructor of the isotope does not verify:
    C61_mf2mt151_lfw.  Hence the name. -/
theorem C61_mf2mt151_partial {za : Int} {awr : Dbl} {isotopes : List Isotope} {s : Sect (List Isotope)}
    (hb : ∀ x ∈ isotopes, ∀ r ∈ x.ranges, Make.RangeBuilt r) (h : Make.mf2mt151 za awr isotopes = .ok s) :
    s = ⟨za, awr, 151, isotopes⟩ ∧
    ((∀ x ∈ isotopes, ∀ r ∈ x.ranges, match r.parameters with
        | .caseA _ => x.lfw = false
        | .caseB _ => x.lfw = true
        | _ => True) →
      IsInt32 za → SeqInts Make.IsotopeInts isotopes → ReadsBack .mf2mt151 s) := by
  have h' := h
  obtain ⟨hd, e1, e2, e3, _⟩ := build_ok h
  have hd' : 1 ≤ asInt isotopes.length ∧ isotopes = s.data := by
    by_cases hc : 1 ≤ asInt isotopes.length
    · rw [if_pos hc] at hd
      exact ⟨hc, Except.ok.inj hd⟩
    · rw [if_neg hc] at hd; cases hd
  have e : s = ⟨za, awr, 151, isotopes⟩ := by
    obtain ⟨_, hdd⟩ := hd'
    cases s
    simp only at e1 e2 e3 hdd
    simp only [mf2mt151, Option.getD] at e3
    subst e1 e2 e3 hdd; rfl
  refine ⟨e, fun hl hz hi => ?_⟩
  have hlfw : ∀ x ∈ isotopes, ∀ r ∈ x.ranges, r.parameters.lfwOk (ofBool x.lfw) := by
    intro x hx r hr
    have := hl x hx r hr
    cases hp : r.parameters <;> rw [hp] at this <;> simp only at this <;> simp [ResParams.lfwOk, this, ofBool]
  refine built_round (T := .mf2mt151) h' hz (by omega) ?_ ?_
  · subst e
    refine ⟨hi.1, ?_, fun x hx => ?_⟩
    · have := hd'.1
      have e := seq_count hi.1
      show 1 ≤ isotopes.length
      omega
    · obtain ⟨i1, i2, i3⟩ := hi.2 x hx
      exact ⟨i1, i2, fun r hr => ⟨_, range_valid (hb x hx r hr) (i3 r hr) (hlfw x hx r hr)⟩⟩
  · subst e
    exact hlfw

/-- No isotopes: the constructor throws. -/
theorem C61_mf2mt151_empty (za : Int) (awr : Dbl) : Make.mf2mt151 za awr [] = .error .exc := by
  cases h : Make.mf2mt151 za awr [] with
  | error e =>
    unfold Make.mf2mt151 SecDef.build at h
    have hc : ¬(1 ≤ asInt ([] : List Isotope).length) := by
      rw [show asInt ([] : List Isotope).length = 0 from toInt32_of ⟨by simp, by simp⟩]; decide
    rw [if_neg hc] at h
    split at h
    · rename_i hb
      unfold checkBase at hb
      split at hb
      · cases hb; cases h; rfl
      split at hb
      · cases hb; cases h; rfl
      simp [mf2mt151] at hb
    · cases h; rfl
  | ok s =>
    obtain ⟨hd, _⟩ := build_ok h
    have hc : ¬(1 ≤ asInt ([] : List Isotope).length) := by
      rw [show asInt ([] : List Isotope).length = 0 from toInt32_of ⟨by simp, by simp⟩]; decide
    rw [if_neg hc] at hd; cases hd

/-- One isotope, with the ZA of the section and abundance 1. -/
theorem C61_mf2mt151_ranges_partial {za : Int} {awr : Dbl} {lfw : Bool} {ranges : List ResRange} {s : Sect (List Isotope)} (hb : ∀ r ∈ ranges, Make.RangeBuilt r)
    (h : Make.mf2mt151Ranges za awr lfw ranges = .ok s) :
    s = ⟨za, awr, 151, [⟨za, Disco.ofInt 1, lfw, ranges⟩]⟩ ∧
    ((∀ r ∈ ranges, match r.parameters with
        | .caseA _ => lfw = false
        | .caseB _ => lfw = true
        | _ => True) →
      IsInt32 za → SeqInts Make.RangeInts ranges → ReadsBack .mf2mt151 s) := by
  obtain ⟨e, hr⟩ := C61_mf2mt151_partial (by simpa [Make.isotope] using hb) h
  refine ⟨e, fun hl hz hi => hr (by simpa [Make.isotope] using hl) hz ⟨by simp, ?_⟩⟩
  intro x hx
  simp only [List.mem_singleton] at hx
  subst hx
  exact ⟨hz, hi⟩

/-- Only a scattering radius: always accepted for a valid ZA and AWR, and it can be written and read back. -/
theorem C61_mf2mt151_special {za : Int} {awr el eh spin ap : Dbl} (hz : 1 ≤ za) (ha : Disco.ltD awr Disco.zero = false) :
    ∃ s, Make.mf2mt151Special za awr el eh spin ap = .ok s ∧ s = ⟨za, awr, 151, [⟨za, Disco.ofInt 1, false, [⟨el, eh, 0, .special spin ap, none⟩]⟩]⟩ ∧
      (IsInt32 za → ReadsBack .mf2mt151 s) := by
  have hr : Make.resonanceRange el eh 0 (.special spin ap) = .ok ⟨el, eh, 0, .special spin ap, none⟩ := C61_resonanceRange.1 (Or.inl rfl)
  have hs : Make.mf2mt151Special za awr el eh spin ap = .ok ⟨za, awr, 151, [⟨za, Disco.ofInt 1, false, [⟨el, eh, 0, .special spin ap, none⟩]⟩]⟩ := by
    unfold Make.mf2mt151Special
    rw [hr]
    show Make.mf2mt151 za awr _ = _
    unfold Make.mf2mt151
    rw [if_pos (by rw [show asInt [Make.isotope za (Disco.ofInt 1) false [⟨el, eh, 0, .special spin ap, none⟩]].length = 1 from toInt32_of ⟨by simp, by simp⟩]; decide)]
    exact build_accepts ⟨hz, ha, fun h => by cases h⟩
  refine ⟨_, hs, rfl, fun hi => ?_⟩
  have hm : Make.mf2mt151 za awr [⟨za, Disco.ofInt 1, false, [⟨el, eh, 0, .special spin ap, none⟩]⟩] =
      .ok ⟨za, awr, 151, [⟨za, Disco.ofInt 1, false, [⟨el, eh, 0, .special spin ap, none⟩]⟩]⟩ := by
    have := hs
    unfold Make.mf2mt151Special at this
    rw [hr] at this
    exact this
  refine (C61_mf2mt151_partial ?_ hm).2 ?_ hi ⟨by simp, ?_⟩
  · intro x hx r hr'
    simp only [List.mem_singleton] at hx; subst hx
    simp only [List.mem_singleton] at hr'; subst hr'
    exact ⟨_, _, _, _, _, .special _ _, fun _ h => (by cases h), hr⟩
  · intro x hx r hr'
    simp only [List.mem_singleton] at hx; subst hx
    simp only [List.mem_singleton] at hr'; subst hr'
    trivial
  · intro x hx
    simp only [List.mem_singleton] at hx; subst hx
    refine ⟨hi, by simp, fun r hr' => ?_⟩
    simp only [List.mem_singleton] at hr'; subst hr'
    exact ⟨trivial, fun _ h => by cases h⟩

end Props
end ENDFtk

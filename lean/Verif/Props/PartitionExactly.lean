import Verif.Props.Scripts
/-!
# C75, exactly: when the splits are a partition, and what goes wrong otherwise
-/

namespace Verif.Scripts
open Verif

private theorem bound_le (n : Nat) (i : Int) : sliceBound n i ≤ n := by
  unfold sliceBound
  split <;> omega

/-- The three lists by positions: up to the end of the training items, from there to the beginning of the tuning items, and the rest. -/
private theorem splits_eq {α : Type} (fl : ℚ → ℚ) (rv rt : Int) (l : List α) :
    ∃ a b, a ≤ l.length ∧ b ≤ l.length ∧
      a = sliceBound l.length (l.length - share fl l.length rv - share fl l.length rt) ∧
      b = sliceBound l.length (l.length - share fl l.length rv - share fl l.length rt + share fl l.length rv) ∧
      (splits fl rv rt l).train = l.take a ∧ (splits fl rv rt l).val = (l.take b).drop a ∧ (splits fl rv rt l).tune = l.drop b := by
  refine ⟨_, _, bound_le _ _, bound_le _ _, rfl, rfl, ?_, rfl, rfl⟩
  simp [splits, slice, sliceBound]

/-- **C75**: whatever the ratios, negative ones included, and however the sizes are rounded, no item of the official list is lost. -/
theorem C75_nothing_lost {α : Type} (fl : ℚ → ℚ) (rv rt : Int) (official shuffled : List α) (hp : shuffled.Perm official) (x : α)
    (hx : x ∈ official) :
    x ∈ (splits fl rv rt shuffled).train ∨ x ∈ (splits fl rv rt shuffled).val ∨ x ∈ (splits fl rv rt shuffled).tune := by
  obtain ⟨a, b, ha, hb, _, _, h1, h2, h3⟩ := splits_eq fl rv rt shuffled
  rw [h1, h2, h3]
  have hx' := hp.mem_iff.mpr hx
  by_cases hab : a ≤ b
  · have : shuffled = shuffled.take a ++ ((shuffled.take b).drop a ++ shuffled.drop b) := by
      have h4 : (shuffled.take b).take a = shuffled.take a := by rw [List.take_take, min_eq_left hab]
      rw [← h4, ← List.append_assoc, List.take_append_drop, List.take_append_drop]
    rw [this] at hx'
    simpa using hx'
  · rw [← List.take_append_drop a shuffled] at hx'
    rcases List.mem_append.mp hx' with h | h
    · exact .inl h
    · have hsub : shuffled.drop a = (shuffled.drop b).drop (a - b) := by rw [List.drop_drop]; congr 1; omega
      rw [hsub] at h
      exact .inr (.inr (List.mem_of_mem_drop h))

/-- **C75**, exactly when the three lists are a partition: if and only if the training items end, as Python resolves the negative bounds of
slices, not after the place where the tuning items begin. -/
theorem C75_iff {α : Type} (fl : ℚ → ℚ) (rv rt : Int) (official shuffled : List α) (hp : shuffled.Perm official) :
    ((splits fl rv rt shuffled).train ++ (splits fl rv rt shuffled).val ++ (splits fl rv rt shuffled).tune).Perm official ↔
      sliceBound official.length (official.length - share fl official.length rv - share fl official.length rt) ≤
        sliceBound official.length (official.length - share fl official.length rt) := by
  obtain ⟨a, b, ha, hb, ea, eb, h1, h2, h3⟩ := splits_eq fl rv rt shuffled
  have hq : (shuffled.length : Int) - share fl shuffled.length rv - share fl shuffled.length rt + share fl shuffled.length rv =
      shuffled.length - share fl shuffled.length rt := by ring
  rw [hq] at eb
  rw [← hp.length_eq, ← ea, ← eb, h1, h2, h3]
  constructor
  · intro h
    have hl := h.length_eq
    rw [← hp.length_eq] at hl
    simp only [List.length_append, List.length_take, List.length_drop] at hl
    omega
  · intro hab
    have : shuffled.take a ++ (shuffled.take b).drop a ++ shuffled.drop b = shuffled := by
      have h4 : (shuffled.take b).take a = shuffled.take a := by rw [List.take_take, min_eq_left hab]
      rw [← h4, List.take_append_drop, List.take_append_drop]
    rw [this]
    exact hp

/-- **C75**: if they are no partition, some item of the official list is both in the training list and in the tuning list. -/
theorem C75_twice {α : Type} (fl : ℚ → ℚ) (rv rt : Int) (official shuffled : List α) (hp : shuffled.Perm official)
    (hno : ¬ ((splits fl rv rt shuffled).train ++ (splits fl rv rt shuffled).val ++ (splits fl rv rt shuffled).tune).Perm official) :
    ∃ x ∈ official, x ∈ (splits fl rv rt shuffled).train ∧ x ∈ (splits fl rv rt shuffled).tune := by
  rw [C75_iff fl rv rt official shuffled hp] at hno
  obtain ⟨a, b, ha, hb, ea, eb, h1, h2, h3⟩ := splits_eq fl rv rt shuffled
  have hq : (shuffled.length : Int) - share fl shuffled.length rv - share fl shuffled.length rt + share fl shuffled.length rv =
      shuffled.length - share fl shuffled.length rt := by ring
  rw [hq] at eb
  rw [← hp.length_eq, ← ea, ← eb] at hno
  have hba : b < a := by omega
  have hbl : b < shuffled.length := by omega
  refine ⟨shuffled[b], hp.mem_iff.mp (List.getElem_mem hbl), ?_, ?_⟩
  · rw [h1]
    have : b < (shuffled.take a).length := by rw [List.length_take]; omega
    have h := List.getElem_mem this
    rwa [List.getElem_take] at h
  · rw [h3, List.drop_eq_getElem_cons hbl]
    exact List.mem_cons_self

/-- A negative share for tuning is harmless: the tuning list is empty, the others are a partition. -/
example : ratiosOk [60, 50, -10] = true ∧
    ((splits binary64 50 (-10) (List.range 10)).train ++ (splits binary64 50 (-10) (List.range 10)).val ++
      (splits binary64 50 (-10) (List.range 10)).tune).Perm (List.range 10) :=
  ⟨by decide, (C75_iff binary64 50 (-10) (List.range 10) (List.range 10) (List.Perm.refl _)).mpr (by decide +kernel)⟩

/-- A negative share for validation is not. -/
example : ∃ x ∈ List.range 10, x ∈ (splits binary64 (-20) 10 (List.range 10)).train ∧ x ∈ (splits binary64 (-20) 10 (List.range 10)).tune :=
  C75_twice binary64 (-20) 10 (List.range 10) (List.range 10) (List.Perm.refl _) (by
    rw [C75_iff _ _ _ _ _ (List.Perm.refl _)]
    decide +kernel)

end Verif.Scripts

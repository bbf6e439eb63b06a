import Verif.Model.Histogram
import Mathlib.Algebra.Order.Floor.Ring
import Mathlib.Algebra.Order.Field.Basic
import Mathlib.Tactic.Linarith
import Mathlib.Tactic.Ring
/-!
# Auxiliary facts about histogram matching
-/

namespace Verif.Histogram

set_option linter.unusedSectionVars false

variable {K : Type*} [Field K] [LinearOrder K] [IsStrictOrderedRing K] [FloorRing K]

theorem length_filter_lt (n m : Nat) : ((List.range n).filter (fun b => decide (b < m))).length = min m n := by
  induction n with
  | zero => simp
  | succ n ih =>
    rw [List.range_succ, List.filter_append, List.length_append, ih]
    by_cases h : n < m
    · simp [h]; omega
    · simp [h]; omega

theorem digitize_mono {v w : K} (h : v ≤ w) : digitize v ≤ digitize w := by
  unfold digitize
  rw [← List.countP_eq_length_filter, ← List.countP_eq_length_filter]
  refine List.countP_mono_left (fun b _ hb => ?_)
  simp only [decide_eq_true_eq] at hb ⊢
  exact hb.trans h

theorem level_mono {v w : K} (h : v ≤ w) : level v ≤ level w := by
  have := digitize_mono h
  unfold level; omega

theorem level_le (v : K) : level v ≤ 255 := by unfold level; omega

/-- Inside the range of intensities the level is the integer part; 256 belongs to the last level. -/
theorem level_eq {v : K} (h0 : 0 ≤ v) : level v = min ⌊v⌋.toNat 255 := by
  have hf : 0 ≤ ⌊v⌋ := Int.floor_nonneg.2 h0
  have e : (fun b : Nat => decide ((b : K) ≤ v)) = fun b => decide (b < ⌊v⌋.toNat + 1) := by
    funext b
    have : ((b : K) ≤ v) ↔ b < ⌊v⌋.toNat + 1 := by
      rw [show ((b : K)) = ((b : Int) : K) by push_cast; rfl, ← Int.le_floor]; omega
    simp only [this]
  unfold level digitize
  rw [e, length_filter_lt]; omega

theorem inBin_iff {v : K} (h0 : 0 ≤ v) (h1 : v ≤ 256) {i : Nat} (hi : i ≤ 255) : inBin i v = decide (level v = i) := by
  have hf : 0 ≤ ⌊v⌋ := Int.floor_nonneg.2 h0
  have h2 := Int.floor_le v
  have h3 := Int.lt_floor_add_one v
  have hn : ((⌊v⌋.toNat : Nat) : K) = (⌊v⌋ : K) := by
    rw [← Int.cast_natCast, Int.toNat_of_nonneg hf]
  rw [level_eq h0]
  unfold inBin
  rw [Bool.eq_iff_iff]
  simp only [Bool.and_eq_true, Bool.or_eq_true, decide_eq_true_eq]
  constructor
  · rintro ⟨ha, hb | ⟨hb, hc⟩⟩
    · have : ⌊v⌋ = i := by rw [Int.floor_eq_iff]; exact ⟨by exact_mod_cast ha, by exact_mod_cast hb⟩
      omega
    · have : (i : Int) ≤ ⌊v⌋ := by rw [Int.le_floor]; exact_mod_cast ha
      omega
  · intro h
    have hle : i ≤ ⌊v⌋.toNat := by omega
    have hle' : (i : K) ≤ ⌊v⌋ := by rw [← hn]; exact_mod_cast hle
    refine ⟨by linarith, ?_⟩
    by_cases hc : ⌊v⌋.toNat ≤ 255
    · left
      have : (i : K) = ⌊v⌋ := by rw [← hn]; exact_mod_cast (by omega : i = ⌊v⌋.toNat)
      linarith
    · right
      exact ⟨by omega, h1⟩

theorem counts_nonneg (src : List K) (i : Nat) : 0 ≤ counts src i := Nat.cast_nonneg _

theorem cumsum_succ (h : Nat → K) (k : Nat) : cumsum h (k + 1) = cumsum h k + h (k + 1) := by
  unfold cumsum
  rw [List.range_succ (n := k + 1), List.map_append, List.sum_append]
  simp

theorem cumsum_mono {h : Nat → K} (hh : ∀ i, i ≤ 255 → 0 ≤ h i) {j k : Nat} (hjk : j ≤ k) (hk : k ≤ 255) :
    cumsum h j ≤ cumsum h k := by
  induction k with
  | zero => have : j = 0 := by omega
            subst this; exact le_refl _
  | succ k ih =>
    rcases Nat.eq_or_lt_of_le hjk with rfl | hlt
    · exact le_refl _
    · rw [cumsum_succ]
      have := ih (by omega) (by omega)
      have := hh (k + 1) hk
      linarith

theorem cumsum_nonneg {h : Nat → K} (hh : ∀ i, i ≤ 255 → 0 ≤ h i) {k : Nat} (hk : k ≤ 255) : 0 ≤ cumsum h k := by
  refine le_trans ?_ (cumsum_mono hh (Nat.zero_le k) hk)
  unfold cumsum
  simp [hh 0 (by omega)]

theorem cdf_mono {fl : K → K} (hfl : ∀ a b, a ≤ b → fl a ≤ fl b) {h : Nat → K} (hh : ∀ i, i ≤ 255 → 0 ≤ h i) {j k : Nat}
    (hjk : j ≤ k) (hk : k ≤ 255) : cdf fl h j ≤ cdf fl h k :=
  hfl _ _ (div_le_div_of_nonneg_right (cumsum_mono hh hjk hk) (cumsum_nonneg hh (le_refl _)))

/-- The number of pixels up to a level. -/
theorem cumsum_counts {src : List K} (hs : ∀ v, v ∈ src → 0 ≤ v ∧ v ≤ 256) {k : Nat} (hk : k ≤ 255) :
    cumsum (counts src) k = ((src.filter (fun v => decide (level v ≤ k))).length : K) := by
  have hc : ∀ i, i ≤ 255 → counts src i = ((src.filter (fun v => decide (level v = i))).length : K) := by
    intro i hi
    unfold counts
    rw [List.filter_congr (fun v hv => inBin_iff (hs v hv).1 (hs v hv).2 hi)]
  have hadd : ∀ (l : List K) (k : Nat), (l.filter (fun v => decide (level v ≤ k + 1))).length =
      (l.filter (fun v => decide (level v ≤ k))).length + (l.filter (fun v => decide (level v = k + 1))).length := by
    intro l k
    induction l with
    | nil => rfl
    | cons v l ih =>
      simp only [List.filter_cons, decide_eq_true_eq]
      rcases lt_trichotomy (level v) (k + 1) with h | h | h
      · rw [if_pos (by omega), if_pos (by omega), if_neg (by omega)]; simp only [List.length_cons]; omega
      · rw [if_pos (by omega), if_neg (by omega), if_pos (by omega)]; simp only [List.length_cons]; omega
      · rw [if_neg (by omega), if_neg (by omega), if_neg (by omega)]; exact ih
  induction k with
  | zero =>
    have : cumsum (counts src) 0 = counts src 0 := by unfold cumsum; simp
    rw [this, hc 0 (by omega)]
    simp only [Nat.le_zero]
  | succ k ih =>
    rw [cumsum_succ, ih (by omega), hc _ hk, hadd src k]
    push_cast; rfl

theorem cumsum_all {src : List K} (hs : ∀ v, v ∈ src → 0 ≤ v ∧ v ≤ 256) : cumsum (counts src) 255 = src.length := by
  rw [cumsum_counts hs (le_refl _)]
  congr 2
  rw [List.filter_eq_self]
  intro v _
  simp only [decide_eq_true_eq]
  exact level_le v

/-- The search finds an index at most `k` iff the entry at `k` is large enough (below the last index). -/
theorem search_le {t : Nat → K} (ht : ∀ j k, j ≤ k → k ≤ 255 → t j ≤ t k) (q : K) {k : Nat} (hk : k < 255) :
    search t q ≤ k ↔ q ≤ t k := by
  unfold search
  constructor
  · intro h
    have hlt : (List.range 256).findIdx (fun k => decide (q ≤ t k)) < (List.range 256).length := by
      rw [List.length_range]; omega
    have := List.findIdx_getElem (w := hlt)
    simp only [List.getElem_range, decide_eq_true_eq] at this
    exact this.trans (ht _ _ (by omega) (by omega))
  · intro h
    have : (List.range 256).findIdx (fun k => decide (q ≤ t k)) ≤ k := by
      by_contra hc
      have hc : k < (List.range 256).findIdx (fun k => decide (q ≤ t k)) := by omega
      have := List.not_of_lt_findIdx hc
      simp only [List.getElem_range, decide_eq_false_iff_not] at this
      exact this h
    omega

theorem search_mono {t : Nat → K} {q q' : K} (h : q ≤ q') : search t q ≤ search t q' := by
  unfold search
  have : (List.range 256).findIdx (fun k => decide (q ≤ t k)) ≤ (List.range 256).findIdx (fun k => decide (q' ≤ t k)) := by
    by_contra hc
    have hc : (List.range 256).findIdx (fun k => decide (q' ≤ t k)) < (List.range 256).findIdx (fun k => decide (q ≤ t k)) := by omega
    have hlt := lt_of_lt_of_le hc List.findIdx_le_length
    have h1 := List.findIdx_getElem (w := hlt)
    have h2 := List.not_of_lt_findIdx hc
    simp only [decide_eq_true_eq, decide_eq_false_iff_not] at h1 h2
    exact h2 (h.trans h1)
  omega

/-- A list with elements of a kind has one of greatest level. -/
theorem exists_greatest (l : List K) (p : K → Prop) (h : ∃ v, v ∈ l ∧ p v) :
    ∃ v, v ∈ l ∧ p v ∧ ∀ w, w ∈ l → p w → level w ≤ level v := by
  classical
  induction l with
  | nil => obtain ⟨v, hv, _⟩ := h; cases hv
  | cons a l ih =>
    by_cases hl : ∃ v, v ∈ l ∧ p v
    · obtain ⟨v, hv, hp, hmax⟩ := ih hl
      by_cases ha : p a ∧ level v ≤ level a
      · refine ⟨a, List.mem_cons_self, ha.1, fun w hw hpw => ?_⟩
        rcases List.mem_cons.1 hw with rfl | hw
        · exact le_refl _
        · exact (hmax w hw hpw).trans ha.2
      · refine ⟨v, List.mem_cons_of_mem _ hv, hp, fun w hw hpw => ?_⟩
        rcases List.mem_cons.1 hw with rfl | hw
        · by_contra hc; exact ha ⟨hpw, by omega⟩
        · exact hmax w hw hpw
    · obtain ⟨v, hv, hp⟩ := h
      rcases List.mem_cons.1 hv with rfl | hv
      · refine ⟨v, List.mem_cons_self, hp, fun w hw hpw => ?_⟩
        rcases List.mem_cons.1 hw with rfl | hw
        · exact le_refl _
        · exact absurd ⟨w, hw, hpw⟩ hl
      · exact absurd ⟨v, hv, hp⟩ hl

theorem exists_least (l : List K) (p : K → Prop) (h : ∃ v, v ∈ l ∧ p v) :
    ∃ v, v ∈ l ∧ p v ∧ ∀ w, w ∈ l → p w → level v ≤ level w := by
  classical
  induction l with
  | nil => obtain ⟨v, hv, _⟩ := h; cases hv
  | cons a l ih =>
    by_cases hl : ∃ v, v ∈ l ∧ p v
    · obtain ⟨v, hv, hp, hmin⟩ := ih hl
      by_cases ha : p a ∧ level a ≤ level v
      · refine ⟨a, List.mem_cons_self, ha.1, fun w hw hpw => ?_⟩
        rcases List.mem_cons.1 hw with rfl | hw
        · exact le_refl _
        · exact ha.2.trans (hmin w hw hpw)
      · refine ⟨v, List.mem_cons_of_mem _ hv, hp, fun w hw hpw => ?_⟩
        rcases List.mem_cons.1 hw with rfl | hw
        · by_contra hc; exact ha ⟨hpw, by omega⟩
        · exact hmin w hw hpw
    · obtain ⟨v, hv, hp⟩ := h
      rcases List.mem_cons.1 hv with rfl | hv
      · refine ⟨v, List.mem_cons_self, hp, fun w hw hpw => ?_⟩
        rcases List.mem_cons.1 hw with rfl | hw
        · exact le_refl _
        · exact absurd ⟨w, hw, hpw⟩ hl
      · exact absurd ⟨v, hv, hp⟩ hl

theorem length_filter_mono {l : List K} {p q : K → Bool} (h : ∀ v, v ∈ l → p v = true → q v = true) :
    (l.filter p).length ≤ (l.filter q).length := by
  rw [← List.countP_eq_length_filter, ← List.countP_eq_length_filter]
  exact List.countP_mono_left h

end Verif.Histogram

import Verif.Model.Bicubic
import Verif.Proofs.PillowSums
import Mathlib.Tactic.NormNum
import Mathlib.Algebra.Order.Floor.Ring
import Mathlib.Order.Interval.Finset.Nat
import Mathlib.Data.Int.Interval
/-!
# Lemmas on Pillow's bicubic resampling
-/

namespace Verif.Bicubic
open Verif Finset Pillow

theorem weight_outside {n m i x : Nat} (hx : x < n) (h : x < first n m i ∨ last n m i ≤ x) : weight n m i x = 0 := by
  have hs := filterScale_pos n m
  have key : ∀ t : ℚ, 2 ≤ |t| → cubic t = 0 := fun t ht => by unfold cubic; rw [if_neg (by linarith), if_neg (by linarith)]
  unfold weight
  apply key
  rw [mul_one_div]
  rcases h with h | h
  · unfold first at h
    have h1 : ((x : Int) + 1) ≤ trunc (center n m i - 2 * filterScale n m + 1 / 2) := by omega
    unfold trunc at h1
    split at h1
    · rename_i hneg
      have : 0 ≤ ⌊-(center n m i - 2 * filterScale n m + 1 / 2)⌋ := Int.floor_nonneg.2 (by linarith)
      omega
    · have h2 := Int.le_floor.1 h1
      push_cast at h2
      rw [le_abs]
      right
      rw [← neg_div, le_div_iff₀ hs]
      linarith
  · unfold last at h
    have h1 : trunc (center n m i + 2 * filterScale n m + 1 / 2) ≤ x := by
      rcases min_le_iff.1 h with h' | h' <;> omega
    unfold trunc at h1
    rw [le_abs]
    left
    rw [le_div_iff₀ hs]
    split at h1
    · rename_i hneg
      have : (0 : ℚ) ≤ x := by positivity
      linarith
    · have h2 : ⌊center n m i + 2 * filterScale n m + 1 / 2⌋ < (x : Int) + 1 := by omega
      have h3 := Int.floor_lt.1 h2
      push_cast at h3
      linarith

theorem window_sum {n m i : Nat} (g : Nat → ℚ) (hg : ∀ x, x < n → weight n m i x = 0 → g x = 0) :
    ((List.range' (first n m i) (last n m i - first n m i)).map g).sum = ∑ x ∈ range n, g x := by
  rw [sum_range']
  apply Finset.sum_subset
  · intro x hx
    rw [Finset.mem_Ico] at hx
    have : last n m i ≤ n := min_le_left _ _
    rw [Finset.mem_range]; omega
  · intro x hx hnot
    rw [Finset.mem_range] at hx
    rw [Finset.mem_Ico] at hnot
    exact hg x hx (weight_outside hx (by omega))

theorem total_eq (n m i : Nat) : total n m i = ∑ x ∈ range n, weight n m i x := window_sum _ (fun _ _ h => h)

/-- One pass as a sum over all pixels. -/
theorem pass_sum (store : ℚ → ℚ) {n m i : Nat} (ht : total n m i ≠ 0) (f : Nat → ℚ) :
    pass store n m f i = store (∑ x ∈ range n, f x * (weight n m i x / total n m i)) := by
  unfold pass
  simp only [if_neg ht]
  rw [window_sum _ (fun x _ h => by rw [h]; simp)]

theorem cubic_ge (t : ℚ) : -(2 / 27) ≤ cubic t := by
  unfold cubic
  have h0 := abs_nonneg t
  generalize |t| = u at *
  split
  · rename_i h1
    nlinarith [mul_nonneg (sub_nonneg.2 h1.le) (show (0 : ℚ) ≤ 1 + u - 3 / 2 * u ^ 2 by nlinarith [mul_nonneg h0 (sub_nonneg.2 h1.le)])]
  · split
    · nlinarith [mul_nonneg (sq_nonneg (u - 4 / 3)) (show (0 : ℚ) ≤ 7 / 3 + u by linarith), sq_nonneg (u - 4 / 3), mul_nonneg (sq_nonneg (u - 4 / 3)) h0]
    · norm_num

theorem cubic_mid {t : ℚ} (h : |t| ≤ 1 / 2) : 9 / 16 ≤ cubic t := by
  unfold cubic
  have h0 := abs_nonneg t
  generalize |t| = u at *
  rw [if_pos (by linarith)]
  nlinarith [mul_nonneg h0 h0, mul_nonneg (mul_nonneg h0 h0) h0, mul_nonneg (mul_nonneg h0 (sub_nonneg.2 h)) h0, mul_nonneg h0 (sub_nonneg.2 h)]

theorem cubic_near {t : ℚ} (h : |t| < 1) : 0 ≤ cubic t := by
  unfold cubic
  have h0 := abs_nonneg t
  generalize |t| = u at *
  rw [if_pos h]
  nlinarith [mul_nonneg (sub_nonneg.2 h.le) (show (0 : ℚ) ≤ 1 + u - 3 / 2 * u ^ 2 by nlinarith [mul_nonneg h0 (sub_nonneg.2 h.le)])]

theorem cubic_far {t : ℚ} (h : 2 ≤ |t|) : cubic t = 0 := by
  unfold cubic; rw [if_neg (by linarith), if_neg (by linarith)]

/-- The offset at which the filter is read. -/
def off (n m i x : Nat) : ℚ := ((x : ℚ) - center n m i + 1 / 2) * (1 / filterScale n m)

theorem card_interval {S : Finset Nat} {u F : ℚ} {N : Nat} (hF : F < N + 1) (h : ∀ x ∈ S, u ≤ (x : ℚ) ∧ (x : ℚ) < u + F) : S.card ≤ N + 1 := by
  have hsub : S.image (fun x : Nat => (x : Int)) ⊆ Finset.Ico ⌈u⌉ (⌈u⌉ + (N + 1)) := by
    intro z hz
    obtain ⟨x, hx, rfl⟩ := Finset.mem_image.1 hz
    obtain ⟨h1, h2⟩ := h x hx
    rw [Finset.mem_Ico]
    refine ⟨Int.ceil_le.2 (by exact_mod_cast h1), ?_⟩
    have : (x : ℚ) < ((⌈u⌉ + (N + 1) : Int) : ℚ) := by
      push_cast
      linarith [Int.le_ceil u]
    exact_mod_cast this
  have h1 := Finset.card_le_card hsub
  rw [Finset.card_image_of_injective _ Nat.cast_injective, Int.card_Ico] at h1
  omega

theorem total_pos {n m i : Nat} (hn : 0 < n) (hi : i < m) : 0 < total n m i := by
  have hm : (0 : ℚ) < m := by exact_mod_cast (show 0 < m by omega)
  have hnq : (0 : ℚ) < n := by exact_mod_cast hn
  have hF0 := filterScale_pos n m
  have hF1 : 1 ≤ filterScale n m := le_max_left _ _
  have hiq : ((i : ℚ) + 1) ≤ m := by exact_mod_cast hi
  have hi0 : (0 : ℚ) ≤ i := by positivity
  have hr : (0 : ℚ) < (n : ℚ) / m := by positivity
  have hrn : (n : ℚ) / m * m = n := by field_simp
  -- the centre lies well inside
  have k12 : filterScale n m / 2 - 1 / 2 ≤ center n m i ∧ center n m i + filterScale n m / 2 - 1 / 2 < n := by
    unfold filterScale center
    generalize (n : ℚ) / m = r at *
    rcases le_total r 1 with h | h
    · rw [max_eq_left h]
      constructor
      · nlinarith
      · nlinarith
    · rw [max_eq_right h]
      constructor
      · nlinarith
      · nlinarith
  obtain ⟨k1, k2⟩ := k12
  rw [total_eq]
  obtain ⟨N, hN⟩ : ∃ N : Nat, N = ⌊filterScale n m⌋₊ := ⟨_, rfl⟩
  have hN1 : (N : ℚ) ≤ filterScale n m := by rw [hN]; exact Nat.floor_le hF0.le
  have hN2 : filterScale n m < N + 1 := by rw [hN]; exact Nat.lt_floor_add_one _
  have hN0 : 1 ≤ N := by rw [hN]; exact Nat.le_floor (by exact_mod_cast hF1)
  have hoff : ∀ x, weight n m i x = cubic (off n m i x) := fun _ => rfl
  have habs : ∀ x, |off n m i x| = |(x : ℚ) - center n m i + 1 / 2| / filterScale n m := by
    intro x
    unfold off
    rw [mul_one_div, abs_div, abs_of_pos hF0]
  generalize center n m i = c at *
  generalize filterScale n m = F at *
  -- pixels near the centre
  have hmid : N ≤ ((range n).filter (fun x => |off n m i x| ≤ 1 / 2)).card := by
    have hsub : Finset.Ico ⌈c - F / 2 - 1 / 2⌉₊ (⌈c - F / 2 - 1 / 2⌉₊ + N) ⊆ (range n).filter (fun x => |off n m i x| ≤ 1 / 2) := by
      intro x hx
      rw [Finset.mem_Ico] at hx
      have h1 : c - F / 2 - 1 / 2 ≤ x := (Nat.le_ceil _).trans (by exact_mod_cast hx.1)
      have h2 : (x : ℚ) + 1 ≤ (⌈c - F / 2 - 1 / 2⌉₊ : ℚ) + N := by exact_mod_cast hx.2
      have h3 : (x : ℚ) - c + 1 / 2 ≤ F / 2 := by
        rcases le_or_gt 0 (c - F / 2 - 1 / 2) with h | h
        · have := Nat.ceil_lt_add_one h
          linarith
        · have h0 : ⌈c - F / 2 - 1 / 2⌉₊ = 0 := Nat.ceil_eq_zero.2 h.le
          rw [h0] at h2
          push_cast at h2
          linarith
      rw [Finset.mem_filter, Finset.mem_range, habs, div_le_iff₀ hF0, abs_le]
      refine ⟨?_, by linarith, by linarith⟩
      have : (x : ℚ) < n := by linarith
      exact_mod_cast this
    have := Finset.card_le_card hsub
    rw [Nat.card_Ico] at this
    omega
  -- pixels with negative weights
  have hneg : ((range n).filter (fun x => 1 ≤ |off n m i x| ∧ |off n m i x| < 2)).card ≤ 2 * (N + 1) := by
    have hR : ((range n).filter (fun x : Nat => c + F - 1 / 2 ≤ (x : ℚ) ∧ (x : ℚ) < c + F - 1 / 2 + F)).card ≤ N + 1 :=
      card_interval hN2 (fun x hx => (Finset.mem_filter.1 hx).2)
    have hL : ((range n).filter (fun x : Nat => c - 2 * F - 1 / 2 < (x : ℚ) ∧ (x : ℚ) ≤ c - 2 * F - 1 / 2 + F)).card ≤ N + 1 := by
      have hsub : ((range n).filter (fun x : Nat => c - 2 * F - 1 / 2 < (x : ℚ) ∧ (x : ℚ) ≤ c - 2 * F - 1 / 2 + F)).image (fun x : Nat => (x : Int)) ⊆
          Finset.Ioc ⌊c - 2 * F - 1 / 2⌋ (⌊c - 2 * F - 1 / 2⌋ + (N + 1)) := by
        intro z hz
        obtain ⟨x, hx, rfl⟩ := Finset.mem_image.1 hz
        obtain ⟨-, h1, h2⟩ := Finset.mem_filter.1 hx
        rw [Finset.mem_Ioc]
        refine ⟨Int.floor_lt.2 (by exact_mod_cast h1), ?_⟩
        have h3 : (x : ℚ) < ((⌊c - 2 * F - 1 / 2⌋ + (N + 1) + 1 : Int) : ℚ) := by
          push_cast
          linarith [Int.lt_floor_add_one (c - 2 * F - 1 / 2)]
        have h4 : (x : Int) < ⌊c - 2 * F - 1 / 2⌋ + (N + 1) + 1 := by exact_mod_cast h3
        omega
      have h1 := Finset.card_le_card hsub
      rw [Finset.card_image_of_injective _ Nat.cast_injective, Int.card_Ioc] at h1
      omega
    have hsub : (range n).filter (fun x => 1 ≤ |off n m i x| ∧ |off n m i x| < 2) ⊆
        (range n).filter (fun x : Nat => c + F - 1 / 2 ≤ (x : ℚ) ∧ (x : ℚ) < c + F - 1 / 2 + F) ∪
          (range n).filter (fun x : Nat => c - 2 * F - 1 / 2 < (x : ℚ) ∧ (x : ℚ) ≤ c - 2 * F - 1 / 2 + F) := by
      intro x hx
      obtain ⟨hr, h1, h2⟩ := Finset.mem_filter.1 hx
      rw [habs, le_div_iff₀ hF0] at h1
      rw [habs, div_lt_iff₀ hF0, abs_lt] at h2
      rw [Finset.mem_union, Finset.mem_filter, Finset.mem_filter]
      rcases le_abs.1 h1 with h | h
      · exact .inl ⟨hr, by linarith, by linarith [h2.2]⟩
      · exact .inr ⟨hr, by linarith [h2.1], by linarith⟩
    have := (Finset.card_le_card hsub).trans (Finset.card_union_le _ _)
    omega
  have hbound : ∑ x ∈ range n, ((if |off n m i x| ≤ 1 / 2 then (9 / 16 : ℚ) else 0) - (if 1 ≤ |off n m i x| ∧ |off n m i x| < 2 then (2 / 27 : ℚ) else 0)) ≤
      ∑ x ∈ range n, weight n m i x := by
    apply Finset.sum_le_sum
    intro x _
    rw [hoff]
    by_cases h1 : |off n m i x| ≤ 1 / 2
    · rw [if_pos h1, if_neg (by intro h; linarith [h.1])]
      linarith [cubic_mid h1]
    · rw [if_neg h1]
      by_cases h2 : |off n m i x| < 1
      · rw [if_neg (by intro h; linarith [h.1])]
        linarith [cubic_near h2]
      · by_cases h3 : |off n m i x| < 2
        · rw [if_pos ⟨not_lt.1 h2, h3⟩]
          linarith [cubic_ge (off n m i x)]
        · rw [if_neg (fun h => h3 h.2), cubic_far (not_lt.1 h3)]
          norm_num
  rw [Finset.sum_sub_distrib, ← Finset.sum_filter, ← Finset.sum_filter, Finset.sum_const, Finset.sum_const, nsmul_eq_mul, nsmul_eq_mul] at hbound
  have e1 : (N : ℚ) ≤ (((range n).filter (fun x => |off n m i x| ≤ 1 / 2)).card : ℚ) := by exact_mod_cast hmid
  have e2 : (((range n).filter (fun x => 1 ≤ |off n m i x| ∧ |off n m i x| < 2)).card : ℚ) ≤ 2 * (N + 1) := by exact_mod_cast hneg
  have e3 : (1 : ℚ) ≤ N := by exact_mod_cast hN0
  linarith

theorem pass_const (store : ℚ → ℚ) {n m i : Nat} (hn : 0 < n) (hi : i < m) {f : Nat → ℚ} {v : ℚ} (hf : ∀ x, x < n → f x = v) :
    pass store n m f i = store v := by
  have ht := (total_pos hn hi).ne'
  rw [pass_sum store ht, Finset.sum_congr rfl (fun x hx => by rw [hf x (Finset.mem_range.1 hx)]), ← Finset.mul_sum, ← Finset.sum_div, ← total_eq, div_self ht, mul_one]

theorem mem_build2 {h w : Nat} {f : List Nat → ℚ} {v : ℚ} (hv : v ∈ (Arr.build [h, w] f).data) : ∃ y x, y < h ∧ x < w ∧ v = f [y, x] := by
  simp only [Arr.build, Arr.buildData, List.mem_flatMap, List.mem_range, List.mem_singleton] at hv
  obtain ⟨y, hy, x, hx, e⟩ := hv
  exact ⟨y, x, hy, hx, e⟩

theorem resize_ok (store : ℚ → ℚ) {a : Arr ℚ} {h0 w0 w h : Nat} (hs : a.shape = [h0, w0]) (hw : 0 < w) (hh : 0 < h) :
    ∃ r, resize store a w h = .ok r ∧ r.shape = [h, w] ∧ r.WF ∧ (∀ y x, y < h → x < w →
      r.at? [y, x] = some (pass store h0 h (fun j => pass store w0 w (fun i => a.data.getD (j * w0 + i) 0) x) y)) ∧
      ∀ v ∈ r.data, ∃ y x, y < h ∧ x < w ∧ v = pass store h0 h (fun j => pass store w0 w (fun i => a.data.getD (j * w0 + i) 0) x) y := by
  refine ⟨_, by simp only [resize, hs]; rw [if_neg (by omega)], rfl, Arr.build_wf _ _, ?_, ?_⟩
  · intro y x hy hx
    rw [Arr.at_build _ _ _ (Arr.offset2 hy hx)]
  · intro v hv
    exact mem_build2 hv

theorem data_mem {a : Arr ℚ} {h0 w0 j i : Nat} (hs : a.shape = [h0, w0]) (hwf : a.WF) (hj : j < h0) (hi : i < w0) : a.data.getD (j * w0 + i) 0 ∈ a.data := by
  have hlen : a.data.length = h0 * w0 := by
    have := hwf
    unfold Arr.WF at this
    rw [this, hs]
    simp [Arr.size]
  have hlt : j * w0 + i < a.data.length := by
    rw [hlen]
    calc j * w0 + i < j * w0 + w0 := by omega
      _ = (j + 1) * w0 := by ring
      _ ≤ h0 * w0 := Nat.mul_le_mul_right _ hj
  rw [List.getD_eq_getElem?_getD, List.getElem?_eq_getElem hlt, Option.getD_some]
  exact List.getElem_mem hlt

end Verif.Bicubic

import Verif.Model.Pillow
import Verif.Proofs.ArrIx
import Mathlib.Tactic.Linarith
import Mathlib.Tactic.FieldSimp
import Mathlib.Tactic.Ring
import Mathlib.Tactic.Positivity
/-!
# Lemmas on Pillow's bilinear resampling
-/

namespace Verif.Pillow
open Verif

theorem triangle_nonneg (x : ℚ) : 0 ≤ triangle x := by
  unfold triangle
  split <;> linarith

theorem weight_nonneg (n m i x : Nat) : 0 ≤ weight n m i x := triangle_nonneg _

theorem filterScale_pos (n m : Nat) : 0 < filterScale n m := lt_of_lt_of_le one_pos (le_max_left _ _)

/-- The input pixel in which the centre of the output pixel lies is looked at, with positive weight. -/
theorem centre_pixel {n m i : Nat} (hi : i < m) (hn : 0 < n) :
    ∃ x, first n m i ≤ x ∧ x < last n m i ∧ 0 < weight n m i x := by
  have hm : (0 : ℚ) < m := by exact_mod_cast (show 0 < m by omega)
  have hnq : (0 : ℚ) < n := by exact_mod_cast hn
  have hc0 : 0 ≤ center n m i := by unfold center; positivity
  have hcn : center n m i < n := by
    unfold center
    rw [← mul_div_assoc, div_lt_iff₀ hm, mul_comm]
    have : (i : ℚ) + 1 ≤ m := by exact_mod_cast hi
    nlinarith
  have hs : 1 ≤ filterScale n m := le_max_left _ _
  have hf0 : 0 ≤ ⌊center n m i⌋ := Int.floor_nonneg.2 hc0
  have hcast : ((⌊center n m i⌋.toNat : Nat) : ℤ) = ⌊center n m i⌋ := Int.toNat_of_nonneg hf0
  have hcq : ((⌊center n m i⌋.toNat : Nat) : ℚ) = (⌊center n m i⌋ : ℚ) := by exact_mod_cast congrArg (Int.cast (R := ℚ)) hcast
  have h1 := Int.floor_le (center n m i)
  have h2 := Int.lt_floor_add_one (center n m i)
  refine ⟨⌊center n m i⌋.toNat, ?_, ?_, ?_⟩
  · unfold first
    apply Int.toNat_le_toNat
    unfold trunc
    split
    · rename_i hneg
      have : 0 ≤ ⌊-(center n m i - filterScale n m + 1 / 2)⌋ := Int.floor_nonneg.2 (by linarith)
      linarith
    · exact Int.floor_le_floor (by linarith)
  · unfold last
    rw [lt_min_iff]
    constructor
    · have : ((⌊center n m i⌋.toNat : Nat) : ℚ) < n := by rw [hcq]; linarith
      exact_mod_cast this
    · have : ⌊center n m i⌋ + 1 ≤ trunc (center n m i + filterScale n m + 1 / 2) := by
        unfold trunc
        rw [if_neg (by linarith), Int.le_floor]
        push_cast
        linarith
      omega
  · unfold weight triangle
    have : |((⌊center n m i⌋.toNat : Nat) : ℚ) - center n m i + 1 / 2| < 1 := by
      rw [hcq, abs_lt]
      constructor <;> linarith
    have h3 : |(((⌊center n m i⌋.toNat : Nat) : ℚ) - center n m i + 1 / 2) * (1 / filterScale n m)| < 1 := by
      rw [abs_mul, abs_of_pos (by have := filterScale_pos n m; positivity : (0 : ℚ) < 1 / filterScale n m)]
      have h4 : 1 / filterScale n m ≤ 1 := by
        rw [div_le_one (filterScale_pos n m)]
        exact hs
      have h5 := abs_nonneg (((⌊center n m i⌋.toNat : Nat) : ℚ) - center n m i + 1 / 2)
      have h6 : 0 < 1 / filterScale n m := by have := filterScale_pos n m; positivity
      nlinarith
    rw [if_pos h3]
    linarith

theorem total_pos {n m i : Nat} (hi : i < m) (hn : 0 < n) : 0 < total n m i := by
  obtain ⟨x, h1, h2, h3⟩ := centre_pixel hi hn
  unfold total
  refine lt_of_lt_of_le h3 (List.single_le_sum ?_ _ ?_)
  · intro y hy
    obtain ⟨z, _, rfl⟩ := List.mem_map.1 hy
    exact weight_nonneg _ _ _ _
  · refine List.mem_map.2 ⟨x, ?_, rfl⟩
    rw [List.mem_range'_1]
    omega

theorem sum_le {l : List Nat} {f g : Nat → ℚ} (h : ∀ x ∈ l, f x ≤ g x) : (l.map f).sum ≤ (l.map g).sum := by
  induction l with
  | nil => simp
  | cons x l ih =>
    simp only [List.map_cons, List.sum_cons]
    have := h x (by simp)
    have := ih (fun y hy => h y (by simp [hy]))
    linarith

theorem sum_const_mul (l : List Nat) (f : Nat → ℚ) (c : ℚ) : (l.map (fun x => c * f x)).sum = c * (l.map f).sum := by
  induction l with
  | nil => simp
  | cons x l ih => simp only [List.map_cons, List.sum_cons, ih]; ring

theorem sum_div (l : List Nat) (f : Nat → ℚ) (c : ℚ) : (l.map (fun x => f x / c)).sum = (l.map f).sum / c := by
  induction l with
  | nil => simp
  | cons x l ih => simp only [List.map_cons, List.sum_cons, ih]; ring

/-- The normalised weights add up to 1. -/
theorem weights_sum {n m i : Nat} (hi : i < m) (hn : 0 < n) :
    ((List.range' (first n m i) (last n m i - first n m i)).map (fun x => weight n m i x / total n m i)).sum = 1 := by
  rw [sum_div]
  exact div_self (total_pos hi hn).ne'

theorem pass_eq {n m i : Nat} (hi : i < m) (hn : 0 < n) (f : Nat → ℚ) :
    pass n m f i = ((List.range' (first n m i) (last n m i - first n m i)).map (fun x => f x * (weight n m i x / total n m i))).sum := by
  unfold pass
  simp only [if_neg (total_pos hi hn).ne']

theorem mem_window {n m i x : Nat} (h : x ∈ List.range' (first n m i) (last n m i - first n m i)) : x < n := by
  rw [List.mem_range'_1] at h
  have : last n m i ≤ n := min_le_left _ _
  omega

/-- A pass never leaves the range of the input. -/
theorem pass_range {n m i : Nat} (hi : i < m) (hn : 0 < n) {f : Nat → ℚ} {lo hi' : ℚ} (hf : ∀ x, x < n → lo ≤ f x ∧ f x ≤ hi') :
    lo ≤ pass n m f i ∧ pass n m f i ≤ hi' := by
  have ht := total_pos hi hn
  have hw : ∀ x, 0 ≤ weight n m i x / total n m i := fun x => div_nonneg (weight_nonneg _ _ _ _) ht.le
  rw [pass_eq hi hn]
  have h1 := weights_sum hi hn
  constructor
  · calc lo = lo * 1 := by ring
      _ = ((List.range' (first n m i) (last n m i - first n m i)).map (fun x => lo * (weight n m i x / total n m i))).sum := by
          rw [sum_const_mul, h1]
      _ ≤ _ := sum_le fun x hx => mul_le_mul_of_nonneg_right (hf x (mem_window hx)).1 (hw x)
  · calc _ ≤ ((List.range' (first n m i) (last n m i - first n m i)).map (fun x => hi' * (weight n m i x / total n m i))).sum :=
          sum_le fun x hx => mul_le_mul_of_nonneg_right (hf x (mem_window hx)).2 (hw x)
      _ = hi' := by rw [sum_const_mul, h1, mul_one]

/-- A pass that does not change the size changes nothing. -/
theorem pass_same {n i : Nat} (hi : i < n) (f : Nat → ℚ) : pass n n f i = f i := by
  have hn : (n : ℚ) ≠ 0 := by exact_mod_cast (show n ≠ 0 by omega)
  have hc : center n n i = (i : ℚ) + 1 / 2 := by unfold center; rw [div_self hn, mul_one]
  have hs : filterScale n n = 1 := by unfold filterScale; rw [div_self hn, max_self]
  have hw : ∀ x : Nat, weight n n i x = if x = i then 1 else 0 := by
    intro x
    unfold weight triangle
    rw [hc, hs]
    by_cases he : x = i
    · subst he
      simp
    · rw [if_neg he, if_neg]
      rw [not_lt]
      rcases Nat.lt_or_gt_of_ne he with h | h
      · have : (x : ℚ) + 1 ≤ i := by exact_mod_cast h
        rw [le_abs]
        right
        linarith
      · have : (i : ℚ) + 1 ≤ x := by exact_mod_cast h
        rw [le_abs]
        left
        linarith
  obtain ⟨x, h1, h2, h3⟩ := centre_pixel (n := n) hi (by omega)
  have hx : x = i := by
    by_contra hne
    rw [hw, if_neg hne] at h3
    exact lt_irrefl _ h3
  subst hx
  have key : ∀ (g : Nat → ℚ) (a k : Nat), a ≤ x → x < a + k → ((List.range' a k).map (fun y => g y * (if y = x then (1 : ℚ) else 0))).sum = g x := by
    intro g a k
    induction k generalizing a with
    | zero => intro _ h; omega
    | succ k ih =>
      intro ha hk
      rw [List.range'_succ, List.map_cons, List.sum_cons]
      by_cases he : a = x
      · subst he
        rw [if_pos rfl, mul_one]
        have : ((List.range' (a + 1) k).map (fun y => g y * (if y = a then (1 : ℚ) else 0))).sum = 0 := by
          apply List.sum_eq_zero
          intro z hz
          obtain ⟨y, hy, rfl⟩ := List.mem_map.1 hz
          rw [List.mem_range'_1] at hy
          rw [if_neg (by omega), mul_zero]
        rw [this, add_zero]
      · rw [if_neg he, mul_zero, zero_add]
        exact ih (a + 1) (by omega) (by omega)
  have ht : total n n x = 1 := by
    unfold total
    simp only [hw]
    have := key (fun _ => 1) (first n n x) (last n n x - first n n x) h1 (by omega)
    simpa using this
  rw [pass_eq hi (by omega), ht]
  simp only [hw, div_one]
  exact key f _ _ h1 (by omega)

/-- What `resize` gives. -/
theorem resize_ok {a : Arr ℚ} {h0 w0 w h : Nat} (hs : a.shape = [h0, w0]) (hw : 0 < w) (hh : 0 < h) :
    ∃ r, resize a w h = .ok r ∧ r.shape = [h, w] ∧ r.WF ∧ ∀ y x, y < h → x < w →
      r.at? [y, x] = some (pass h0 h (fun j => pass w0 w (fun i => a.data.getD (j * w0 + i) 0) x) y) := by
  refine ⟨_, by simp only [resize, hs]; rw [if_neg (by omega)], rfl, Arr.build_wf _ _, ?_⟩
  intro y x hy hx
  rw [Arr.at_build _ _ _ (Arr.offset2 hy hx)]

theorem at_data {a : Arr ℚ} {h0 w0 j i : Nat} (hs : a.shape = [h0, w0]) (hj : j < h0) (hi : i < w0) {q : ℚ} (h : a.at? [j, i] = some q) :
    a.data.getD (j * w0 + i) 0 = q := by
  unfold Arr.at? at h
  rw [hs] at h
  simp only [Arr.offset, hj, hi, if_true, Option.map_some, Arr.size, List.foldr, Nat.mul_one, Option.bind_some, Nat.add_zero] at h
  rw [List.getD_eq_getElem?_getD, h]
  rfl

/-- Resampling never leaves the range of the values. -/
theorem resize_range {a r : Arr ℚ} {h0 w0 w h : Nat} {lo hi : ℚ} (hs : a.shape = [h0, w0]) (hh0 : 0 < h0) (hw0 : 0 < w0)
    (ha : ∀ y x, y < h0 → x < w0 → ∃ q, a.at? [y, x] = some q ∧ lo ≤ q ∧ q ≤ hi) (hr : resize a w h = .ok r) :
    r.shape = [h, w] ∧ r.WF ∧ ∀ y x, y < h → x < w → ∃ q, r.at? [y, x] = some q ∧ lo ≤ q ∧ q ≤ hi := by
  have hpos : 0 < w ∧ 0 < h := by
    simp only [resize, hs] at hr
    split at hr
    · cases hr
    · omega
  obtain ⟨r', hr', h1, h2, h3⟩ := resize_ok (a := a) hs hpos.1 hpos.2
  rw [hr] at hr'
  cases hr'
  refine ⟨h1, h2, fun y x hy hx => ⟨_, h3 y x hy hx, ?_⟩⟩
  refine pass_range hy hh0 fun j hj => pass_range hx hw0 fun i hi => ?_
  obtain ⟨q, hq, hlo⟩ := ha j i hj hi
  rw [at_data hs hj hi hq]
  exact hlo

end Verif.Pillow

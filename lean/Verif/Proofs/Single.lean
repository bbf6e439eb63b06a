import Verif.Model.Single
import Verif.Spec.Single
import Verif.Proofs.Interp
import Verif.Proofs.Rounding
import Mathlib.Tactic.Linarith
import Mathlib.Tactic.Ring
import Mathlib.Tactic.NormNum
import Mathlib.Tactic.Positivity
/-!
# Rounding errors of the interpolation
-/

namespace Verif.Single
open Verif Interp

/-- Half a unit in the last place of a number just above 1. -/
abbrev ε : ℚ := 1 / 2 ^ 24

theorem abs_of_err {x' x e : ℚ} (h : |x' - x| ≤ e) : |x'| ≤ |x| + e := by
  have := abs_add_le (x' - x) x
  rw [sub_add_cancel] at this
  linarith

/-- A weight and its complement after rounding. -/
theorem weights {w w' c' : ℚ} (h0 : 0 ≤ w) (h1 : w ≤ 1) (hw : |w' - w| ≤ ε * |w|) (hc : |c' - (1 - w')| ≤ ε * |1 - w'|) :
    |w' - w| ≤ ε * (1 + ε) ∧ |c' - (1 - w)| ≤ ε * (1 + ε) := by
  rw [abs_of_nonneg h0] at hw
  have hε : (0 : ℚ) < ε := by norm_num
  have hw' := abs_le.1 hw
  have hb : |1 - w'| ≤ 1 - w + ε * w := by
    rw [abs_le]; constructor <;> nlinarith
  refine ⟨hw.trans (by nlinarith), ?_⟩
  have hc' := abs_le.1 (hc.trans (mul_le_mul_of_nonneg_left hb hε.le))
  have h2 := mul_le_mul_of_nonneg_left h1 (mul_pos hε hε).le
  rw [abs_le]
  constructor <;> linarith

/-- Rounding a product. -/
theorem prod_err {a a' b b' p A B α β : ℚ} (ha : |a' - a| ≤ α) (hb : |b' - b| ≤ β) (hA : |a| ≤ A) (hB : |b| ≤ B)
    (hp : |p - a' * b'| ≤ ε * |a' * b'|) : |p - a * b| ≤ (A * β + B * α + α * β) + ε * (|a * b| + (A * β + B * α + α * β)) := by
  have hα : 0 ≤ α := (abs_nonneg _).trans ha
  have hβ : 0 ≤ β := (abs_nonneg _).trans hb
  have e : a' * b' - a * b = a * (b' - b) + b * (a' - a) + (a' - a) * (b' - b) := by ring
  have h1 : |a' * b' - a * b| ≤ A * β + B * α + α * β := by
    rw [e]
    refine (abs_add_le _ _).trans (add_le_add ((abs_add_le _ _).trans (add_le_add ?_ ?_)) ?_)
    · rw [abs_mul]; exact mul_le_mul hA hb (abs_nonneg _) ((abs_nonneg _).trans hA)
    · rw [abs_mul]; exact mul_le_mul hB ha (abs_nonneg _) ((abs_nonneg _).trans hB)
    · rw [abs_mul]; exact mul_le_mul ha hb (abs_nonneg _) hα
  have h2 := abs_of_err h1
  have hε : (0 : ℚ) < ε := by norm_num
  have h3 := hp.trans (mul_le_mul_of_nonneg_left h2 hε.le)
  have h4 := abs_add_le (p - a' * b') (a' * b' - a * b)
  rw [sub_add_sub_cancel] at h4
  linarith

/-- A term of bilinear interpolation: weights `a` and `b`, entry `I`. -/
theorem term2 {a a' b b' p q I M : ℚ} (ha0 : 0 ≤ a) (ha1 : a ≤ 1) (hb0 : 0 ≤ b) (hb1 : b ≤ 1) (ha : |a' - a| ≤ ε * (1 + ε))
    (hb : |b' - b| ≤ ε * (1 + ε)) (hp : |p - a' * b'| ≤ ε * |a' * b'|) (hI : |I| ≤ M) (hq : |q - p * I| ≤ ε * |p * I|) :
    |q - a * b * I| ≤ (ε * (a + b) + 2 * ε * (a * b) + 16 * ε ^ 2) * M := by
  have hM : 0 ≤ M := (abs_nonneg _).trans hI
  have hab : 0 ≤ a * b := mul_nonneg ha0 hb0
  have hab1 : a * b ≤ 1 := mul_le_one₀ ha1 hb0 hb1
  have h1 := prod_err ha hb (abs_of_nonneg ha0).le (abs_of_nonneg hb0).le hp
  rw [abs_of_nonneg hab] at h1
  have h1' : |p - a * b| ≤ ε * (a + b) + ε * (a * b) + 8 * ε ^ 2 := by
    refine h1.trans ?_
    norm_num
    nlinarith
  have h2 := prod_err h1' (show |I - I| ≤ 0 by simp) (le_refl _) hI hq
  refine h2.trans ?_
  rw [abs_mul (a * b), abs_of_nonneg hab]
  have h3 : a * b * |I| ≤ a * b * M := mul_le_mul_of_nonneg_left hI hab
  have h4 : 0 ≤ a * M := mul_nonneg ha0 hM
  have h5 : 0 ≤ b * M := mul_nonneg hb0 hM
  have h6 : a * M ≤ M := by nlinarith
  have h7 : b * M ≤ M := by nlinarith
  have h8 : a * b * M ≤ M := by nlinarith
  norm_num
  nlinarith

/-- Rounding a sum. -/
theorem sum_err {s t s' t' q e f B : ℚ} (hs : |s' - s| ≤ e) (ht : |t' - t| ≤ f) (hB : |s + t| ≤ B) (hq : |q - (s' + t')| ≤ ε * |s' + t'|) :
    |q - (s + t)| ≤ e + f + ε * (B + (e + f)) := by
  have h1 : |s' + t' - (s + t)| ≤ e + f := by
    have : s' + t' - (s + t) = (s' - s) + (t' - t) := by ring
    rw [this]
    exact (abs_add_le _ _).trans (add_le_add hs ht)
  have h2 := abs_of_err h1
  have hε : (0 : ℚ) < ε := by norm_num
  have h3 := hq.trans (mul_le_mul_of_nonneg_left (h2.trans (add_le_add_left hB _)) hε.le)
  have h4 := abs_add_le (q - (s' + t')) (s' + t' - (s + t))
  rw [sub_add_sub_cancel] at h4
  linarith

theorem rounds_eps {r : Nat → ℚ → ℚ} (hr : Rounds r) (i : Nat) (x : ℚ) : |r i x - x| ≤ ε * |x| := by
  have := hr i x
  rwa [div_eq_inv_mul, ← one_div] at this

/-- The sum of the four terms. -/
theorem sum4 {r : Nat → ℚ → ℚ} (hr : Rounds r) {a b I00 I10 I01 I11 M t00 t10 t01 t11 : ℚ} (ha0 : 0 ≤ a) (ha1 : a ≤ 1) (hb0 : 0 ≤ b) (hb1 : b ≤ 1)
    (h00 : |I00| ≤ M) (h10 : |I10| ≤ M) (h01 : |I01| ≤ M) (h11 : |I11| ≤ M)
    (e00 : |t00 - (1 - a) * (1 - b) * I00| ≤ (ε * ((1 - a) + (1 - b)) + 2 * ε * ((1 - a) * (1 - b)) + 16 * ε ^ 2) * M)
    (e10 : |t10 - a * (1 - b) * I10| ≤ (ε * (a + (1 - b)) + 2 * ε * (a * (1 - b)) + 16 * ε ^ 2) * M)
    (e01 : |t01 - (1 - a) * b * I01| ≤ (ε * ((1 - a) + b) + 2 * ε * ((1 - a) * b) + 16 * ε ^ 2) * M)
    (e11 : |t11 - a * b * I11| ≤ (ε * (a + b) + 2 * ε * (a * b) + 16 * ε ^ 2) * M) :
    |r 14 (r 13 (r 12 (t00 + t10) + t01) + t11) -
      ((1 - a) * (1 - b) * I00 + a * (1 - b) * I10 + (1 - a) * b * I01 + a * b * I11)| ≤ 10 * M / 2 ^ 24 := by
  have hM : 0 ≤ M := (abs_nonneg _).trans h00
  have hca : 0 ≤ 1 - a := by linarith
  have hcb : 0 ≤ 1 - b := by linarith
  have w (c I : ℚ) (hc : 0 ≤ c) (hI : |I| ≤ M) : |c * I| ≤ c * M := by
    rw [abs_mul, abs_of_nonneg hc]; exact mul_le_mul_of_nonneg_left hI hc
  have w00 := w _ _ (mul_nonneg hca hcb) h00
  have w10 := w _ _ (mul_nonneg ha0 hcb) h10
  have w01 := w _ _ (mul_nonneg hca hb0) h01
  have w11 := w _ _ (mul_nonneg ha0 hb0) h11
  have aM : 0 ≤ a * M := mul_nonneg ha0 hM
  have bM : 0 ≤ b * M := mul_nonneg hb0 hM
  have aM' : 0 ≤ (1 - a) * M := mul_nonneg hca hM
  have bM' : 0 ≤ (1 - b) * M := mul_nonneg hcb hM
  have p00 : 0 ≤ (1 - a) * (1 - b) * M := mul_nonneg (mul_nonneg hca hcb) hM
  have p10 : 0 ≤ a * (1 - b) * M := mul_nonneg (mul_nonneg ha0 hcb) hM
  have p01 : 0 ≤ (1 - a) * b * M := mul_nonneg (mul_nonneg hca hb0) hM
  have p11 : 0 ≤ a * b * M := mul_nonneg (mul_nonneg ha0 hb0) hM
  have b1 : |(1 - a) * (1 - b) * I00 + a * (1 - b) * I10| ≤ M :=
    (abs_add_le _ _).trans (by linarith)
  have b2 : |(1 - a) * (1 - b) * I00 + a * (1 - b) * I10 + (1 - a) * b * I01| ≤ M :=
    (abs_add_le _ _).trans (by linarith [abs_add_le ((1 - a) * (1 - b) * I00) (a * (1 - b) * I10)])
  have b3 : |(1 - a) * (1 - b) * I00 + a * (1 - b) * I10 + (1 - a) * b * I01 + a * b * I11| ≤ M := by
    refine (abs_add_le _ _).trans ?_
    have := abs_add_le ((1 - a) * (1 - b) * I00 + a * (1 - b) * I10) ((1 - a) * b * I01)
    have := abs_add_le ((1 - a) * (1 - b) * I00) (a * (1 - b) * I10)
    linarith
  have s1 := sum_err e00 e10 b1 (rounds_eps hr 12 _)
  have s2 := sum_err s1 e01 b2 (rounds_eps hr 13 _)
  have s3 := sum_err s2 e11 b3 (rounds_eps hr 14 _)
  refine s3.trans ?_
  norm_num
  nlinarith

theorem bilinear_error {r : Nat → ℚ → ℚ} (hr : Rounds r) (image : Nat → Nat → ℚ) {H W : Nat} (hH : 0 < H) (hW : 0 < W) {M : ℚ}
    (hM : ∀ j i, j < H → i < W → |image j i| ≤ M) (x y : ℚ) :
    |bilinear r image H W x y - Interp.bilinear image H W x y| ≤ 10 * M / 2 ^ 24 := by
  unfold bilinear Interp.bilinear
  dsimp only
  obtain ⟨ax0, ax1⟩ := weight_mem hW x
  replace ax1 := ax1.le
  obtain ⟨ay0, ay1⟩ := weight_mem hH y
  replace ay1 := ay1.le
  obtain ⟨hx1, hx2⟩ := weights ax0 ax1 (rounds_eps hr 0 _) (rounds_eps hr 2 _)
  obtain ⟨hy1, hy2⟩ := weights ay0 ay1 (rounds_eps hr 1 _) (rounds_eps hr 3 _)
  have g : ∀ a b : Int, |image (clipIx H a).toNat (clipIx W b).toNat| ≤ M := fun a b => hM _ _ (clipIx_lt hH a) (clipIx_lt hW b)
  refine sum4 hr ax0 ax1 ay0 ay1 (g _ _) (g _ _) (g _ _) (g _ _) ?_ ?_ ?_ ?_
  · exact term2 (by linarith) (by linarith) (by linarith) (by linarith) hx2 hy2 (rounds_eps hr 4 _) (g _ _) (rounds_eps hr 5 _)
  · exact term2 (by linarith) (by linarith) (by linarith) (by linarith) hx1 hy2 (rounds_eps hr 6 _) (g _ _) (rounds_eps hr 7 _)
  · exact term2 (by linarith) (by linarith) (by linarith) (by linarith) hx2 hy1 (rounds_eps hr 8 _) (g _ _) (rounds_eps hr 9 _)
  · exact term2 (by linarith) (by linarith) (by linarith) (by linarith) hx1 hy1 (rounds_eps hr 10 _) (g _ _) (rounds_eps hr 11 _)

/-- A product of two weights. -/
theorem weight2 {a a' b b' p : ℚ} (ha0 : 0 ≤ a) (ha1 : a ≤ 1) (hb0 : 0 ≤ b) (hb1 : b ≤ 1) (ha : |a' - a| ≤ ε * (1 + ε))
    (hb : |b' - b| ≤ ε * (1 + ε)) (hp : |p - a' * b'| ≤ ε * |a' * b'|) : |p - a * b| ≤ ε * (a + b) + ε * (a * b) + 8 * ε ^ 2 := by
  have hab : 0 ≤ a * b := mul_nonneg ha0 hb0
  have h1 := prod_err ha hb (abs_of_nonneg ha0).le (abs_of_nonneg hb0).le hp
  rw [abs_of_nonneg hab] at h1
  refine h1.trans ?_
  norm_num
  nlinarith

/-- A term of trilinear interpolation: weights `a`, `b` and `c`, entry `I`. -/
theorem term3 {a a' b b' c c' p p2 q I M : ℚ} (ha0 : 0 ≤ a) (ha1 : a ≤ 1) (hb0 : 0 ≤ b) (hb1 : b ≤ 1) (hc0 : 0 ≤ c) (hc1 : c ≤ 1)
    (ha : |a' - a| ≤ ε * (1 + ε)) (hb : |b' - b| ≤ ε * (1 + ε)) (hc : |c' - c| ≤ ε * (1 + ε)) (hp : |p - a' * b'| ≤ ε * |a' * b'|)
    (hp2 : |p2 - p * c'| ≤ ε * |p * c'|) (hI : |I| ≤ M) (hq : |q - I * p2| ≤ ε * |I * p2|) :
    |q - I * (a * b * c)| ≤ (ε * (a * b + b * c + a * c) + 3 * ε * (a * b * c) + 64 * ε ^ 2) * M := by
  have hM : 0 ≤ M := (abs_nonneg _).trans hI
  have hab : 0 ≤ a * b := mul_nonneg ha0 hb0
  have hab1 : a * b ≤ 1 := mul_le_one₀ ha1 hb0 hb1
  have hac1 : a * c ≤ 1 := mul_le_one₀ ha1 hc0 hc1
  have hbc1 : b * c ≤ 1 := mul_le_one₀ hb1 hc0 hc1
  have habc : 0 ≤ a * b * c := mul_nonneg hab hc0
  have habc1 : a * b * c ≤ 1 := mul_le_one₀ hab1 hc0 hc1
  have h1 := weight2 ha0 ha1 hb0 hb1 ha hb hp
  have h2 := prod_err h1 hc (abs_of_nonneg hab).le (abs_of_nonneg hc0).le hp2
  rw [abs_of_nonneg habc] at h2
  have h3 : |p2 - a * b * c| ≤ ε * (a * b + b * c + a * c) + 2 * ε * (a * b * c) + 32 * ε ^ 2 := by
    refine h2.trans ?_
    norm_num
    linarith
  have h4 := prod_err (show |I - I| ≤ 0 by simp) h3 hI (abs_of_nonneg habc).le hq
  refine h4.trans ?_
  rw [abs_mul I, abs_of_nonneg habc]
  have k1 : |I| * (a * b * c) ≤ M * (a * b * c) := mul_le_mul_of_nonneg_right hI habc
  have k2 : a * b * M ≤ M := by nlinarith
  have k3 : a * c * M ≤ M := by nlinarith
  have k4 : b * c * M ≤ M := by nlinarith
  have k5 : a * b * c * M ≤ M := by nlinarith
  norm_num
  linarith

/-- Adding a term with weight `w` to a sum of terms whose weights are `v` together. -/
theorem sum_step {s t s' t' q v w e f M : ℚ} (hs : |s' - s| ≤ e) (hsv : |s| ≤ v * M) (ht : |t' - t| ≤ f) (htw : |t| ≤ w * M)
    (hv : v + w ≤ 1) (hM : 0 ≤ M) (hq : |q - (s' + t')| ≤ ε * |s' + t'|) :
    |q - (s + t)| ≤ e + f + ε * (M + (e + f)) ∧ |s + t| ≤ (v + w) * M := by
  have h : |s + t| ≤ (v + w) * M := (abs_add_le _ _).trans (by linarith)
  exact ⟨sum_err hs ht (h.trans (by nlinarith)) hq, h⟩

theorem trilinear_error {r : Nat → ℚ → ℚ} (hr : Rounds r) (volume : Nat → Nat → Nat → ℚ) {D H W : Nat} (hD : 0 < D) (hH : 0 < H) (hW : 0 < W)
    {M : ℚ} (hM : ∀ k j i, k < D → j < H → i < W → |volume k j i| ≤ M) (x y z : ℚ) :
    |trilinear r volume D H W x y z - Interp.trilinear volume D H W x y z| ≤ 17 * M / 2 ^ 24 := by
  unfold trilinear Interp.trilinear
  dsimp only
  have hM0 : 0 ≤ M := (abs_nonneg _).trans (hM 0 0 0 hD hH hW)
  have fr (t : ℚ) : 0 ≤ t - (⌊t⌋ : ℚ) ∧ t - (⌊t⌋ : ℚ) ≤ 1 := by
    have := Int.floor_le t; have := Int.lt_floor_add_one t
    constructor <;> linarith
  have g : ∀ a b c : Int, |volume (clipIx D a).toNat (clipIx H b).toNat (clipIx W c).toNat| ≤ M :=
    fun a b c => hM _ _ _ (clipIx_lt hD a) (clipIx_lt hH b) (clipIx_lt hW c)
  obtain ⟨x0, x1⟩ := fr x
  obtain ⟨y0, y1⟩ := fr y
  obtain ⟨z0, z1⟩ := fr z
  obtain ⟨hx1, hx2⟩ := weights x0 x1 (rounds_eps hr 0 _) (rounds_eps hr 3 _)
  obtain ⟨hy1, hy2⟩ := weights y0 y1 (rounds_eps hr 1 _) (rounds_eps hr 4 _)
  obtain ⟨hz1, hz2⟩ := weights z0 z1 (rounds_eps hr 2 _) (rounds_eps hr 5 _)
  generalize r 0 (x - (⌊x⌋ : ℚ)) = wx at *
  generalize r 1 (y - (⌊y⌋ : ℚ)) = wy at *
  generalize r 2 (z - (⌊z⌋ : ℚ)) = wz at *
  generalize x - (⌊x⌋ : ℚ) = a at *
  generalize y - (⌊y⌋ : ℚ) = b at *
  generalize z - (⌊z⌋ : ℚ) = c at *
  have a0 : 0 ≤ 1 - a := by linarith
  have b0 : 0 ≤ 1 - b := by linarith
  have c0 : 0 ≤ 1 - c := by linarith
  have a1 : 1 - a ≤ 1 := by linarith
  have b1 : 1 - b ≤ 1 := by linarith
  have c1 : 1 - c ≤ 1 := by linarith
  have ta := term3 a0 a1 b0 b1 c0 c1 hx2 hy2 hz2 (rounds_eps hr 6 _) (rounds_eps hr 7 _) (g ⌊z⌋ ⌊y⌋ ⌊x⌋) (rounds_eps hr 8 _)
  have tb := term3 x0 x1 b0 b1 c0 c1 hx1 hy2 hz2 (rounds_eps hr 9 _) (rounds_eps hr 10 _) (g ⌊z⌋ ⌊y⌋ ⌈x⌉) (rounds_eps hr 11 _)
  have tc := term3 a0 a1 y0 y1 c0 c1 hx2 hy1 hz2 (rounds_eps hr 12 _) (rounds_eps hr 13 _) (g ⌊z⌋ ⌈y⌉ ⌊x⌋) (rounds_eps hr 14 _)
  have td := term3 x0 x1 y0 y1 c0 c1 hx1 hy1 hz2 (rounds_eps hr 15 _) (rounds_eps hr 16 _) (g ⌊z⌋ ⌈y⌉ ⌈x⌉) (rounds_eps hr 17 _)
  have te := term3 a0 a1 b0 b1 z0 z1 hx2 hy2 hz1 (rounds_eps hr 18 _) (rounds_eps hr 19 _) (g ⌈z⌉ ⌊y⌋ ⌊x⌋) (rounds_eps hr 20 _)
  have tf := term3 x0 x1 b0 b1 z0 z1 hx1 hy2 hz1 (rounds_eps hr 21 _) (rounds_eps hr 22 _) (g ⌈z⌉ ⌊y⌋ ⌈x⌉) (rounds_eps hr 23 _)
  have tg := term3 a0 a1 y0 y1 z0 z1 hx2 hy1 hz1 (rounds_eps hr 24 _) (rounds_eps hr 25 _) (g ⌈z⌉ ⌈y⌉ ⌊x⌋) (rounds_eps hr 26 _)
  have th := term3 x0 x1 y0 y1 z0 z1 hx1 hy1 hz1 (rounds_eps hr 27 _) (rounds_eps hr 28 _) (g ⌈z⌉ ⌈y⌉ ⌈x⌉) (rounds_eps hr 29 _)
  have w (v I : ℚ) (hc : 0 ≤ v) (hI : |I| ≤ M) : |I * v| ≤ v * M := by
    rw [mul_comm, abs_mul, abs_of_nonneg hc]; exact mul_le_mul_of_nonneg_left hI hc
  have pa := mul_nonneg (mul_nonneg a0 b0) c0
  have pb := mul_nonneg (mul_nonneg x0 b0) c0
  have pc := mul_nonneg (mul_nonneg a0 y0) c0
  have pd := mul_nonneg (mul_nonneg x0 y0) c0
  have pe := mul_nonneg (mul_nonneg a0 b0) z0
  have pf := mul_nonneg (mul_nonneg x0 b0) z0
  have pg := mul_nonneg (mul_nonneg a0 y0) z0
  have ph := mul_nonneg (mul_nonneg x0 y0) z0
  obtain ⟨s1, v1⟩ := sum_step ta (w _ _ pa (g _ _ _)) tb (w _ _ pb (g _ _ _)) (by linarith) hM0 (rounds_eps hr 30 _)
  obtain ⟨s2, v2⟩ := sum_step s1 v1 tc (w _ _ pc (g _ _ _)) (by linarith) hM0 (rounds_eps hr 31 _)
  obtain ⟨s3, v3⟩ := sum_step s2 v2 td (w _ _ pd (g _ _ _)) (by linarith) hM0 (rounds_eps hr 32 _)
  obtain ⟨s4, v4⟩ := sum_step s3 v3 te (w _ _ pe (g _ _ _)) (by linarith) hM0 (rounds_eps hr 33 _)
  obtain ⟨s5, v5⟩ := sum_step s4 v4 tf (w _ _ pf (g _ _ _)) (by linarith) hM0 (rounds_eps hr 34 _)
  obtain ⟨s6, v6⟩ := sum_step s5 v5 tg (w _ _ pg (g _ _ _)) (by linarith) hM0 (rounds_eps hr 35 _)
  obtain ⟨s7, v7⟩ := sum_step s6 v6 th (w _ _ ph (g _ _ _)) (by linarith) hM0 (rounds_eps hr 36 _)
  refine s7.trans ?_
  clear s1 s2 s3 s4 s5 s6 s7 v1 v2 v3 v4 v5 v6 v7 ta tb tc td te tf tg th hx1 hx2 hy1 hy2 hz1 hz2 g w
  have qa := mul_nonneg pa hM0
  have qb := mul_nonneg pb hM0
  have qc := mul_nonneg pc hM0
  have qd := mul_nonneg pd hM0
  have qe := mul_nonneg pe hM0
  have qf := mul_nonneg pf hM0
  have qg := mul_nonneg pg hM0
  have qh := mul_nonneg ph hM0
  norm_num
  linarith

end Verif.Single

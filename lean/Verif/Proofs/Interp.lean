import Verif.Model.Interp
import Mathlib.Tactic.Linarith
import Mathlib.Tactic.Ring
import Mathlib.Tactic.Positivity
import Mathlib.Algebra.Order.Group.MinMax
/-!
# Auxiliary facts about interpolation: the one-dimensional case
-/

namespace Verif.Interp

variable {K : Type*} [Field K] [LinearOrder K] [FloorRing K]

/-- Interpolation along one axis, in the form used by `bilinear`. -/
def lin (f : Nat → K) (n : Nat) (x : K) : K :=
  (1 - (clipCo n x - (clipIx n ⌊x⌋ : K))) * f (clipIx n ⌊x⌋).toNat +
    (clipCo n x - (clipIx n ⌊x⌋ : K)) * f (clipIx n (clipIx n ⌊x⌋ + 1)).toNat

/-- Interpolation along one axis, in the form used by `trilinear`. -/
def lin3 (f : Nat → K) (n : Nat) (x : K) : K :=
  (1 - (x - (⌊x⌋ : K))) * f (clipIx n ⌊x⌋).toNat + (x - (⌊x⌋ : K)) * f (clipIx n ⌈x⌉).toNat

theorem bilinear_eq (image : Nat → Nat → K) (H W : Nat) (x y : K) :
    bilinear image H W x y = lin (fun j => lin (image j) W x) H y := by
  unfold bilinear lin
  ring

theorem trilinear_eq (volume : Nat → Nat → Nat → K) (D H W : Nat) (x y z : K) :
    trilinear volume D H W x y z = lin3 (fun k => lin3 (fun j => lin3 (volume k j) W x) H y) D z := by
  unfold trilinear lin3
  ring

variable [IsStrictOrderedRing K]

theorem clipIx_mem {n : Nat} (hn : 0 < n) (i : Int) : 0 ≤ clipIx n i ∧ clipIx n i ≤ n - 1 := by
  unfold clipIx; omega

theorem clipIx_lt {n : Nat} (hn : 0 < n) (i : Int) : (clipIx n i).toNat < n := by
  have := clipIx_mem hn i; omega

theorem clipIx_of_mem {n : Nat} {i : Int} (h0 : 0 ≤ i) (h1 : i ≤ n - 1) : clipIx n i = i := by
  unfold clipIx; omega

theorem clipCo_mem {n : Nat} (hn : 0 < n) (x : K) : 0 ≤ clipCo n x ∧ clipCo n x ≤ (n : K) - 1 := by
  have : (1 : K) ≤ n := by exact_mod_cast hn
  unfold clipCo
  exact ⟨le_min (le_max_right _ _) (by linarith), min_le_right _ _⟩

omit [FloorRing K] [IsStrictOrderedRing K] in
theorem clipCo_of_mem {n : Nat} {x : K} (h0 : 0 ≤ x) (h1 : x ≤ (n : K) - 1) : clipCo n x = x := by
  unfold clipCo; rw [max_eq_left h0, min_eq_left h1]

theorem clipCo_idem {n : Nat} (hn : 0 < n) (x : K) : clipCo n (clipCo n x) = clipCo n x :=
  clipCo_of_mem (clipCo_mem hn x).1 (clipCo_mem hn x).2

/-- The clamped floor is the floor of the clamped coordinate. -/
theorem floor_clip {n : Nat} (hn : 0 < n) (x : K) : clipIx n ⌊x⌋ = ⌊clipCo n x⌋ := by
  have h1 : (1 : K) ≤ n := by exact_mod_cast hn
  rcases lt_or_ge x 0 with h | h
  · have hf : ⌊x⌋ < 0 := by rw [Int.floor_lt]; simpa using h
    have : clipCo n x = 0 := by
      unfold clipCo; rw [max_eq_right h.le, min_eq_left (by linarith)]
    rw [this, Int.floor_zero]; unfold clipIx; omega
  · rcases lt_or_ge ((n : K) - 1) x with h' | h'
    · have hf : (n : Int) - 1 ≤ ⌊x⌋ := by rw [Int.le_floor]; push_cast; exact h'.le
      have : clipCo n x = ((n - 1 : Int) : K) := by
        unfold clipCo; rw [max_eq_left h, min_eq_right h'.le]; push_cast; rfl
      rw [this, Int.floor_intCast]; unfold clipIx; omega
    · have hf0 : 0 ≤ ⌊x⌋ := Int.floor_nonneg.2 h
      have hf1 : ⌊x⌋ ≤ n - 1 := by
        have : (⌊x⌋ : K) ≤ ((n - 1 : Int) : K) := by push_cast; exact (Int.floor_le x).trans h'
        exact_mod_cast this
      rw [clipCo_of_mem h h', clipIx_of_mem hf0 hf1]

theorem lin_clip {n : Nat} (hn : 0 < n) (f : Nat → K) (x : K) : lin f n x = lin f n (clipCo n x) := by
  unfold lin
  rw [clipCo_idem hn, floor_clip hn x, floor_clip hn (clipCo n x), clipCo_idem hn]

/-- The weight is between 0 and 1. -/
theorem weight_mem {n : Nat} (hn : 0 < n) (x : K) :
    0 ≤ clipCo n x - (clipIx n ⌊x⌋ : K) ∧ clipCo n x - (clipIx n ⌊x⌋ : K) < 1 := by
  rw [floor_clip hn x]
  have h1 := Int.floor_le (clipCo n x)
  have h2 := Int.lt_floor_add_one (clipCo n x)
  constructor <;> linarith

/-- Inside a cell. -/
theorem lin_cell {n i : Nat} (hi : i + 1 < n) (f : Nat → K) {s : K} (h0 : 0 ≤ s) (h1 : s ≤ 1) :
    lin f n (i + s) = (1 - s) * f i + s * f (i + 1) := by
  have hn : (i : K) + 1 ≤ (n : K) - 1 := by
    have : ((i + 1 : Nat) : K) ≤ ((n - 1 : Nat) : K) := by exact_mod_cast (by omega : i + 1 ≤ n - 1)
    rw [Nat.cast_sub (by omega)] at this
    push_cast at this; exact this
  have hi0 : (0 : K) ≤ i := Nat.cast_nonneg i
  have hc : clipCo n ((i : K) + s) = i + s := clipCo_of_mem (by linarith) (by linarith)
  rcases lt_or_eq_of_le h1 with h | rfl
  · have hf : ⌊(i : K) + s⌋ = i := by
      rw [Int.floor_eq_iff]; push_cast; constructor <;> linarith
    have e0 : clipIx n ⌊(i : K) + s⌋ = i := by rw [hf]; exact clipIx_of_mem (by omega) (by omega)
    have e1 : clipIx n ((i : Int) + 1) = i + 1 := clipIx_of_mem (by omega) (by omega)
    unfold lin
    rw [hc, e0, e1]
    have t1 : ((i : Int) + 1).toNat = i + 1 := by omega
    rw [t1, Int.toNat_natCast]
    push_cast; ring
  · have hf : ⌊(i : K) + 1⌋ = i + 1 := by
      rw [Int.floor_eq_iff]; push_cast; constructor <;> linarith
    have e0 : clipIx n ⌊(i : K) + 1⌋ = i + 1 := by rw [hf]; exact clipIx_of_mem (by omega) (by omega)
    unfold lin
    rw [hc, e0]
    have t1 : ((i : Int) + 1).toNat = i + 1 := by omega
    rw [t1]
    push_cast; ring

/-- At a grid point. -/
theorem lin_grid {n i : Nat} (hi : i < n) (f : Nat → K) : lin f n (i : K) = f i := by
  have hc : clipCo n (i : K) = i := by
    refine clipCo_of_mem (Nat.cast_nonneg i) ?_
    have : ((i + 1 : Nat) : K) ≤ n := by exact_mod_cast hi
    push_cast at this; linarith
  have e0 : clipIx n ⌊(i : K)⌋ = i := by rw [Int.floor_natCast]; exact clipIx_of_mem (by omega) (by omega)
  unfold lin
  rw [hc, e0, Int.toNat_natCast]
  push_cast; ring

/-- Monotone in the values. -/
theorem lin_mono {n : Nat} (hn : 0 < n) {f g : Nat → K} (h : ∀ i, i < n → f i ≤ g i) (x : K) : lin f n x ≤ lin g n x := by
  obtain ⟨h0, h1⟩ := weight_mem hn x
  unfold lin
  have ha := h _ (clipIx_lt hn ⌊x⌋)
  have hb := h _ (clipIx_lt hn (clipIx n ⌊x⌋ + 1))
  exact add_le_add (mul_le_mul_of_nonneg_left ha (by linarith)) (mul_le_mul_of_nonneg_left hb h0)

theorem lin_congr {n : Nat} (hn : 0 < n) {f g : Nat → K} (h : ∀ i, i < n → f i = g i) (x : K) : lin f n x = lin g n x :=
  le_antisymm (lin_mono hn (fun i hi => (h i hi).le) x) (lin_mono hn (fun i hi => (h i hi).ge) x)

omit [IsStrictOrderedRing K] in
theorem lin_const (c : K) (n : Nat) (x : K) : lin (fun _ => c) n x = c := by
  unfold lin; ring

omit [IsStrictOrderedRing K] in
theorem lin_comb (f g : Nat → K) (a b : K) (n : Nat) (x : K) :
    lin (fun i => a * f i + b * g i) n x = a * lin f n x + b * lin g n x := by
  unfold lin; ring

/-- An affine function is reproduced inside the grid. -/
theorem lin_affine {n : Nat} (hn : 0 < n) (a b : K) {x : K} (h0 : 0 ≤ x) (h1 : x ≤ (n : K) - 1) :
    lin (fun i => a * i + b) n x = a * x + b := by
  have hf0 : 0 ≤ ⌊x⌋ := Int.floor_nonneg.2 h0
  have hc : clipCo n x = x := clipCo_of_mem h0 h1
  have e0 : clipIx n ⌊x⌋ = ⌊x⌋ := by rw [floor_clip hn, hc]
  have hb : ⌊x⌋ ≤ n - 1 := by rw [← e0]; exact (clipIx_mem hn _).2
  have t0 : ((⌊x⌋.toNat : Nat) : K) = (⌊x⌋ : K) := by
    rw [← Int.cast_natCast, Int.toNat_of_nonneg hf0]
  unfold lin
  dsimp only
  rw [hc, e0, t0]
  rcases eq_or_lt_of_le hb with h | h
  · have : x = (⌊x⌋ : K) := by
      refine le_antisymm ?_ (Int.floor_le x)
      rw [h]; push_cast; exact h1
    have hw : x - (⌊x⌋ : K) = 0 := by linarith
    rw [hw]
    rw [← this]; ring
  · have e1 : clipIx n (⌊x⌋ + 1) = ⌊x⌋ + 1 := clipIx_of_mem (by omega) (by omega)
    have t1 : (((⌊x⌋ + 1).toNat : Nat) : K) = (⌊x⌋ : K) + 1 := by
      rw [← Int.cast_natCast, Int.toNat_of_nonneg (by omega)]; push_cast; rfl
    rw [e1, t1]; ring

omit [FloorRing K] in
/-- Values along the axis change by at most `L` per step. -/
theorem steps_bound {n : Nat} {f : Nat → K} {L : K} (h : ∀ i, i + 1 < n → |f (i + 1) - f i| ≤ L) (i k : Nat)
    (hk : i + k < n) : |f (i + k) - f i| ≤ L * k := by
  induction k with
  | zero => simp
  | succ k ih =>
    have h1 := ih (by omega)
    have h2 := h (i + k) (by omega)
    have h3 : |f (i + (k + 1)) - f i| ≤ |f (i + k + 1) - f (i + k)| + |f (i + k) - f i| := by
      have : f (i + (k + 1)) - f i = (f (i + k + 1) - f (i + k)) + (f (i + k) - f i) := by
        rw [show i + (k + 1) = i + k + 1 by omega]; ring
      rw [this]; exact abs_add_le _ _
    push_cast
    linarith

/-- Between two values `a`, `b` that differ by at most `L`. -/
theorem lin_diff {n : Nat} (hn : 0 < n) {f g : Nat → K} {e : K} (h : ∀ i, i < n → |f i - g i| ≤ e) (x : K) :
    |lin f n x - lin g n x| ≤ e := by
  have hd : lin f n x - lin g n x = lin (fun i => f i - g i) n x := by
    have := lin_comb f g 1 (-1) n x
    have h2 : (fun i => f i - g i) = fun i => 1 * f i + -1 * g i := by funext i; ring
    rw [h2, this]; ring
  rw [hd, abs_le]
  constructor
  · rw [← lin_const (-e) n x]
    exact lin_mono hn (fun i hi => (abs_le.1 (h i hi)).1) x
  · rw [← lin_const e n x]
    exact lin_mono hn (fun i hi => (abs_le.1 (h i hi)).2) x

/-- The representation of a clamped coordinate by cell and weight, the last grid point belonging to the last cell. -/
theorem cell_of {n : Nat} (hn : 1 < n) {c : K} (h0 : 0 ≤ c) (h1 : c ≤ (n : K) - 1) :
    ∃ (i : Nat) (s : K), i + 1 < n ∧ 0 ≤ s ∧ s ≤ 1 ∧ c = i + s := by
  have hf0 : 0 ≤ ⌊c⌋ := Int.floor_nonneg.2 h0
  have h2 := Int.floor_le c
  have h3 := Int.lt_floor_add_one c
  have t0 : ((⌊c⌋.toNat : Nat) : K) = (⌊c⌋ : K) := by
    rw [← Int.cast_natCast, Int.toNat_of_nonneg hf0]
  rcases lt_or_ge (⌊c⌋.toNat + 1) n with h | h
  · exact ⟨⌊c⌋.toNat, c - ⌊c⌋, h, by linarith, by linarith, by rw [t0]; ring⟩
  · refine ⟨n - 2, 1, by omega, zero_le_one, le_refl _, ?_⟩
    have h4 : (n : K) ≤ ⌊c⌋ + 1 := by
      rw [← t0]; exact_mod_cast h
    have h5 : ((n - 2 : Nat) : K) = n - 2 := by rw [Nat.cast_sub (by omega)]; norm_num
    rw [h5]; linarith

theorem lin_lipschitz_in {n : Nat} {f : Nat → K} {L : K} (hn : 1 < n) (h : ∀ i, i + 1 < n → |f (i + 1) - f i| ≤ L)
    {c d : K} (h0 : 0 ≤ c) (hcd : c ≤ d) (h1 : d ≤ (n : K) - 1) : |lin f n d - lin f n c| ≤ L * (d - c) := by
  have hL : 0 ≤ L := (abs_nonneg _).trans (h 0 (by omega))
  obtain ⟨i, s, hi, hs0, hs1, rfl⟩ := cell_of hn h0 (hcd.trans h1)
  obtain ⟨j, t, hj, ht0, ht1, rfl⟩ := cell_of hn (h0.trans hcd) h1
  rw [lin_cell hi f hs0 hs1, lin_cell hj f ht0 ht1]
  have hdi := abs_le.1 (h i hi)
  have hdj := abs_le.1 (h j hj)
  rcases lt_trichotomy i j with hij | rfl | hij
  · obtain ⟨k, rfl⟩ : ∃ k, j = i + 1 + k := ⟨j - (i + 1), by omega⟩
    have hst := abs_le.1 (steps_bound h (i + 1) k (by omega))
    push_cast
    rw [abs_le]
    have p1 : (1 - s) * (f (i + 1) - f i) ≤ (1 - s) * L := mul_le_mul_of_nonneg_left hdi.2 (by linarith)
    have p2 : (1 - s) * (-L) ≤ (1 - s) * (f (i + 1) - f i) := mul_le_mul_of_nonneg_left hdi.1 (by linarith)
    have p3 : t * (f (i + 1 + k + 1) - f (i + 1 + k)) ≤ t * L := mul_le_mul_of_nonneg_left hdj.2 ht0
    have p4 : t * (-L) ≤ t * (f (i + 1 + k + 1) - f (i + 1 + k)) := mul_le_mul_of_nonneg_left hdj.1 ht0
    constructor <;> nlinarith
  · have : (1 - t) * f i + t * f (i + 1) - ((1 - s) * f i + s * f (i + 1)) = (t - s) * (f (i + 1) - f i) := by ring
    have hts : 0 ≤ t - s := by linarith
    rw [this, abs_mul, abs_of_nonneg hts]
    have := mul_le_mul_of_nonneg_left (h i hi) hts
    calc (t - s) * |f (i + 1) - f i| ≤ (t - s) * L := this
      _ = L * (↑i + t - (↑i + s)) := by ring
  · -- the cells can only meet in a common border
    have h2 : ((j + 1 : Nat) : K) ≤ i := by exact_mod_cast hij
    push_cast at h2
    have hs : s = 0 := by linarith
    have ht : t = 1 := by linarith
    have hji : i = j + 1 := by
      have : (i : K) = ((j + 1 : Nat) : K) := by push_cast; linarith
      exact_mod_cast this
    subst hs ht hji
    push_cast
    have : (1 - 1) * f j + 1 * f (j + 1) - ((1 - 0) * f (j + 1) + 0 * f (j + 1 + 1)) = 0 := by ring
    rw [this, abs_zero]
    nlinarith

/-- Continuity, quantitatively. -/
theorem lin_lipschitz {n : Nat} {f : Nat → K} {L : K} (hn : 0 < n) (hL : 0 ≤ L)
    (h : ∀ i, i + 1 < n → |f (i + 1) - f i| ≤ L) (x x' : K) : |lin f n x - lin f n x'| ≤ L * |x - x'| := by
  have hcl : |clipCo n x - clipCo n x'| ≤ |x - x'| := by
    unfold clipCo
    exact (abs_min_sub_min_le_max _ _ _ _).trans (max_le ((abs_max_sub_max_le_max _ _ _ _).trans (by simp)) (by simp))
  refine le_trans ?_ (mul_le_mul_of_nonneg_left hcl hL)
  rw [lin_clip hn f x, lin_clip hn f x']
  obtain ⟨a0, a1⟩ := clipCo_mem hn x
  obtain ⟨b0, b1⟩ := clipCo_mem hn x'
  rcases Nat.lt_or_ge 1 n with h1 | h1
  · rcases le_total (clipCo n x) (clipCo n x') with hle | hle
    · rw [abs_sub_comm, abs_sub_comm (clipCo n x), abs_of_nonneg (sub_nonneg.2 hle)]
      exact lin_lipschitz_in h1 h a0 hle b1
    · rw [abs_of_nonneg (sub_nonneg.2 hle)]
      exact lin_lipschitz_in h1 h b0 hle a1
  · have hn1 : n = 1 := by omega
    subst hn1
    have e : ∀ c : K, 0 ≤ c → c ≤ ((1 : Nat) : K) - 1 → c = 0 := by
      intro c h0 h1; push_cast at h1; linarith
    rw [e _ a0 a1, e _ b0 b1]; simp

/-- Both forms of one-dimensional interpolation agree. -/
theorem lin3_eq {n : Nat} (hn : 0 < n) (f : Nat → K) (x : K) : lin3 f n x = lin f n x := by
  have h1 : (1 : K) ≤ n := by exact_mod_cast hn
  have hfl := Int.floor_le x
  have hlt := Int.lt_floor_add_one x
  by_cases hint : (⌊x⌋ : K) = x
  · -- an integer
    have hc : ⌈x⌉ = ⌊x⌋ := by
      conv_lhs => rw [← hint]
      exact Int.ceil_intCast _
    have hl : lin3 f n x = f (clipIx n ⌊x⌋).toNat := by
      unfold lin3; rw [hc, hint]; ring
    rw [hl, lin_clip hn, floor_clip hn x]
    have hcc : clipCo n x = ((⌊clipCo n x⌋.toNat : Nat) : K) := by
      have h0 : 0 ≤ ⌊clipCo n x⌋ := Int.floor_nonneg.2 (clipCo_mem hn x).1
      rw [← Int.cast_natCast, Int.toNat_of_nonneg h0, ← floor_clip hn x]
      unfold clipCo clipIx
      push_cast
      rw [hint]
    have hlt2 : ⌊clipCo n x⌋.toNat < n := by rw [← floor_clip hn x]; exact clipIx_lt hn _
    rw [hcc, lin_grid hlt2, Int.floor_natCast, Int.toNat_natCast]
  · have hlt' : (⌊x⌋ : K) < x := lt_of_le_of_ne hfl hint
    have hc : ⌈x⌉ = ⌊x⌋ + 1 := by
      rw [Int.ceil_eq_iff]; push_cast; constructor <;> linarith
    by_cases hlo : ⌊x⌋ < 0
    · -- below the grid
      have e0 : clipIx n ⌊x⌋ = 0 := by unfold clipIx; omega
      have e1 : clipIx n (⌊x⌋ + 1) = 0 := by unfold clipIx; omega
      have hx : x ≤ 0 := by
        have : (⌊x⌋ : K) + 1 ≤ 0 := by exact_mod_cast hlo
        linarith
      have hcc : clipCo n x = 0 := by unfold clipCo; rw [max_eq_right hx, min_eq_left (by linarith)]
      unfold lin3 lin
      rw [hc, e0, e1, hcc]
      push_cast; ring
    · by_cases hhi : (n : Int) - 1 ≤ ⌊x⌋
      · have e0 : clipIx n ⌊x⌋ = n - 1 := by unfold clipIx; omega
        have e1 : clipIx n (⌊x⌋ + 1) = n - 1 := by unfold clipIx; omega
        have hx : (n : K) - 1 ≤ x := by
          have : (((n : Int) - 1 : Int) : K) ≤ ⌊x⌋ := by exact_mod_cast hhi
          push_cast at this; linarith
        have hcc : clipCo n x = (n : K) - 1 := by
          unfold clipCo; rw [max_eq_left (by linarith), min_eq_right hx]
        unfold lin3 lin
        rw [hc, e0, e1, hcc]
        push_cast; ring
      · have e0 : clipIx n ⌊x⌋ = ⌊x⌋ := clipIx_of_mem (by omega) (by omega)
        have hx0 : 0 ≤ x := by
          have : (0 : K) ≤ ⌊x⌋ := by exact_mod_cast (not_lt.1 hlo)
          linarith
        have hx1 : x ≤ (n : K) - 1 := by
          have : ((⌊x⌋ + 1 : Int) : K) ≤ ((n - 1 : Int) : K) := by exact_mod_cast (by omega : ⌊x⌋ + 1 ≤ n - 1)
          push_cast at this; linarith
        unfold lin3 lin
        rw [hc, e0, clipCo_of_mem hx0 hx1]

end Verif.Interp

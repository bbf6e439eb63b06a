import Verif.Model.Render
import Verif.Spec.Render
import Mathlib.Algebra.BigOperators.Group.List.Basic
import Mathlib.Tactic.Linarith
import Mathlib.Tactic.Ring
import Mathlib.Tactic.Positivity
import Mathlib.Tactic.FieldSimp
/-!
# Auxiliary facts about rendering
-/

namespace Verif.Render
open RenderSpec

set_option linter.unusedSectionVars false

variable {K : Type*} [Field K] [LinearOrder K] [IsStrictOrderedRing K] [FloorRing K]

theorem gaussian_eq_light (exp : K → K) (y x cy cx dy dx rho amp : K) :
    gaussian exp x y cx cy (dx / 2) (dy / 2) rho amp = light exp cy cx dy dx rho amp y x := by
  unfold gaussian light
  dsimp only
  congr 3
  simp only [div_eq_mul_inv, mul_inv, inv_inv, mul_pow]
  ring

theorem gaussian_shift (exp : K → K) (x y x0 y0 sx sy rho amp : K) :
    gaussian exp (x - x0) (y - y0) 0 0 sx sy rho amp = gaussian exp x y x0 y0 sx sy rho amp := by
  unfold gaussian; simp only [sub_zero]

/-- What update `u` adds to pixel `(j, i)`. -/
def effect (H W : Nat) (j i : Nat) (u : Int × Int × K) : K :=
  if normIndex H u.1 = some j ∧ normIndex W u.2.1 = some i then u.2.2 else 0

theorem scatter_eq (H W : Nat) (img : Nat → Nat → K) (u : Int × Int × K) (j i : Nat) :
    scatter H W img u j i = img j i + effect H W j i u := by
  unfold scatter effect
  cases h1 : normIndex H u.1 with
  | none => simp
  | some j0 =>
    cases h2 : normIndex W u.2.1 with
    | none => simp
    | some i0 =>
      simp only [Option.some.injEq]
      by_cases h : j = j0 ∧ i = i0
      · rw [if_pos h, if_pos ⟨h.1.symm, h.2.symm⟩]
      · rw [if_neg h, if_neg (fun h' => h ⟨h'.1.symm, h'.2.symm⟩), add_zero]

theorem foldl_scatter (H W : Nat) (us : List (Int × Int × K)) (img : Nat → Nat → K) (j i : Nat) :
    us.foldl (scatter H W) img j i = img j i + (us.map (effect H W j i)).sum := by
  induction us generalizing img with
  | nil => simp
  | cons u us ih => rw [List.foldl_cons, ih, scatter_eq, List.map_cons, List.sum_cons, add_assoc]

/-- What particle `p` adds to pixel `(j, i)`. -/
def share (exp fl : K → K) (r H W : Nat) (j i : Nat) (p : Particle K) : K :=
  ((patch exp fl r H W p).map (effect H W j i)).sum

theorem render_eq (exp fl : K → K) (r H W : Nat) (ps : List (Particle K)) (j i : Nat) :
    render exp fl r H W ps j i = (ps.map (share exp fl r H W j i)).sum := by
  unfold render
  rw [foldl_scatter, zero_add]
  induction ps with
  | nil => rfl
  | cons p ps ih => rw [List.flatMap_cons, List.map_append, List.sum_append, ih, List.map_cons, List.sum_cons]; rfl

theorem sum_range_ite (n a0 : Nat) (g : Nat → K) :
    ((List.range n).map (fun a => if a = a0 then g a else 0)).sum = if a0 < n then g a0 else 0 := by
  induction n with
  | zero => simp
  | succ n ih =>
    rw [List.range_succ, List.map_append, List.sum_append, ih]
    simp only [List.map_cons, List.map_nil, List.sum_cons, List.sum_nil, add_zero]
    by_cases h : n = a0
    · subst h; simp
    · rw [if_neg h, add_zero]
      by_cases h' : a0 < n
      · rw [if_pos h', if_pos (by omega)]
      · rw [if_neg h', if_neg (by omega)]

theorem normIndex_inside {n : Nat} {i : Int} (h0 : 0 ≤ i) (h1 : i < n) : normIndex n i = some i.toNat := by
  unfold normIndex
  simp only [if_neg (show ¬ i < 0 by omega)]
  rw [if_pos ⟨h0, h1⟩]

/-- In exact arithmetic and for an image that can hold a patch the clipped position is in the zone where the patch fits. -/
theorem clipPos_bounds {r H : Nat} (h : 2 * r + 1 ≤ H) (y : K) :
    (r : K) ≤ clipPos id r H y ∧ clipPos id r H y < (H : K) - r := by
  have hH : (2 * r + 1 : K) ≤ H := by exact_mod_cast h
  unfold clipPos
  simp only [id]
  constructor
  · exact le_min (le_max_right _ _) (by linarith [show (1 : K) / 1000000 ≤ 1 by norm_num])
  · exact (min_le_right _ _).trans_lt (by linarith [show (0 : K) < 1 / 1000000 by norm_num])

theorem topLeft_eq (r H : Nat) (y : K) : topLeft id r H y = ⌊clipPos id r H y⌋ - r := by
  unfold topLeft
  simp only [id]
  rw [Int.floor_sub_natCast]

theorem topLeft_bounds {r H : Nat} (h : 2 * r + 1 ≤ H) (y : K) :
    0 ≤ topLeft id r H y ∧ topLeft id r H y + (2 * r + 1 : Nat) ≤ H := by
  obtain ⟨h1, h2⟩ := clipPos_bounds h y
  rw [topLeft_eq]
  have h3 : (r : Int) ≤ ⌊clipPos id r H y⌋ := by rw [Int.le_floor]; exact_mod_cast h1
  have h4 : ⌊clipPos id r H y⌋ < (H : Int) - r := by rw [Int.floor_lt]; push_cast; exact h2
  exact ⟨by omega, by push_cast; omega⟩

/-- Positions where the patch fits are not clipped. -/
theorem clipPos_inside {r H : Nat} {y : K} (h0 : (r : K) ≤ y) (h1 : y ≤ (H : K) - r - 1 / 1000000) : clipPos id r H y = y := by
  unfold clipPos
  rw [max_eq_left h0, id, min_eq_left h1]

theorem share_eq (exp : K → K) {r H W : Nat} (hH : 2 * r + 1 ≤ H) (hW : 2 * r + 1 ≤ W) (p : Particle K) (j i : Nat) :
    share exp id r H W j i p =
      if near r (clipPos id r H p.y) j ∧ near r (clipPos id r W p.x) i then
        light exp (clipPos id r H p.y) (clipPos id r W p.x) p.dy p.dx p.rho p.amp j i
      else 0 := by
  obtain ⟨hy0, hy1⟩ := topLeft_bounds hH p.y
  obtain ⟨hx0, hx1⟩ := topLeft_bounds hW p.x
  have ey := topLeft_eq r H p.y
  have ex := topLeft_eq r W p.x
  unfold share patch
  dsimp only
  -- each row
  have hrow : ∀ a, a < 2 * r + 1 → ∀ g : Nat → K,
      (((List.range (2 * r + 1)).map (fun b : Nat => ((a : Int) + topLeft id r H p.y, (b : Int) + topLeft id r W p.x, g b))).map
        (effect H W j i)).sum =
      if a = j - (topLeft id r H p.y).toNat then
        (if (topLeft id r H p.y).toNat ≤ j ∧ (topLeft id r W p.x).toNat ≤ i ∧ i - (topLeft id r W p.x).toNat < 2 * r + 1 then
          g (i - (topLeft id r W p.x).toNat) else 0)
      else 0 := by
    intro a ha g
    rw [List.map_map]
    have hmap : (List.range (2 * r + 1)).map (effect H W j i ∘ fun b : Nat =>
          ((a : Int) + topLeft id r H p.y, (b : Int) + topLeft id r W p.x, g b)) =
        (List.range (2 * r + 1)).map (fun b => if b = i - (topLeft id r W p.x).toNat then
          (if a = j - (topLeft id r H p.y).toNat ∧ (topLeft id r H p.y).toNat ≤ j ∧ (topLeft id r W p.x).toNat ≤ i then g b else 0)
          else 0) := by
      refine List.map_congr_left (fun b hb => ?_)
      rw [List.mem_range] at hb
      simp only [Function.comp, effect]
      rw [normIndex_inside (by omega) (by omega), normIndex_inside (by omega) (by omega)]
      simp only [Option.some.injEq]
      by_cases h1 : b = i - (topLeft id r W p.x).toNat
      · rw [if_pos h1]
        by_cases h2 : a = j - (topLeft id r H p.y).toNat ∧ (topLeft id r H p.y).toNat ≤ j ∧ (topLeft id r W p.x).toNat ≤ i
        · rw [if_pos h2, if_pos (by omega)]
        · rw [if_neg h2, if_neg (by omega)]
      · rw [if_neg h1, if_neg (by omega)]
    rw [hmap, sum_range_ite]
    by_cases h1 : a = j - (topLeft id r H p.y).toNat
    · rw [if_pos h1]
      by_cases h2 : i - (topLeft id r W p.x).toNat < 2 * r + 1
      · rw [if_pos h2]
        by_cases h3 : (topLeft id r H p.y).toNat ≤ j ∧ (topLeft id r W p.x).toNat ≤ i
        · rw [if_pos ⟨h1, h3⟩, if_pos ⟨h3.1, h3.2, h2⟩]
        · rw [if_neg (fun h => h3 h.2), if_neg (fun h => h3 ⟨h.1, h.2.1⟩)]
      · rw [if_neg h2, if_neg (fun h => h2 h.2.2)]
    · rw [if_neg h1]
      split
      · rw [if_neg (fun h => h1 h.1)]
      · rfl
  -- sum over the rows
  have hsum : ∀ (l : List Nat) (F : Nat → List (Int × Int × K)), ((l.flatMap F).map (effect H W j i)).sum =
      (l.map (fun a => ((F a).map (effect H W j i)).sum)).sum := by
    intro l F
    induction l with
    | nil => rfl
    | cons a l ih => rw [List.flatMap_cons, List.map_append, List.sum_append, ih, List.map_cons, List.sum_cons]
  rw [hsum]
  rw [List.map_congr_left (fun a ha => hrow a (List.mem_range.1 ha) _)]
  refine (sum_range_ite (2 * r + 1) (j - (topLeft id r H p.y).toNat) _).trans ?_
  by_cases hn : near r (clipPos id r H p.y) j ∧ near r (clipPos id r W p.x) i
  · obtain ⟨⟨n1, n2⟩, n3, n4⟩ := hn
    rw [if_pos (by omega), if_pos ⟨by omega, by omega, by omega⟩, if_pos ⟨⟨n1, n2⟩, n3, n4⟩]
    rw [← gaussian_eq_light, ← gaussian_shift exp (i : K) (j : K) (clipPos id r W p.x) (clipPos id r H p.y)]
    have c1 : (((i - (topLeft id r W p.x).toNat : Nat) : Int)) = (i : Int) - topLeft id r W p.x := by omega
    have c2 : (((j - (topLeft id r H p.y).toNat : Nat) : Int)) = (j : Int) - topLeft id r H p.y := by omega
    rw [c1, c2]
    congr 1
    · push_cast; ring
    · push_cast; ring
  · rw [if_neg hn]
    unfold near at hn
    split
    · rw [if_neg (by omega)]
    · rfl

end Verif.Render

import Verif.Proofs.Geometry
import Verif.Proofs.Rounding
/-!
# The geometry with Python's floats
-/

namespace Verif.Geometry
open Verif

theorem fl_err {x B : ℚ} (h : |x| ≤ B) : |binary64 x - x| ≤ B / 2 ^ 53 :=
  (binary64_err x).trans (by gcongr)

/-- The result of one operation is below twice the exact one. -/
theorem fl_le_two {x B : ℚ} (h : |x| ≤ B) : |binary64 x| ≤ 2 * B := by
  have h1 := fl_err h
  have h0 : 0 ≤ B := (abs_nonneg x).trans h
  have h2 : B / 2 ^ 53 ≤ B := div_le_self h0 (by norm_num)
  have := abs_add_le (binary64 x - x) x
  rw [sub_add_cancel] at this
  linarith

/-- What an accepted configuration gives, for any rounding. -/
theorem build_ok_fl {fl fl32 : ℚ → ℚ} {a : Args} {g : Geo} (h : build fl fl32 a = .ok g) :
    0 < a.resolution ∧ g = store fl fl32 a (max 0 a.maxSpeedX) (max 0 a.maxSpeedY) (min 0 a.minSpeedX) (min 0 a.minSpeedY) := by
  unfold build at h
  dsimp only at h
  split at h
  · cases h
  split at h
  · cases h
  split at h
  · cases h
  rename_i h3
  split at h
  · cases h
  split at h
  · cases h
  split at h
  · cases h
  split at h
  · cases h
  cases h
  exact ⟨not_le.1 h3, rfl⟩

/-- One axis: the region is at most one pixel too small. `b` says whether the region is extended. -/
theorem axis_float (b : Bool) {o x E t res U : ℚ} (n : Nat) (hres : 0 < res) (hU : U * res = 2 ^ 40) (ho : binary64 o = o)
    (ho0 : |o| ≤ U) (hx0 : 0 ≤ x) (hx : x ≤ U) (hE0 : 0 ≤ E) (hE : E ≤ U) (hb : b = false → E = 0) (ht0 : t ≤ 0) (ht : -U ≤ t)
    (hn : (n : ℚ) / res ≤ U) :
    let off := if b then binary64 (binary64 (o - x) - E) else binary64 (o - x)
    let bd := if b then binary64 (binary64 (binary64 (binary64 (n / res) + x) - t) + E) else binary64 (binary64 (binary64 (n / res) + x) - t)
    0 ≤ trunc (binary64 (binary64 (o - off) * res)) ∧
      trunc (binary64 (binary64 (o - off) * res)) + n ≤ trunc (binary64 (bd * res)) + 1 := by
  intro off bd
  have hU0 : 0 < U := by
    by_contra h
    have : U * res ≤ 0 := mul_nonpos_of_nonpos_of_nonneg (not_lt.1 h) hres.le
    rw [hU] at this; norm_num at this
  set η : ℚ := 8 * U / 2 ^ 53 with hη
  have hη0 : 0 < η := by positivity
  have hηU : η ≤ U / 1000 := by
    rw [hη, div_le_div_iff₀ (by norm_num) (by norm_num)]
    have : (8 : ℚ) * 1000 ≤ 2 ^ 53 := by norm_num
    nlinarith
  have hηres : η * res = 1 / 1024 := by
    rw [hη, div_mul_eq_mul_div, mul_assoc, hU]; norm_num
  have err : ∀ q : ℚ, |q| ≤ 8 * U → |binary64 q - q| ≤ η := fun q hq => fl_err hq
  have errp : ∀ q : ℚ, |q| ≤ 8 * 2 ^ 40 → |binary64 q - q| ≤ 1 / 1024 := by
    intro q hq
    refine (fl_err hq).trans ?_
    norm_num
  obtain ⟨oU1, oU2⟩ := abs_le.1 ho0
  have hn0 : (0 : ℚ) ≤ (n : ℚ) / res := by positivity
  -- the offset
  have c1 := abs_le.1 (err (o - x) (abs_le.2 ⟨by linarith, by linarith⟩))
  have off_low : o - x - E - 2 * η ≤ off := by
    cases hbb : b with
    | false => simp only [off, hbb]; rw [hb hbb]; simp only [Bool.false_eq_true, if_false]; linarith [c1.1]
    | true =>
      simp only [off, hbb, if_true]
      have c2 := abs_le.1 (err (binary64 (o - x) - E) (abs_le.2 ⟨by linarith [c1.1], by linarith [c1.2]⟩))
      linarith [c1.1, c2.1]
  have h0o : binary64 (o - x) ≤ o := by
    rw [← ho]; rw [ho]; conv_rhs => rw [← ho]
    exact binary64_mono (by linarith)
  have off_high : off ≤ o := by
    cases hbb : b with
    | false => simp only [off, hbb, Bool.false_eq_true, if_false]; exact h0o
    | true =>
      simp only [off, hbb, if_true]
      conv_rhs => rw [← ho]
      exact binary64_mono (by linarith)
  have g0 : 0 ≤ binary64 (o - off) := binary64_nonneg (by linarith)
  have c3 := abs_le.1 (err (o - off) (abs_le.2 ⟨by linarith, by linarith⟩))
  have gU : binary64 (o - off) ≤ x + E + 3 * η := by linarith [c3.2]
  have gR : binary64 (o - off) * res ≤ (x + E) * res + 3 / 1024 := by
    have := mul_le_mul_of_nonneg_right gU hres.le
    rw [add_mul _ _ res, mul_assoc 3, hηres] at this
    linarith
  have gR0 : 0 ≤ binary64 (o - off) * res := mul_nonneg g0 hres.le
  have xE : (x + E) * res ≤ 2 * 2 ^ 40 := by
    rw [← hU]; nlinarith
  have c4 := abs_le.1 (errp (binary64 (o - off) * res) (abs_le.2 ⟨by linarith, by linarith⟩))
  have i0 : 0 ≤ binary64 (binary64 (o - off) * res) := binary64_nonneg gR0
  -- the size
  have d1 := abs_le.1 (err ((n : ℚ) / res) (abs_le.2 ⟨by linarith, by linarith⟩))
  have d2 := abs_le.1 (err (binary64 ((n : ℚ) / res) + x) (abs_le.2 ⟨by linarith [d1.1], by linarith [d1.2]⟩))
  have d3 := abs_le.1 (err (binary64 (binary64 ((n : ℚ) / res) + x) - t)
    (abs_le.2 ⟨by linarith [d1.1, d2.1], by linarith [d1.2, d2.2]⟩))
  have bd_both : (n : ℚ) / res + x - t + E - 4 * η ≤ bd ∧ bd ≤ (n : ℚ) / res + x - t + E + 4 * η := by
    cases hbb : b with
    | false =>
      simp only [bd, hbb]; rw [hb hbb]; simp only [Bool.false_eq_true, if_false]
      constructor <;> linarith [d1.1, d2.1, d3.1, d1.2, d2.2, d3.2]
    | true =>
      simp only [bd, hbb, if_true]
      have d4 := abs_le.1 (err (binary64 (binary64 (binary64 ((n : ℚ) / res) + x) - t) + E)
        (abs_le.2 ⟨by linarith [d1.1, d2.1, d3.1], by linarith [d1.2, d2.2, d3.2]⟩))
      constructor <;> linarith [d1.1, d2.1, d3.1, d1.2, d2.2, d3.2, d4.1, d4.2]
  have e0 : (n : ℚ) / res * res = n := div_mul_cancel₀ _ hres.ne'
  have tr : 0 ≤ -t * res := mul_nonneg (by linarith) hres.le
  have bR : (n : ℚ) + (x + E) * res - 4 / 1024 ≤ bd * res := by
    have := mul_le_mul_of_nonneg_right bd_both.1 hres.le
    have e1 : ((n : ℚ) / res + x - t + E - 4 * η) * res = (n : ℚ) / res * res + (x + E) * res + -t * res - 4 * (η * res) := by ring
    rw [e1, e0, hηres] at this
    linarith
  have bR2 : bd * res ≤ 8 * 2 ^ 40 := by
    have h1 : bd ≤ 8 * U := by linarith [bd_both.2]
    have := mul_le_mul_of_nonneg_right h1 hres.le
    rw [mul_assoc, hU] at this
    exact this
  have xE0 : 0 ≤ (x + E) * res := mul_nonneg (by linarith) hres.le
  have hnn : (0 : ℚ) ≤ n := Nat.cast_nonneg n
  have d5 := abs_le.1 (errp (bd * res) (abs_le.2 ⟨by linarith, bR2⟩))
  -- the integers
  rw [trunc_nonneg i0]
  have hfi := Int.floor_le (binary64 (binary64 (o - off) * res))
  refine ⟨Int.floor_nonneg.2 i0, ?_⟩
  have hcomp : (n : ℚ) + ⌊binary64 (binary64 (o - off) * res)⌋ - 9 / 1024 ≤ binary64 (bd * res) := by
    linarith [c4.2, d5.1]
  by_cases hneg : binary64 (bd * res) < 0
  · have h1 : (0 : ℚ) ≤ (⌊binary64 (binary64 (o - off) * res)⌋ : ℚ) := by exact_mod_cast Int.floor_nonneg.2 i0
    have hsum : (n : ℚ) + ⌊binary64 (binary64 (o - off) * res)⌋ < 1 := by linarith
    have hsum' : (n : Int) + ⌊binary64 (binary64 (o - off) * res)⌋ < 1 := by exact_mod_cast hsum
    have : trunc (binary64 (bd * res)) = -⌊-binary64 (bd * res)⌋ := by unfold trunc; rw [if_pos hneg]
    rw [this]
    have h2 : ⌊-binary64 (bd * res)⌋ < 1 := by
      rw [Int.floor_lt]; push_cast; linarith
    omega
  · rw [trunc_nonneg (not_lt.1 hneg)]
    have : (n : Int) + ⌊binary64 (binary64 (o - off) * res)⌋ - 1 ≤ ⌊binary64 (bd * res)⌋ := by
      rw [Int.le_floor]; push_cast; linarith
    omega

/-- The two checks of one axis, with floats: offset and end of the region are within a hundredth of a pixel of the exact ones. -/
theorem axis_checks {o mx mn dt res U : ℚ} (n : Nat) (hres : 0 < res) (hU : U * res = 2 ^ 40) (ho0 : |o| ≤ U)
    (hx : |mx * dt| ≤ U) (ht : |mn * dt| ≤ U) (hn : (n : ℚ) / res ≤ U) :
    |offset0 binary64 o mx dt - (o - mx * dt)| ≤ 1 / (100 * res) ∧
    |binary64 (bounds0 binary64 n res mx mn dt + offset0 binary64 o mx dt) - (o + n / res - mn * dt)| ≤ 1 / (100 * res) := by
  have hU0 : 0 < U := by
    by_contra h
    have : U * res ≤ 0 := mul_nonpos_of_nonpos_of_nonneg (not_lt.1 h) hres.le
    rw [hU] at this; norm_num at this
  set η : ℚ := 8 * U / 2 ^ 53 with hη
  have hη0 : 0 < η := by positivity
  have hηU : η ≤ U / 1000 := by
    rw [hη, div_le_div_iff₀ (by norm_num) (by norm_num)]
    have : (8 : ℚ) * 1000 ≤ 2 ^ 53 := by norm_num
    nlinarith
  have hηres : η * res = 1 / 1024 := by
    rw [hη, div_mul_eq_mul_div, mul_assoc, hU]; norm_num
  have h7 : 7 * η ≤ 1 / (100 * res) := by
    rw [le_div_iff₀ (by positivity)]
    have : 7 * η * (100 * res) = 700 * (η * res) := by ring
    rw [this, hηres]; norm_num
  have err : ∀ q : ℚ, |q| ≤ 8 * U → |binary64 q - q| ≤ η := fun q hq => fl_err hq
  obtain ⟨o1, o2⟩ := abs_le.1 ho0
  obtain ⟨x1, x2⟩ := abs_le.1 hx
  obtain ⟨t1, t2⟩ := abs_le.1 ht
  have hn0 : (0 : ℚ) ≤ (n : ℚ) / res := by positivity
  have a1 := abs_le.1 (err (mx * dt) (abs_le.2 ⟨by linarith, by linarith⟩))
  have a2 := abs_le.1 (err (mn * dt) (abs_le.2 ⟨by linarith, by linarith⟩))
  have a3 := abs_le.1 (err ((n : ℚ) / res) (abs_le.2 ⟨by linarith, by linarith⟩))
  have a4 := abs_le.1 (err (o - binary64 (mx * dt)) (abs_le.2 ⟨by linarith, by linarith⟩))
  have a5 := abs_le.1 (err (binary64 ((n : ℚ) / res) + binary64 (mx * dt)) (abs_le.2 ⟨by linarith, by linarith⟩))
  have a6 := abs_le.1 (err (binary64 (binary64 ((n : ℚ) / res) + binary64 (mx * dt)) - binary64 (mn * dt))
    (abs_le.2 ⟨by linarith, by linarith⟩))
  unfold offset0 bounds0
  have a7 := abs_le.1 (err (binary64 (binary64 (binary64 ((n : ℚ) / res) + binary64 (mx * dt)) - binary64 (mn * dt)) + binary64 (o - binary64 (mx * dt)))
    (abs_le.2 ⟨by linarith, by linarith⟩))
  constructor
  · rw [abs_le]; constructor <;> linarith
  · rw [abs_le]; constructor <;> linarith

end Verif.Geometry

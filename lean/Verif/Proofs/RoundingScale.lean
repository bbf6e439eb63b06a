import Verif.Proofs.Rounding
/-!
# Rounding commutes with powers of two
-/

namespace Verif.Rounding
open Verif

theorem exponent_unique {q : ℚ} {e e' : Int} (h1 : (2 : ℚ) ^ e ≤ q) (h2 : q < (2 : ℚ) ^ (e + 1)) (h1' : (2 : ℚ) ^ e' ≤ q)
    (h2' : q < (2 : ℚ) ^ (e' + 1)) : e = e' := by
  have a := (zpow_lt_zpow_iff_right₀ (show (1 : ℚ) < 2 by norm_num)).1 (h1.trans_lt h2')
  have b := (zpow_lt_zpow_iff_right₀ (show (1 : ℚ) < 2 by norm_num)).1 (h1'.trans_lt h2)
  omega

theorem roundPos_of {p n d : Nat} (hn : 0 < n) (hd : 0 < d) {e : Int} (h1 : (2 : ℚ) ^ e ≤ (n : ℚ) / d) (h2 : (n : ℚ) / d < (2 : ℚ) ^ (e + 1))
    {A B : Nat} (hB : 0 < B) (h : (A : ℚ) / B = (n : ℚ) / d * (2 : ℚ) ^ ((p : Int) - 1 - e)) :
    roundPos p n d = roundEven A B * (2 : ℚ) ^ (e + 1 - p) := by
  obtain ⟨e', he, g1, g2⟩ := exponent n d hn hd
  obtain rfl := exponent_unique h1 h2 g1 g2
  have hdq : (0 : ℚ) < d := by exact_mod_cast hd
  have hBq : (0 : ℚ) < B := by exact_mod_cast hB
  unfold roundPos
  rw [if_neg hn.ne']
  dsimp only
  rw [he]
  split
  · rename_i hs
    obtain ⟨k, hk⟩ := Int.eq_ofNat_of_zero_le hs
    rw [hk, zpow_natCast] at h
    rw [hk, Int.toNat_natCast]
    have : roundEven (n * 2 ^ k) d = roundEven A B := by
      refine roundEven_congr hd hB ?_
      have : (n : ℚ) * 2 ^ k * B = A * d := by
        rw [div_eq_iff hBq.ne'] at h
        rw [h]
        field_simp
      exact_mod_cast this
    rw [this, show e + 1 - (p : Int) = -(k : Int) by omega, zpow_neg, zpow_natCast, Rat.mkRat_eq_div]
    push_cast
    rw [div_eq_mul_inv]
  · rename_i hs
    obtain ⟨k, hk⟩ := Int.eq_ofNat_of_zero_le (show 0 ≤ -((p : Int) - 1 - e) by omega)
    rw [show (p : Int) - 1 - e = -(k : Int) by omega, zpow_neg, zpow_natCast] at h
    rw [hk, Int.toNat_natCast]
    have : roundEven n (d * 2 ^ k) = roundEven A B := by
      refine roundEven_congr (by positivity) hB ?_
      have : (n : ℚ) * B = A * (d * 2 ^ k) := by
        rw [div_eq_iff hBq.ne'] at h
        rw [h]
        field_simp
      exact_mod_cast this
    rw [this, show e + 1 - (p : Int) = (k : Int) by omega, zpow_natCast]
    push_cast
    ring

theorem num_den {q : ℚ} (hq : 0 < q) : ((q.num.toNat : Nat) : ℚ) / q.den = q := by
  have : ((q.num.toNat : Nat) : ℚ) = (q.num : ℚ) := by
    exact_mod_cast (Int.toNat_of_nonneg (Rat.num_pos.2 hq).le)
  rw [this]
  exact Rat.num_div_den q

theorem roundBits_of (p : Nat) {q : ℚ} (hq : 0 < q) {e : Int} (h1 : (2 : ℚ) ^ e ≤ q) (h2 : q < (2 : ℚ) ^ (e + 1)) {A B : Nat} (hB : 0 < B)
    (h : (A : ℚ) / B = q * (2 : ℚ) ^ ((p : Int) - 1 - e)) : roundBits p q = roundEven A B * (2 : ℚ) ^ (e + 1 - p) := by
  have hnum : 0 < q.num := Rat.num_pos.2 hq
  have hc := num_den hq
  unfold roundBits
  rw [if_neg (not_lt.2 hq.le)]
  rw [← hc] at h1 h2 h
  refine roundPos_of (by omega) q.den_pos ?_ ?_ hB ?_
  · simpa [hc] using h1
  · simpa [hc] using h2
  · simpa [hc] using h

/-- Multiplying with a power of two and rounding commute. -/
theorem roundBits_scale (p : Nat) (k : Int) (q : ℚ) : roundBits p ((2 : ℚ) ^ k * q) = (2 : ℚ) ^ k * roundBits p q := by
  have pos : ∀ q : ℚ, 0 < q → roundBits p ((2 : ℚ) ^ k * q) = (2 : ℚ) ^ k * roundBits p q := by
    intro q hq
    obtain ⟨e, _, h1, h2, _⟩ := roundBits_spec p hq
    have hk : (0 : ℚ) < (2 : ℚ) ^ k := by positivity
    have hv : 0 < q * (2 : ℚ) ^ ((p : Int) - 1 - e) := by positivity
    rw [roundBits_of p hq h1 h2 (Rat.den_pos _) (num_den hv)]
    rw [roundBits_of p (e := e + k) (mul_pos hk hq) (by rw [← two_zpow_mul, mul_comm]; exact mul_le_mul_of_nonneg_left h1 hk.le)
      (by rw [show e + k + 1 = e + 1 + k by ring, ← two_zpow_mul, mul_comm ((2 : ℚ) ^ (e + 1))]; exact mul_lt_mul_of_pos_left h2 hk)
      (Rat.den_pos _) ((num_den hv).trans ?_)]
    · rw [show e + k + 1 - (p : Int) = k + (e + 1 - p) by ring, ← two_zpow_mul]
      ring
    · rw [show (p : Int) - 1 - (e + k) = ((p : Int) - 1 - e) + -k by ring, ← two_zpow_mul, zpow_neg]
      field_simp
  rcases lt_trichotomy q 0 with h | h | h
  · have := pos (-q) (by linarith)
    rw [mul_neg, roundBits_neg, roundBits_neg] at this
    linarith
  · subst h; rw [mul_zero, roundBits_zero, mul_zero]
  · exact pos q h

end Verif.Rounding

namespace Verif

theorem binary64_scale (k : Int) (q : ℚ) : binary64 ((2 : ℚ) ^ k * q) = (2 : ℚ) ^ k * binary64 q := Rounding.roundBits_scale 53 k q
theorem binary32_scale (k : Int) (q : ℚ) : binary32 ((2 : ℚ) ^ k * q) = (2 : ℚ) ^ k * binary32 q := Rounding.roundBits_scale 24 k q

end Verif

import Verif.Model.Rounding
import Mathlib.Tactic.Linarith
import Mathlib.Tactic.Ring
import Mathlib.Tactic.FieldSimp
import Mathlib.Tactic.Positivity
import Mathlib.Tactic.NormNum
import Mathlib.Algebra.Order.Floor.Ring
import Mathlib.Algebra.Order.Field.Power
import Mathlib.Data.Nat.Log
/-!
# Facts about rounding to a fixed number of bits

The relative error is at most `2 ^ -p`, integers up to `2 ^ p` are exact, and rounding is monotone and odd.
-/

namespace Verif
namespace Rounding

/-- `m` is an integer nearest to `q`, and `q` itself if that is an integer. -/
def Nearest (q : ℚ) (m : Nat) : Prop := |(m : ℚ) - q| ≤ 1 / 2 ∧ ∀ k : Nat, q = k → m = k

theorem roundEven_nearest (n d : Nat) (hd : 0 < d) : Nearest ((n : ℚ) / d) (roundEven n d) := by
  have hdq : (0 : ℚ) < d := by exact_mod_cast hd
  have hdiv : (n : ℚ) = d * (n / d : Nat) + (n % d : Nat) := by exact_mod_cast (Nat.div_add_mod n d).symm
  have hlt : n % d < d := Nat.mod_lt _ hd
  have hq : (n : ℚ) / d = (n / d : Nat) + ((n % d : Nat) : ℚ) / d := by
    rw [hdiv]; field_simp
  generalize hR : (n % d) = R at *
  generalize hQ : (n / d) = Q at *
  have hR0 : (0 : ℚ) ≤ (R : ℚ) / d := by positivity
  have low : 2 * R ≤ d → (R : ℚ) / d ≤ 1 / 2 := by
    intro h
    rw [div_le_iff₀ hdq]
    have : (2 * R : ℚ) ≤ d := by exact_mod_cast h
    linarith
  have high : d ≤ 2 * R → 1 / 2 ≤ (R : ℚ) / d := by
    intro h
    rw [le_div_iff₀ hdq]
    have : (d : ℚ) ≤ 2 * R := by exact_mod_cast h
    linarith
  have one : (R : ℚ) / d ≤ 1 := by
    rw [div_le_iff₀ hdq]
    have : (R : ℚ) < d := by exact_mod_cast hlt
    linarith
  have ex : ∀ k : Nat, (n : ℚ) / d = k → R = 0 ∧ Q = k := by
    intro k hk
    rw [div_eq_iff hdq.ne'] at hk
    have hk' : n = k * d := by exact_mod_cast hk
    constructor
    · rw [← hR, hk']; exact Nat.mul_mod_left _ _
    · rw [← hQ, hk']; exact Nat.mul_div_cancel _ hd
  unfold roundEven
  rw [hR, hQ]
  split
  · rename_i h
    refine ⟨?_, fun k hk => (ex k hk).2⟩
    rw [hq, abs_le]
    have := low h.le
    constructor <;> linarith
  · split
    · rename_i h1 h
      refine ⟨?_, fun k hk => ?_⟩
      · rw [hq, abs_le]
        have := high h.le
        push_cast
        constructor <;> linarith
      · have := (ex k hk).1; omega
    · rename_i h1 h2
      have he : 2 * R = d := by omega
      split
      · refine ⟨?_, fun k hk => (ex k hk).2⟩
        rw [hq, abs_le]
        have := low he.le
        constructor <;> linarith
      · refine ⟨?_, fun k hk => ?_⟩
        · rw [hq, abs_le]
          have := high he.ge
          push_cast
          constructor <;> linarith
        · have := (ex k hk).1; omega

/-- `roundEven` depends on the quotient only. -/
theorem roundEven_congr {n d n' d' : Nat} (hd : 0 < d) (hd' : 0 < d') (h : n * d' = n' * d) : roundEven n d = roundEven n' d' := by
  have key : ∀ (a b c : Nat), 0 < b → 0 < c → roundEven (c * a) (c * b) = roundEven a b := by
    intro a b c hb hc
    have e1 : (c * a) % (c * b) = c * (a % b) := Nat.mul_mod_mul_left c a b
    have e2 : (c * a) / (c * b) = a / b := Nat.mul_div_mul_left a b hc
    unfold roundEven
    rw [e1, e2]
    have c1 : (2 * (c * (a % b)) < c * b) ↔ (2 * (a % b) < b) := by
      rw [show 2 * (c * (a % b)) = c * (2 * (a % b)) by ring]
      exact Nat.mul_lt_mul_left hc
    have c2 : (c * b < 2 * (c * (a % b))) ↔ (b < 2 * (a % b)) := by
      rw [show 2 * (c * (a % b)) = c * (2 * (a % b)) by ring]
      exact Nat.mul_lt_mul_left hc
    simp only [c1, c2]
  rw [← key n d d' hd hd', ← key n' d' d hd' hd]
  rw [mul_comm d' n, h, mul_comm n' d, mul_comm d' d]

theorem nearest_mono {a b : ℚ} {m n : Nat} (ha : Nearest a m) (hb : Nearest b n) (h : a < b) : m ≤ n := by
  by_contra hlt
  have h1 := abs_le.1 ha.1
  have h2 := abs_le.1 hb.1
  have : (n : ℚ) + 1 ≤ m := by exact_mod_cast (by omega : n + 1 ≤ m)
  linarith [h1.2, h2.1]

theorem nearest_ge {q : ℚ} {m k : Nat} (h : Nearest q m) (hk : (k : ℚ) ≤ q) : k ≤ m := by
  rcases hk.lt_or_eq with hlt | heq
  · exact nearest_mono ⟨by norm_num, fun j hj => by exact_mod_cast hj⟩ h hlt
  · exact (h.2 k heq.symm).ge

theorem nearest_le {q : ℚ} {m k : Nat} (h : Nearest q m) (hk : q ≤ (k : ℚ)) : m ≤ k := by
  rcases hk.lt_or_eq with hlt | heq
  · exact nearest_mono h ⟨by norm_num, fun j hj => by exact_mod_cast hj⟩ hlt
  · exact (h.2 k heq).le

/-- The exponent of a positive rational. -/
theorem exponent (n d : Nat) (hn : 0 < n) (hd : 0 < d) :
    ∃ e : Int, (if (if 0 ≤ (Nat.log2 n : Int) - Nat.log2 d then d * 2 ^ ((Nat.log2 n : Int) - Nat.log2 d).toNat ≤ n
        else d ≤ n * 2 ^ (-((Nat.log2 n : Int) - Nat.log2 d)).toNat) then (Nat.log2 n : Int) - Nat.log2 d
        else (Nat.log2 n : Int) - Nat.log2 d - 1) = e ∧ (2 : ℚ) ^ e ≤ (n : ℚ) / d ∧ (n : ℚ) / d < (2 : ℚ) ^ (e + 1) := by
  have hdq : (0 : ℚ) < d := by exact_mod_cast hd
  have hnq : (0 : ℚ) < n := by exact_mod_cast hn
  set A := Nat.log2 n with hA
  set B := Nat.log2 d with hB
  have a1 : (2 : ℚ) ^ (A : Int) ≤ n := by
    rw [zpow_natCast]; exact_mod_cast Nat.log2_self_le hn.ne'
  have a2 : (n : ℚ) < (2 : ℚ) ^ ((A : Int) + 1) := by
    have : n < 2 ^ (A + 1) := Nat.lt_log2_self
    have h : ((A : Int) + 1) = ((A + 1 : Nat) : Int) := by push_cast; ring
    rw [h, zpow_natCast]; exact_mod_cast this
  have b1 : (2 : ℚ) ^ (B : Int) ≤ d := by
    rw [zpow_natCast]; exact_mod_cast Nat.log2_self_le hd.ne'
  have b2 : (d : ℚ) < (2 : ℚ) ^ ((B : Int) + 1) := by
    have : d < 2 ^ (B + 1) := Nat.lt_log2_self
    have h : ((B : Int) + 1) = ((B + 1 : Nat) : Int) := by push_cast; ring
    rw [h, zpow_natCast]; exact_mod_cast this
  have two : (2 : ℚ) ≠ 0 := by norm_num
  have up : (n : ℚ) / d < (2 : ℚ) ^ ((A : Int) - B + 1) := by
    rw [div_lt_iff₀ hdq]
    calc (n : ℚ) < (2 : ℚ) ^ ((A : Int) + 1) := a2
      _ = (2 : ℚ) ^ ((A : Int) - B + 1) * (2 : ℚ) ^ (B : Int) := by rw [← zpow_add₀ two]; congr 1; ring
      _ ≤ (2 : ℚ) ^ ((A : Int) - B + 1) * d := by
        apply mul_le_mul_of_nonneg_left b1; positivity
  have low : (2 : ℚ) ^ ((A : Int) - B - 1) ≤ (n : ℚ) / d := by
    rw [le_div_iff₀ hdq]
    calc (2 : ℚ) ^ ((A : Int) - B - 1) * d ≤ (2 : ℚ) ^ ((A : Int) - B - 1) * (2 : ℚ) ^ ((B : Int) + 1) := by
          apply mul_le_mul_of_nonneg_left b2.le; positivity
      _ = (2 : ℚ) ^ (A : Int) := by rw [← zpow_add₀ two]; congr 1; ring
      _ ≤ n := a1
  have cond : (if 0 ≤ (A : Int) - B then d * 2 ^ ((A : Int) - B).toNat ≤ n else d ≤ n * 2 ^ (-((A : Int) - B)).toNat) ↔
      (2 : ℚ) ^ ((A : Int) - B) ≤ (n : ℚ) / d := by
    generalize (A : Int) - B = E
    rw [le_div_iff₀ hdq]
    split
    · rename_i hE
      obtain ⟨k, rfl⟩ := Int.eq_ofNat_of_zero_le hE
      rw [Int.toNat_natCast, zpow_natCast]
      constructor
      · intro h
        have : (d * 2 ^ k : ℚ) ≤ n := by exact_mod_cast h
        linarith
      · intro h
        have : (d * 2 ^ k : ℚ) ≤ n := by linarith
        exact_mod_cast this
    · rename_i hE
      obtain ⟨k, hk⟩ := Int.eq_ofNat_of_zero_le (show 0 ≤ -E by omega)
      have hE' : E = -(k : Int) := by omega
      rw [hk, hE', Int.toNat_natCast, zpow_neg, zpow_natCast, inv_mul_le_iff₀ (by positivity)]
      constructor
      · intro h
        have : (d : ℚ) ≤ n * 2 ^ k := by exact_mod_cast h
        linarith
      · intro h
        have : (d : ℚ) ≤ n * 2 ^ k := by linarith
        exact_mod_cast this
  by_cases hc : (2 : ℚ) ^ ((A : Int) - B) ≤ (n : ℚ) / d
  · refine ⟨_, if_pos (cond.2 hc), hc, up⟩
  · refine ⟨_, if_neg (fun h => hc (cond.1 h)), low, ?_⟩
    rw [sub_add_cancel]
    exact lt_of_not_ge hc

/-- What `roundPos` returns. -/
theorem roundPos_spec (p n d : Nat) (hn : 0 < n) (hd : 0 < d) :
    ∃ (e : Int) (m : Nat), (2 : ℚ) ^ e ≤ (n : ℚ) / d ∧ (n : ℚ) / d < (2 : ℚ) ^ (e + 1) ∧
      roundPos p n d = m * (2 : ℚ) ^ (e + 1 - p) ∧ Nearest ((n : ℚ) / d * (2 : ℚ) ^ ((p : Int) - 1 - e)) m := by
  obtain ⟨e, he, h1, h2⟩ := exponent n d hn hd
  have hdq : (0 : ℚ) < d := by exact_mod_cast hd
  unfold roundPos
  rw [if_neg hn.ne']
  dsimp only
  rw [he]
  split
  · rename_i hs
    obtain ⟨k, hk⟩ := Int.eq_ofNat_of_zero_le hs
    rw [hk, Int.toNat_natCast]
    refine ⟨e, roundEven (n * 2 ^ k) d, h1, h2, ?_, ?_⟩
    · rw [show e + 1 - (p : Int) = -(k : Int) by omega, zpow_neg, zpow_natCast, Rat.mkRat_eq_div]
      push_cast
      rw [div_eq_mul_inv]
    · have := roundEven_nearest (n * 2 ^ k) d hd
      rw [hk, zpow_natCast]
      have e1 : (n : ℚ) / d * 2 ^ k = ((n * 2 ^ k : Nat) : ℚ) / d := by push_cast; ring
      rw [e1]; exact this
  · rename_i hs
    obtain ⟨k, hk⟩ := Int.eq_ofNat_of_zero_le (show 0 ≤ -((p : Int) - 1 - e) by omega)
    rw [hk, Int.toNat_natCast]
    refine ⟨e, roundEven n (d * 2 ^ k), h1, h2, ?_, ?_⟩
    · rw [show e + 1 - (p : Int) = (k : Int) by omega, zpow_natCast]
      push_cast; ring
    · have := roundEven_nearest n (d * 2 ^ k) (by positivity)
      rw [show (p : Int) - 1 - e = -(k : Int) by omega, zpow_neg, zpow_natCast]
      have e1 : (n : ℚ) / d * (2 ^ k)⁻¹ = (n : ℚ) / ((d * 2 ^ k : Nat) : ℚ) := by
        push_cast; field_simp
      rw [e1]; exact this

/-- Rounding of a positive rational, on the level of rationals. -/
theorem roundBits_spec (p : Nat) {q : ℚ} (hq : 0 < q) :
    ∃ (e : Int) (m : Nat), (2 : ℚ) ^ e ≤ q ∧ q < (2 : ℚ) ^ (e + 1) ∧
      roundBits p q = m * (2 : ℚ) ^ (e + 1 - p) ∧ Nearest (q * (2 : ℚ) ^ ((p : Int) - 1 - e)) m := by
  have hnum : 0 < q.num := Rat.num_pos.2 hq
  obtain ⟨e, m, h⟩ := roundPos_spec p q.num.toNat q.den (by omega) q.den_pos
  have hc : ((q.num.toNat : Nat) : ℚ) / q.den = q := by
    have : ((q.num.toNat : Nat) : ℚ) = (q.num : ℚ) := by
      exact_mod_cast (Int.toNat_of_nonneg hnum.le)
    rw [this]
    exact Rat.num_div_den q
  rw [hc] at h
  refine ⟨e, m, h.1, h.2.1, ?_, h.2.2.2⟩
  unfold roundBits
  rw [if_neg (not_lt.2 hq.le)]
  exact h.2.2.1

theorem roundBits_zero (p : Nat) : roundBits p 0 = 0 := by
  unfold roundBits roundPos
  simp

theorem roundBits_neg (p : Nat) (q : ℚ) : roundBits p (-q) = -roundBits p q := by
  unfold roundBits
  rcases lt_trichotomy q 0 with h | h | h
  · rw [if_neg (by linarith), if_pos h]; simp
  · subst h; simp [roundPos]
  · rw [if_pos (by linarith), if_neg (by linarith)]; simp

theorem two_zpow_mul (a b : Int) : (2 : ℚ) ^ a * (2 : ℚ) ^ b = (2 : ℚ) ^ (a + b) := (zpow_add₀ (by norm_num) a b).symm

/-- The error is at most `2 ^ -p` times the value. -/
theorem roundBits_err (p : Nat) (q : ℚ) : |roundBits p q - q| ≤ |q| / 2 ^ p := by
  have pos : ∀ q : ℚ, 0 < q → |roundBits p q - q| ≤ |q| / 2 ^ p := by
    intro q hq
    obtain ⟨e, m, h1, h2, h3, h4⟩ := roundBits_spec p hq
    have hz : (0 : ℚ) < (2 : ℚ) ^ (e + 1 - (p : Int)) := by positivity
    have e1 : roundBits p q - q = ((m : ℚ) - q * (2 : ℚ) ^ ((p : Int) - 1 - e)) * (2 : ℚ) ^ (e + 1 - (p : Int)) := by
      rw [h3, sub_mul, mul_assoc, two_zpow_mul]
      rw [show ((p : Int) - 1 - e + (e + 1 - (p : Int))) = 0 by ring, zpow_zero, mul_one]
    rw [e1, abs_mul, abs_of_pos hz, abs_of_pos hq]
    calc |(m : ℚ) - q * (2 : ℚ) ^ ((p : Int) - 1 - e)| * (2 : ℚ) ^ (e + 1 - (p : Int))
        ≤ 1 / 2 * (2 : ℚ) ^ (e + 1 - (p : Int)) := mul_le_mul_of_nonneg_right h4.1 hz.le
      _ = (2 : ℚ) ^ e / 2 ^ p := by
        rw [show e + 1 - (p : Int) = e + (1 + (-(p : Int))) by ring, ← two_zpow_mul, ← two_zpow_mul, zpow_one, zpow_neg, zpow_natCast]
        field_simp
      _ ≤ q / 2 ^ p := by gcongr
  rcases lt_trichotomy q 0 with h | h | h
  · have := pos (-q) (by linarith)
    rw [roundBits_neg, abs_neg] at this
    rw [← abs_neg]
    convert this using 2
    ring
  · subst h; simp [roundBits_zero]
  · exact pos q h

/-- Integers of at most `p` bits, and `2 ^ p`, are exact. -/
theorem roundBits_nat (p : Nat) (N : Nat) (hN : N ≤ 2 ^ p) (hp : 0 < p) : roundBits p N = N := by
  rcases Nat.eq_zero_or_pos N with h0 | hpos
  · subst h0; simpa using roundBits_zero p
  obtain ⟨e, m, h1, h2, h3, h4⟩ := roundBits_spec p (q := (N : ℚ)) (by exact_mod_cast hpos)
  have hNq : (N : ℚ) ≤ (2 : ℚ) ^ (p : Int) := by rw [zpow_natCast]; exact_mod_cast hN
  have hep : e ≤ p := by
    have := h1.trans hNq
    exact (zpow_le_zpow_iff_right₀ (by norm_num)).1 this
  have main : ∀ k : Nat, (N : ℚ) * (2 : ℚ) ^ ((p : Int) - 1 - e) = k → roundBits p N = N := by
    intro k hk
    rw [h3, h4.2 k hk, ← hk, mul_assoc, two_zpow_mul, show ((p : Int) - 1 - e + (e + 1 - (p : Int))) = 0 by ring, zpow_zero, mul_one]
  rcases Int.lt_or_le e p with hlt | hge
  · obtain ⟨k, hk⟩ := Int.eq_ofNat_of_zero_le (show 0 ≤ (p : Int) - 1 - e by omega)
    exact main (N * 2 ^ k) (by rw [hk, zpow_natCast]; push_cast; rfl)
  · have he : e = p := by omega
    have hN' : (N : ℚ) = (2 : ℚ) ^ (p : Int) := le_antisymm hNq (he ▸ h1)
    refine main (2 ^ (p - 1)) ?_
    rw [hN', two_zpow_mul, he]
    push_cast
    rw [show ((p : Int) + ((p : Int) - 1 - p)) = ((p - 1 : Nat) : Int) by omega, zpow_natCast]

theorem roundBits_int (p : Nat) (N : Int) (hN : |N| ≤ 2 ^ p) (hp : 0 < p) : roundBits p N = N := by
  rcases abs_cases N with ⟨h, h0⟩ | ⟨h, h0⟩
  · obtain ⟨k, rfl⟩ := Int.eq_ofNat_of_zero_le h0
    have := roundBits_nat p k (by rw [h] at hN; exact_mod_cast hN) hp
    simpa using this
  · obtain ⟨k, hk⟩ := Int.eq_ofNat_of_zero_le (show 0 ≤ -N by omega)
    have := roundBits_nat p k (by rw [h, hk] at hN; exact_mod_cast hN) hp
    have hNk : N = -(k : Int) := by omega
    rw [hNk]
    push_cast
    rw [roundBits_neg, this]

theorem roundBits_pos_bounds (p : Nat) (hp : 0 < p) {q : ℚ} (hq : 0 < q) {e : Int} (h1 : (2 : ℚ) ^ e ≤ q) (h2 : q < (2 : ℚ) ^ (e + 1)) :
    (2 : ℚ) ^ e ≤ roundBits p q ∧ roundBits p q ≤ (2 : ℚ) ^ (e + 1) := by
  obtain ⟨e', m, g1, g2, g3, g4⟩ := roundBits_spec p hq
  have hee : e' = e := by
    have a := (zpow_lt_zpow_iff_right₀ (by norm_num : (1 : ℚ) < 2)).1 (g1.trans_lt h2)
    have b := (zpow_lt_zpow_iff_right₀ (by norm_num : (1 : ℚ) < 2)).1 (h1.trans_lt g2)
    omega
  subst hee
  have hz : (0 : ℚ) < (2 : ℚ) ^ (e' + 1 - (p : Int)) := by positivity
  have hz2 : (0 : ℚ) < (2 : ℚ) ^ ((p : Int) - 1 - e') := by positivity
  have l1 : 2 ^ (p - 1) ≤ m := by
    refine nearest_ge g4 ?_
    push_cast
    calc (2 : ℚ) ^ (p - 1) = (2 : ℚ) ^ e' * (2 : ℚ) ^ ((p : Int) - 1 - e') := by
          rw [two_zpow_mul, show e' + ((p : Int) - 1 - e') = ((p - 1 : Nat) : Int) by omega, zpow_natCast]
      _ ≤ q * (2 : ℚ) ^ ((p : Int) - 1 - e') := mul_le_mul_of_nonneg_right h1 hz2.le
  have l2 : m ≤ 2 ^ p := by
    refine nearest_le g4 ?_
    push_cast
    calc q * (2 : ℚ) ^ ((p : Int) - 1 - e') ≤ (2 : ℚ) ^ (e' + 1) * (2 : ℚ) ^ ((p : Int) - 1 - e') :=
          mul_le_mul_of_nonneg_right h2.le hz2.le
      _ = (2 : ℚ) ^ p := by
          rw [two_zpow_mul, show e' + 1 + ((p : Int) - 1 - e') = (p : Int) by ring, zpow_natCast]
  rw [g3]
  constructor
  · calc (2 : ℚ) ^ e' = ((2 ^ (p - 1) : Nat) : ℚ) * (2 : ℚ) ^ (e' + 1 - (p : Int)) := by
          push_cast
          rw [← zpow_natCast, two_zpow_mul]; congr 1; omega
      _ ≤ _ := mul_le_mul_of_nonneg_right (by exact_mod_cast l1) hz.le
  · calc (m : ℚ) * (2 : ℚ) ^ (e' + 1 - (p : Int)) ≤ ((2 ^ p : Nat) : ℚ) * (2 : ℚ) ^ (e' + 1 - (p : Int)) :=
          mul_le_mul_of_nonneg_right (by exact_mod_cast l2) hz.le
      _ = (2 : ℚ) ^ (e' + 1) := by
          push_cast
          rw [← zpow_natCast, two_zpow_mul]; congr 1; ring

theorem roundBits_nonneg (p : Nat) (hp : 0 < p) {q : ℚ} (hq : 0 ≤ q) : 0 ≤ roundBits p q := by
  rcases hq.lt_or_eq with h | h
  · obtain ⟨e, m, h1, h2, _, _⟩ := roundBits_spec p h
    exact le_trans (by positivity) (roundBits_pos_bounds p hp h h1 h2).1
  · rw [← h, roundBits_zero]

theorem roundBits_mono (p : Nat) (hp : 0 < p) {x y : ℚ} (h : x ≤ y) : roundBits p x ≤ roundBits p y := by
  have pos : ∀ x y : ℚ, 0 < x → x < y → roundBits p x ≤ roundBits p y := by
    intro x y hx hxy
    have hy := hx.trans hxy
    obtain ⟨e, m, a1, a2, a3, a4⟩ := roundBits_spec p hx
    obtain ⟨f, n, b1, b2, b3, b4⟩ := roundBits_spec p hy
    have hef : e ≤ f := by
      have := (zpow_lt_zpow_iff_right₀ (by norm_num : (1 : ℚ) < 2)).1 (a1.trans_lt (hxy.trans b2))
      omega
    rcases hef.lt_or_eq with hlt | heq
    · have := (roundBits_pos_bounds p hp hx a1 a2).2
      have h3 := (roundBits_pos_bounds p hp hy b1 b2).1
      have h4 : (2 : ℚ) ^ (e + 1) ≤ (2 : ℚ) ^ f := zpow_le_zpow_right₀ (by norm_num) (by omega)
      linarith
    · subst heq
      have hz2 : (0 : ℚ) < (2 : ℚ) ^ ((p : Int) - 1 - e) := by positivity
      have := nearest_mono a4 b4 (mul_lt_mul_of_pos_right hxy hz2)
      rw [a3, b3]
      exact mul_le_mul_of_nonneg_right (by exact_mod_cast this) (by positivity)
  rcases h.lt_or_eq with hlt | heq
  swap
  · rw [heq]
  rcases lt_or_ge 0 x with hx | hx
  · exact pos x y hx hlt
  rcases lt_or_ge y 0 with hy | hy
  · have := pos (-y) (-x) (by linarith) (by linarith)
    rw [roundBits_neg, roundBits_neg] at this
    linarith
  · have h1 := roundBits_nonneg p hp (q := -x) (by linarith)
    rw [roundBits_neg] at h1
    linarith [roundBits_nonneg p hp hy]

end Rounding

/-! ## Python's floats -/

theorem binary64_err (q : ℚ) : |binary64 q - q| ≤ |q| / 2 ^ 53 := Rounding.roundBits_err 53 q
theorem binary64_int {N : Int} (h : |N| ≤ 2 ^ 53) : binary64 N = N := Rounding.roundBits_int 53 N h (by norm_num)
theorem binary64_mono {x y : ℚ} (h : x ≤ y) : binary64 x ≤ binary64 y := Rounding.roundBits_mono 53 (by norm_num) h
theorem binary64_neg (q : ℚ) : binary64 (-q) = -binary64 q := Rounding.roundBits_neg 53 q
theorem binary64_zero : binary64 0 = 0 := Rounding.roundBits_zero 53
theorem binary64_nonneg {q : ℚ} (h : 0 ≤ q) : 0 ≤ binary64 q := Rounding.roundBits_nonneg 53 (by norm_num) h
theorem binary32_err (q : ℚ) : |binary32 q - q| ≤ |q| / 2 ^ 24 := Rounding.roundBits_err 24 q
theorem binary32_int {N : Int} (h : |N| ≤ 2 ^ 24) : binary32 N = N := Rounding.roundBits_int 24 N h (by norm_num)
theorem binary32_mono {x y : ℚ} (h : x ≤ y) : binary32 x ≤ binary32 y := Rounding.roundBits_mono 24 (by norm_num) h
theorem binary32_nonneg {q : ℚ} (h : 0 ≤ q) : 0 ≤ binary32 q := Rounding.roundBits_nonneg 24 (by norm_num) h

end Verif

import Mathlib.Data.Rat.Floor
/-!
# Floating point

Python's `float` is IEEE binary64 and JAX computes in binary32. Where the difference to exact arithmetic matters, the model
takes the rounding as a parameter `fl : ℚ → ℚ` applied to the result of every operation; `id` is exact arithmetic,
`binary64` is what the hardware does. Overflow, subnormal numbers and signed zeros are not modelled.
-/

namespace Verif

/-- The integer nearest to `n / d`, ties to even. -/
def roundEven (n d : Nat) : Nat :=
  if 2 * (n % d) < d then n / d
  else if d < 2 * (n % d) then n / d + 1
  else if (n / d) % 2 = 0 then n / d
  else n / d + 1

/-- `n / d` rounded to `p` significant bits. -/
def roundPos (p n d : Nat) : ℚ :=
  if n = 0 then 0
  else
    let e : Int := (Nat.log2 n : Int) - Nat.log2 d
    let e : Int := if (if 0 ≤ e then d * 2 ^ e.toNat ≤ n else d ≤ n * 2 ^ (-e).toNat) then e else e - 1
    let s : Int := (p : Int) - 1 - e
    if 0 ≤ s then mkRat (roundEven (n * 2 ^ s.toNat) d) (2 ^ s.toNat)
    else ((roundEven n (d * 2 ^ (-s).toNat) * 2 ^ (-s).toNat : Nat) : ℚ)

/-- Rounding to `p` significant bits, to nearest, ties to even. -/
def roundBits (p : Nat) (q : ℚ) : ℚ :=
  if q < 0 then -(roundPos p (-q).num.toNat q.den) else roundPos p q.num.toNat q.den

/-- Rounding of Python floats. -/
def binary64 (q : ℚ) : ℚ := roundBits 53 q

/-- Rounding of JAX's default floats. -/
def binary32 (q : ℚ) : ℚ := roundBits 24 q

/-- Python's `int(x)`: towards zero. -/
def trunc (q : ℚ) : Int := if q < 0 then -⌊-q⌋ else ⌊q⌋

end Verif

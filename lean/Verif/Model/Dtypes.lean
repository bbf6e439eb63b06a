import Verif.Model.Rounding
/-!
# Number types of the stored data

What happens to the numbers of recorded images and flow fields between the files and the batch of the real sampler:
`np.stack` brings the samples of a batch to a common type (`scheduler/base.py` lines 232-236), and the sampler converts
the result to single precision (`sampler/real.py` lines 51-53). Simplifications: floating point numbers are finite, of
unbounded exponent (no overflow, no subnormal numbers); structured, complex and extended types are left out.
-/

namespace Verif.Dtypes
open Verif

/-- The number types of NumPy arrays that hold flow fields and images. -/
inductive DType where
  | bool | u8 | u16 | u32 | u64 | i8 | i16 | i32 | i64 | f16 | f32 | f64
  deriving DecidableEq, Repr

/-- `np.can_cast(d, t, casting="safe")`, the relation on which the common type of `np.stack` rests (base.py lines 232-236). -/
def safe : DType → DType → Bool
  | .bool, _ => true
  | .u8, t => t ∈ [.u8, .u16, .u32, .u64, .i16, .i32, .i64, .f16, .f32, .f64]
  | .u16, t => t ∈ [.u16, .u32, .u64, .i32, .i64, .f32, .f64]
  | .u32, t => t ∈ [.u32, .u64, .i64, .f64]
  | .u64, t => t ∈ [.u64, .f64]
  | .i8, t => t ∈ [.i8, .i16, .i32, .i64, .f16, .f32, .f64]
  | .i16, t => t ∈ [.i16, .i32, .i64, .f32, .f64]
  | .i32, t => t ∈ [.i32, .i64, .f64]
  | .i64, t => t ∈ [.i64, .f64]
  | .f16, t => t ∈ [.f16, .f32, .f64]
  | .f32, t => t ∈ [.f32, .f64]
  | .f64, t => t ∈ [.f64]

/-- A number as an integer of `n` bits of which the least is `lo`: digits after the point and beyond the bits are lost. -/
def wrap (lo : Int) (n : Nat) (x : ℚ) : ℚ := ((lo + (⌊x⌋ - lo) % 2 ^ n : Int) : ℚ)

/-- Conversion of a number when `np.stack` copies a sample into the batch of type `t` (base.py lines 232-236). -/
def cast : DType → ℚ → ℚ
  | .bool, x => if x = 0 then 0 else 1
  | .u8, x => wrap 0 8 x
  | .u16, x => wrap 0 16 x
  | .u32, x => wrap 0 32 x
  | .u64, x => wrap 0 64 x
  | .i8, x => wrap (-2 ^ 7) 8 x
  | .i16, x => wrap (-2 ^ 15) 16 x
  | .i32, x => wrap (-2 ^ 31) 32 x
  | .i64, x => wrap (-2 ^ 63) 64 x
  | .f16, x => roundBits 11 x
  | .f32, x => binary32 x
  | .f64, x => binary64 x

/-- `jnp.array(a, dtype=jnp.float32)` on a number of an array of type `t` (real.py lines 51-53). Without 64-bit mode JAX
first narrows integers of 64 bits to 32 bits; what comes out of these is the parameter `wide`. -/
def toSingle (wide : ℚ → ℚ) : DType → ℚ → ℚ
  | .u64, x => wide x
  | .i64, x => wide x
  | _, x => binary32 x

/-- The rows of a batch of the real sampler: `np.stack` of the samples, whose common type is `result` of their types,
converted to single precision (base.py lines 232-236, real.py lines 51-53). A sample is its type and its numbers. -/
def rows (result : List DType → DType) (wide : ℚ → ℚ) (batch : List (DType × List ℚ)) : List (List ℚ) :=
  batch.map (fun r => r.2.map (fun x => toSingle wide (result (batch.map Prod.fst)) (cast (result (batch.map Prod.fst)) x)))

end Verif.Dtypes

import Verif.Model.Dtypes
/-!
# Specification vocabulary for the number types of the stored data
-/

namespace Verif.Dtypes
open Verif

/-- An integer in a range. -/
def IntIn (lo hi : Int) (x : ℚ) : Prop := ∃ n : Int, lo ≤ n ∧ n ≤ hi ∧ x = n

/-- A floating point number with `p` significant bits. -/
def Float (p : Nat) (x : ℚ) : Prop := ∃ m e : Int, |m| ≤ 2 ^ p ∧ x = m * (2 : ℚ) ^ e

/-- The numbers an array of the given type can hold. -/
def Holds : DType → ℚ → Prop
  | .bool => IntIn 0 1
  | .u8 => IntIn 0 (2 ^ 8 - 1)
  | .u16 => IntIn 0 (2 ^ 16 - 1)
  | .u32 => IntIn 0 (2 ^ 32 - 1)
  | .u64 => IntIn 0 (2 ^ 64 - 1)
  | .i8 => IntIn (-2 ^ 7) (2 ^ 7 - 1)
  | .i16 => IntIn (-2 ^ 15) (2 ^ 15 - 1)
  | .i32 => IntIn (-2 ^ 31) (2 ^ 31 - 1)
  | .i64 => IntIn (-2 ^ 63) (2 ^ 63 - 1)
  | .f16 => Float 11
  | .f32 => Float 24
  | .f64 => Float 53

/-- All types but the integers of 64 bits and the unsigned ones of 32 bits. -/
def Usual (d : DType) : Prop := d ≠ .u32 ∧ d ≠ .u64 ∧ d ≠ .i64

/-- What NumPy promises of the common type of some arrays: each can safely be cast to it, and it is a usual one if all
of them are. -/
structure CommonType (result : List DType → DType) : Prop where
  bound : ∀ ds, ∀ d ∈ ds, safe d (result ds) = true
  usual : ∀ ds, (∀ d ∈ ds, Usual d) → Usual (result ds)

/-- Every number of a sample is one its type can hold. -/
def Stored (r : DType × List ℚ) : Prop := ∀ x ∈ r.2, Holds r.1 x

end Verif.Dtypes

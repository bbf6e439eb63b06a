import Verif.Model.PyVal
import Verif.Model.Types
/-!
# What the documentation of `ImageGenerationSpecification` asks for

Taken from the error messages and the class documentation, not from the checks.
-/

namespace Verif.Types.Spec
open Verif

/-- A positive integer. -/
def PositiveInt (v : Val) : Prop := ∃ z : Int, v.asInt = some z ∧ 0 < z

/-- A real number, possibly infinite. NaN is not a number. -/
def IsNumber (v : Val) (x : Num) : Prop := v.asNum = some x ∧ x ≠ .nan

/-- `x ≤ y` on the extended number line. -/
def Le : Num → Num → Prop
  | .neginf, y => y ≠ .nan
  | .fin a, .fin b => a ≤ b
  | x, .inf => x ≠ .nan
  | _, _ => False

/-- `x < y` on the extended number line. -/
def Lt (x y : Num) : Prop := Le x y ∧ x ≠ y

/-- "a non-negative number" -/
def NonNegative (v : Val) : Prop := ∃ x, IsNumber v x ∧ Le (.fin 0) x

/-- "a positive number" -/
def Positive (v : Val) : Prop := ∃ x, IsNumber v x ∧ Lt (.fin 0) x

/-- "between 0 and 1" -/
def Probability (v : Val) : Prop := ∃ x, IsNumber v x ∧ Le (.fin 0) x ∧ Le x (.fin 1)

/-- "a tuple of two ..." -/
def TupleOfTwo (P : Val → Prop) (v : Val) : Prop := ∃ a b, v = .tuple [a, b] ∧ P a ∧ P b

/-- "(min, max) with min <= max" -/
def Ordered (v : Val) : Prop := ∃ a b x y, v = .tuple [a, b] ∧ IsNumber a x ∧ IsNumber b y ∧ Le x y

/-- "a list of (min, max) tuples", not empty, each satisfying `P`. -/
def RangesWith (P : Num → Num → Prop) (v : Val) : Prop :=
  ∃ l, v = .list l ∧ l ≠ [] ∧ ∀ r ∈ l, ∃ a b x y, r = .tuple [a, b] ∧ IsNumber a x ∧ IsNumber b y ∧ P x y

/-- All documented constraints except those on `noise_gaussian_std` and `dt`. -/
structure MostlyValid (s : Types.Spec) : Prop where
  batchSize : PositiveInt s.batchSize
  imageShape : TupleOfTwo PositiveInt s.imageShape
  imgOffset : TupleOfTwo NonNegative s.imgOffset
  density : TupleOfTwo NonNegative s.seedingDensityRange
  densityOrder : Ordered s.seedingDensityRange
  pHide1 : Probability s.pHide1
  pHide2 : Probability s.pHide2
  diameters : RangesWith (fun x y => Lt (.fin 0) x ∧ Le x y) s.diameterRanges
  diameterVar : NonNegative s.diameterVar
  intensities : RangesWith (fun x y => Lt (.fin 0) x ∧ Le x y) s.intensityRanges
  intensityVar : NonNegative s.intensityVar
  rhos : RangesWith (fun x y => Lt (.fin (-1)) x ∧ Le x y ∧ Lt y (.fin 1)) s.rhoRanges
  rhoVar : NonNegative s.rhoVar
  noiseUniform : NonNegative s.noiseUniform
  noiseGaussianMean : NonNegative s.noiseGaussianMean

/-- All documented constraints. -/
def Valid (s : Types.Spec) : Prop := MostlyValid s ∧ NonNegative s.noiseGaussianStd ∧ Positive s.dt

/-- The fields that are compared without a type check hold numbers: the probabilities and, as far as they are pairs,
the entries of the three range lists. -/
def Comparable (s : Types.Spec) : Prop :=
  (∃ x, s.pHide1.asNum = some x) ∧ (∃ x, s.pHide2.asNum = some x) ∧
  ∀ v ∈ [s.diameterRanges, s.intensityRanges, s.rhoRanges], ∀ l, v = .list l →
    ∀ a b, .tuple [a, b] ∈ l → (∃ x, a.asNum = some x) ∧ (∃ y, b.asNum = some y)

/-- The value is the float NaN. -/
def IsNaN (v : Val) : Prop := v.asNum = some .nan

end Verif.Types.Spec

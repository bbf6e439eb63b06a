import Verif.Model.Sanity
/-!
# What the configuration helpers promise
-/

namespace Verif.Spec
open Verif Sanity

/-- `v = (x, y)` is the velocity at some point of the first dataset of the file. -/
def Velocity (read : Reader) (file : String) (v : Num × Num) : Prop :=
  ∃ shape points rest, read file = .ok (.data shape points :: rest) ∧ ∃ p ∈ points, p[0]? = some v.1 ∧ p[1]? = some v.2

/-- A dataset of velocities: `(B, H, W, C)` with at least two channels or `(H, W, 2)`, with at least one point, every point with
one number per channel. -/
def VelocityData : Content → Prop
  | .group => False
  | .data shape points => ∃ C, shape.getLast? = some C ∧ (shape.length = 4 ∧ 2 ≤ C ∨ shape.length = 3 ∧ C = 2) ∧ points ≠ [] ∧
      ∀ p ∈ points, p.length = C

/-- The arrays in the files are arrays: every point has as many numbers as the last axis says. -/
def ReadsArrays (read : Reader) : Prop :=
  ∀ file shape points rest, read file = .ok (.data shape points :: rest) → ∀ p ∈ points, p.length = shape.getLastD 0

/-- `s` are the exact bounds of the velocities `V`: lower and upper bounds of each component, all attained. -/
structure ExactBounds (V : Num × Num → Prop) (s : Speeds) : Prop where
  bounds : ∀ v, V v → s.minX.le v.1 = true ∧ v.1.le s.maxX = true ∧ s.minY.le v.2 = true ∧ v.2.le s.maxY = true
  minX : ∃ v, V v ∧ v.1 = s.minX
  maxX : ∃ v, V v ∧ v.1 = s.maxX
  minY : ∃ v, V v ∧ v.2 = s.minY
  maxY : ∃ v, V v ∧ v.2 = s.maxY

/-- The value of `key` after the updates: that of the update if there is one, else the one before. -/
def updated (config updates : Config) (key : String) : Option Val :=
  match get updates key with
  | some v => some v
  | none => get config key

end Verif.Spec

import Verif.Model.NonFinite
/-!
# Finite arguments (C167)
-/

namespace Verif.NonFinite
open Verif

/-- A number that is neither infinite nor NaN. -/
def Finite (x : Num) : Prop := ∃ q : ℚ, x = .fin q

/-- Arguments that are numbers in the usual sense. -/
def ofFinite (g : Geometry.Args) (velocitiesPerPixel : ℚ) : Args :=
  { imageShape := g.imageShape, imgOffset := (.fin g.imgOffset.1, .fin g.imgOffset.2), dt := .fin g.dt
    flowFieldSize := (.fin g.flowFieldSize.1, .fin g.flowFieldSize.2), flowShape := g.flowShape, resolution := .fin g.resolution
    velocitiesPerPixel := .fin velocitiesPerPixel, maxSpeedX := .fin g.maxSpeedX, maxSpeedY := .fin g.maxSpeedY, minSpeedX := .fin g.minSpeedX
    minSpeedY := .fin g.minSpeedY, maxDiameter := .fin g.maxDiameter, hidden := g.hidden }

end Verif.NonFinite

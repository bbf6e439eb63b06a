import Verif.Model.Adapter
import Verif.Model.Render
/-!
# Exchanging rows and columns (C168)
-/

namespace Verif.Axes
open Verif

variable {K : Type*}

/-- An image, or any array of two axes, with rows and columns exchanged. -/
def flip {α : Type*} (image : Nat → Nat → α) : Nat → Nat → α := fun j i => image i j

/-- A flow field with rows and columns exchanged, and with them the components of its vectors. -/
def flipFlow (flow : Nat → Nat → K × K) : Nat → Nat → K × K := fun j i => (flow i j).swap

/-- The same with its shape. -/
def flipField (f : Adapter.Field2 K) : Adapter.Field2 K := { H := f.W, W := f.H, at_ := flipFlow f.at_ }

/-- A particle with its coordinates exchanged. -/
def flipParticle (p : Render.Particle K) : Render.Particle K := { y := p.x, x := p.y, dx := p.dy, dy := p.dx, rho := p.rho, amp := p.amp }

/-- The arguments of the sampler with all pairs and both speeds exchanged. -/
def flipArgs (a : Geometry.Args) : Geometry.Args :=
  { imageShape := a.imageShape.swap, imgOffset := a.imgOffset.swap, dt := a.dt, flowFieldSize := a.flowFieldSize.swap, flowShape := a.flowShape.swap
    resolution := a.resolution, maxSpeedX := a.maxSpeedY, maxSpeedY := a.maxSpeedX, minSpeedX := a.minSpeedY, minSpeedY := a.minSpeedX
    maxDiameter := a.maxDiameter, hidden := a.hidden }

/-- The stored geometry with all pairs exchanged. -/
def flipGeo (g : Geometry.Geo) : Geometry.Geo :=
  { boundsOffset := g.boundsOffset.swap, imgOffset := g.imgOffset.swap, bounds := g.bounds.swap, padding := g.padding.swap, res := g.res.swap }

/-- The arguments of the adapter with all pairs exchanged. -/
def flipAdapter (a : Adapter.Args K) : Adapter.Args K :=
  { newShape := a.newShape.swap, imageShape := a.imageShape.swap, imgOffset := a.imgOffset.swap, resolution := a.resolution, resX := a.resY, resY := a.resX
    bounds := a.bounds.swap, boundsOffset := a.boundsOffset.swap, batchSize := a.batchSize, pixels := a.pixels, dt := a.dt, padding := a.padding.swap }

end Verif.Axes

import Verif.Model.Synthetic
/-!
# Units of length and time

The same experiment written down in other units: a length that was the number `x` becomes `c * x`, a time that was `t` becomes `τ * t`.
-/

namespace Verif.Units
open Verif

/-- The arguments of a synthetic sampler in the other units: offset and size of the flow field are lengths, `dt` is a time, speeds are
lengths per time, and the resolution is pixels per length. -/
def args (c τ : ℚ) (a : Synthetic.Args) : Synthetic.Args :=
  { a with
    spec := { a.spec with dt := τ * a.spec.dt }
    imgOffset := (c * a.imgOffset.1, c * a.imgOffset.2)
    flowFieldSize := (c * a.flowFieldSize.1, c * a.flowFieldSize.2)
    resolution := a.resolution / c
    maxSpeedX := c / τ * a.maxSpeedX
    maxSpeedY := c / τ * a.maxSpeedY
    minSpeedX := c / τ * a.minSpeedX
    minSpeedY := c / τ * a.minSpeedY }

/-- A flow field of velocities with every velocity multiplied by `s`. -/
def field (s : ℚ) (f : Adapter.Field2 ℚ) : Adapter.Field2 ℚ := { f with at_ := fun j i => (s * (f.at_ j i).1, s * (f.at_ j i).2) }

/-- A scheduler that delivers what another one delivers, changed by `φ`. -/
def sched {S B B' : Type} (φ : B → B') (sch : Sampler.ISched S B) : Sampler.ISched S B' where
  getBatch n s := (sch.getBatch n s).map (fun q => (q.1.map φ, q.2))
  reset := sch.reset
  episodic := sch.episodic

/-- A batch of flow fields with every flow field changed by `φ`. -/
def flowBatch {F F' : Type} (φ : F → F') (b : Sampler.FlowBatch F) : Sampler.FlowBatch F' := ⟨b.flows.map φ, b.mask, b.files⟩

/-- What a call shows, with every reported flow field changed by `ψ` and everything else as it is. -/
def out {O O' I : Type} (ψ : O → O') : Sampler.Out (Sampler.OutBatch O I) → Sampler.Out (Sampler.OutBatch O' I)
  | .batch b => .batch ⟨b.images, b.flows.map ψ, b.mask, b.files, b.done⟩
  | .raised e => .raised e
  | .done => .done

end Verif.Units

import Verif.Model.Synthetic
/-!
# Comparing what two synthetic samplers show
-/

namespace Verif.Compare
open Verif

/-- Image pairs of the same sizes whose pixels are related by `P₁` in the first image and by `P₂` in the second, with the same generation parameters but for the densities,
which are related by `D`, and the ranges of brightness, which are related by `Q`. -/
structure Pixels (P₁ P₂ D : ℚ → ℚ → Prop) (Q : ℚ × ℚ → ℚ × ℚ → Prop) (p p' : Synthetic.Pair) : Prop where
  size1 : (p'.first.H, p'.first.W) = (p.first.H, p.first.W)
  size2 : (p'.second.H, p'.second.W) = (p.second.H, p.second.W)
  first : ∀ j i : Nat, P₁ (p.first.at_ j i) (p'.first.at_ j i)
  second : ∀ j i : Nat, P₂ (p.second.at_ j i) (p'.second.at_ j i)
  density : D p.density p'.density
  diameterRange : p'.diameterRange = p.diameterRange
  intensityRange : Q p.intensityRange p'.intensityRange
  rhoRange : p'.rhoRange = p.rhoRange

/-- The same outcome of a call, but that the image pairs are related by `P`: equally many, in order. -/
def Alike (P : Synthetic.Pair → Synthetic.Pair → Prop) : Sampler.Out (Sampler.OutBatch (Adapter.Field2 ℚ) Synthetic.Pair) →
    Sampler.Out (Sampler.OutBatch (Adapter.Field2 ℚ) Synthetic.Pair) → Prop
  | .batch b, .batch b' => List.Forall₂ P b.images b'.images ∧ b'.flows = b.flows ∧ b'.mask = b.mask ∧ b'.files = b.files ∧ b'.done = b.done
  | .raised e, .raised e' => e' = e
  | .done, .done => True
  | _, _ => False

/-- Two samplers, which differ in the specification, show the same over every history of calls on every scheduler, but that the image pairs are related by `P`. -/
def AlwaysAlike (P : Synthetic.Pair → Synthetic.Pair → Prop) (fl fl32 : ℚ → ℚ) (R : Generate.Rand ℚ) (a a' : Synthetic.Args) (m : Synthetic.Made) : Prop :=
  ∀ (S : Type) (sch : Sampler.ISched S (Sampler.FlowBatch (Adapter.Field2 ℚ))) (s : S) (ops : List Sampler.Op),
    let r := (Sampler.run sch (Synthetic.gen fl fl32 R a m) m.cfg ops (Sampler.init m.cfg s)).map Prod.fst
    let r' := (Sampler.run sch (Synthetic.gen fl fl32 R a' m) m.cfg ops (Sampler.init m.cfg s)).map Prod.fst
    (r = none ∧ r' = none) ∨ ∃ outs outs', r = some outs ∧ r' = some outs' ∧ List.Forall₂ (Alike P) outs outs'

end Verif.Compare

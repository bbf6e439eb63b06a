import Verif.Spec.Units
/-!
# Adding flow fields, and what cannot be seen of them
-/

namespace Verif.Superposition
open Verif

/-- Two flow fields of the same shape. -/
structure Two where
  H : Nat
  W : Nat
  one : Nat → Nat → ℚ × ℚ
  other : Nat → Nat → ℚ × ℚ

/-- The flow field whose velocities are `α` times those of the one plus `β` times those of the other. -/
def Two.combined (α β : ℚ) (t : Two) : Adapter.Field2 ℚ :=
  ⟨t.H, t.W, fun j i => (α * (t.one j i).1 + β * (t.other j i).1, α * (t.one j i).2 + β * (t.other j i).2)⟩

/-- The one flow field. -/
def Two.fst (t : Two) : Adapter.Field2 ℚ := ⟨t.H, t.W, t.one⟩

/-- The other flow field. -/
def Two.snd (t : Two) : Adapter.Field2 ℚ := ⟨t.H, t.W, t.other⟩

/-- Three outcomes of the same call, the flow fields reported by the third being `α` times those of the first plus `β` times those of the
second, and masks, file names, flags and failures the same. -/
def Combined (α β : ℚ) (o o' c : Sampler.Out (Sampler.OutBatch (Adapter.Field2 ℚ) Synthetic.Pair)) : Prop :=
  match o, o', c with
  | .batch b, .batch b', .batch d =>
    (b.mask = d.mask ∧ b.files = d.files ∧ b.done = d.done ∧ b.images.length = d.images.length) ∧
    (b'.mask = d.mask ∧ b'.files = d.files ∧ b'.done = d.done ∧ b'.images.length = d.images.length) ∧
    b.flows.length = d.flows.length ∧ b'.flows.length = d.flows.length ∧
    ∀ (n : Nat) (f f' g : Adapter.Field2 ℚ), b.flows[n]? = some f → b'.flows[n]? = some f' → d.flows[n]? = some g →
      f.H = g.H ∧ f.W = g.W ∧ f'.H = g.H ∧ f'.W = g.W ∧
      ∀ j i, g.at_ j i = (α * (f.at_ j i).1 + β * (f'.at_ j i).1, α * (f.at_ j i).2 + β * (f'.at_ j i).2)
  | .raised e, .raised e', .raised x => e = x ∧ e' = x
  | .done, .done, .done => True
  | _, _, _ => False

/-- What a call shows apart from the second images and the velocities: of every image pair the first image and the drawn parameters, of
every reported flow field the shape, and everything else. -/
def unmoved : Sampler.Out (Sampler.OutBatch (Adapter.Field2 ℚ) Synthetic.Pair) →
    Sampler.Out (Sampler.OutBatch (Nat × Nat) (Generate.Img ℚ × (Nat × Nat) × ℚ × (ℚ × ℚ) × (ℚ × ℚ) × (ℚ × ℚ)))
  | .batch b => .batch ⟨b.images.map (fun p => (p.first, (p.second.H, p.second.W), p.density, p.diameterRange, p.intensityRange, p.rhoRange)),
      b.flows.map (fun f => (f.H, f.W)), b.mask, b.files, b.done⟩
  | .raised e => .raised e
  | .done => .done

end Verif.Superposition

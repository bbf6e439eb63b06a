import Verif.Model.Saved
/-!
# The order in which the pictures of a run are to appear
-/

namespace Verif.Saved

/-- The place of a picture among those of its sample. -/
def Part.place : Part → Nat
  | .image1 => 0
  | .image2 => 1
  | .quiver => 2

/-- The picture `a` comes before `b`: earlier batch, or the same batch and an earlier sample, or the same sample and an earlier picture. -/
def Before (a b : Nat × Nat × Part) : Prop :=
  a.1 < b.1 ∨ (a.1 = b.1 ∧ (a.2.1 < b.2.1 ∨ (a.2.1 = b.2.1 ∧ a.2.2.place < b.2.2.place)))

/-- The pictures that a run may be asked for: those of the first `num` samples of a batch that the sampler delivers. -/
def Wanted (next : Nat → Scripts.NextRes) (num : Int) (w : Nat × Nat × Part) : Prop :=
  ∃ size, next w.1 = .ok size ∧ w.2.1 < size ∧ (w.2.1 : Int) < num

end Verif.Saved

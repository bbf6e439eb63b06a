import Verif.Model.HistogramSingle
/-!
# Orders of additions
-/

namespace Verif.HistogramSingle

/-- Every summand is added, once: a bin of `n` pixels has `n` ones and the initial zero, entry `k` of a cumulative sum has `k + 1` summands. -/
def AddsAll (o : Order) : Prop := (∀ i n, (o.bin i n).leaves = n + 1) ∧ ∀ k, (o.upTo k).leaves = k + 1

/-- `n` additions one after the other, from the left. -/
def oneByOne : Nat → Shape
  | 0 => .leaf
  | n + 1 => .add (oneByOne n) .leaf

/-- The device that makes all additions one after the other. -/
def sequential : Order := { bin := fun _ n => oneByOne n, upTo := oneByOne }

end Verif.HistogramSingle

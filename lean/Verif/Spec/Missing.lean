import Verif.Model.Missing
/-!
# Specification vocabulary for flow fields with missing vectors
-/

namespace Verif.Missing
open Verif Interp Adapter

variable {K : Type*} [Field K] [LinearOrder K] [FloorRing K]

/-- The coordinate on an axis of the (padded) flow field, counted in grid points, to which entry `i` of the reported flow belongs: `n` entries
are spread evenly from the grid point where the image begins over the length of the image; beyond the field, the last grid point counts. -/
def reportedAt (offset res : K) (imgOffset imageSide : Nat) (resolution : K) (size n i : Nat) : K :=
  let start := offset * res + imgOffset / resolution * res
  let stop := start + imageSide / resolution * res - 1
  let x := if n ≤ 1 then start else start + i * ((stop - start) / (n - 1 : K))
  min (max x 0) ((size : K) - 1)

/-- The row to which row `j` of the reported flow belongs. -/
def rowOf (a : Args K) (f : FieldN K) (j : Nat) : K :=
  reportedAt a.boundsOffset.1 a.resY a.imgOffset.1 a.imageShape.1 a.resolution (f.H + a.padding.1) a.newShape.1 j

/-- The column to which column `i` of the reported flow belongs. -/
def colOf (a : Args K) (f : FieldN K) (i : Nat) : K :=
  reportedAt a.boundsOffset.2 a.resX a.imgOffset.2 a.imageShape.2 a.resolution (f.W + a.padding.2) a.newShape.2 i

/-- One of the two components of a vector. -/
def comp {α : Type*} (second : Bool) (v : α × α) : α := if second then v.2 else v.1

/-- The component is missing at row `r` and column `c` of the padded field (rows and columns before the first repeat the first). -/
def MissingAt (a : Args K) (f : FieldN K) (second : Bool) (r c : Nat) : Prop :=
  r < f.H + a.padding.1 ∧ c < f.W + a.padding.2 ∧ comp second (f.at_ (r - a.padding.1) (c - a.padding.2)) = none

/-- The flow field with the missing values replaced by those of `g`. -/
def filled (g : Nat → Nat → K × K) (f : FieldN K) : Field2 K :=
  { H := f.H, W := f.W, at_ := fun j i => ((f.at_ j i).1.getD (g j i).1, (f.at_ j i).2.getD (g j i).2) }

end Verif.Missing

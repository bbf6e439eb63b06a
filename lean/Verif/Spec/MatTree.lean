import Verif.Model.MatTree
/-!
# Specification for MAT files as data
-/

namespace Verif.Formats

mutual
/-- In every group the names are different, not empty and contain no '/' (HDF5's rules). -/
def H5.Named : H5 → Prop
  | .group l => Named l
  | _ => True

/-- The same for the items of a group. -/
def Named : List (String × H5) → Prop
  | [] => True
  | (n, it) :: r => (n ≠ "" ∧ '/' ∉ n.toList) ∧ n ∉ r.map Prod.fst ∧ it.Named ∧ Named r
end

/-- The dataset reached by following the names from a group. -/
def dataset? (items : List (String × H5)) : List String → Option (Arr Rat)
  | [] => none
  | [n] => match items.lookup n with
    | some (.dataset a) => some a
    | _ => none
  | n :: m :: ns => match items.lookup n with
    | some (.group g) => dataset? g (m :: ns)
    | _ => none

/-- A shape without its axes of length one. -/
def withoutOnes : List Nat → List Nat
  | [] => []
  | 1 :: l => withoutOnes l
  | n :: l => n :: withoutOnes l

/-- The variable `name` of a file, as the scheduler is meant to see it: from a legacy file without axes of length one. -/
def MatFile.var? (f : MatFile) (name : String) : Option (Arr Rat) :=
  match f with
  | .legacy vars => (vars.lookup name).map (fun a => ⟨withoutOnes a.shape, a.data⟩)
  | .hdf5 _ items => dataset? items [name]
  | .garbage => none

/-- A file that can be read: not garbage, and if it is an HDF5 file it obeys HDF5's naming rules. -/
def MatFile.Readable : MatFile → Prop
  | .legacy _ => True
  | .hdf5 _ items => Named items
  | .garbage => False

/-- `f` is what MATLAB writes into a file of version 7.3 for the array `a`: HDF5 lists the axes in the opposite order. -/
def ReversedAxes (a f : Arr Rat) : Prop :=
  f.shape = a.shape.reverse ∧ ∀ idx, f.at? idx.reverse = a.at? idx

end Verif.Formats

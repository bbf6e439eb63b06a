import Verif.Model.BaseInit
import Verif.Model.Formats
/-!
# The constructors of the three formats (`src/synthpix/scheduler/hdf5.py`, `mat.py`, `numpy.py`)
-/

namespace Verif.FormatInit
open Verif BaseInit

/-- A value passed as `output_shape`: a tuple whose items are integers (booleans count as 0 and 1) or something else
(`none`), or not a tuple. -/
inductive ShapeVal where
  | tuple (dims : List (Option Int))
  | other
  deriving DecidableEq, Repr

/-- `HDF5FlowFieldScheduler.__init__` (hdf5.py lines 39-41): the extension check runs over the argument, not over the
expanded list. -/
def hdf5 (fs : FS) (fileList randomize loop : Val) : Except Exc (List String × Bool × Bool) :=
  match init fs fileList randomize loop with
  | .error e => .error e
  | .ok q =>
    match fileList with
    | .list items =>
      match strings items with
      | some l =>
        match Formats.h5Check l with
        | .ok () => .ok q
        | .error e => .error e
      | none => .error .valueError
    | _ => .error .valueError

/-- The checks of `output_shape` (mat.py lines 60-64). -/
def shapeOk : ShapeVal → Bool
  | .tuple [some h, some w] => decide (0 < h) && decide (0 < w)
  | _ => false

/-- `MATFlowFieldScheduler.__init__` (mat.py lines 56-70). -/
def mat (fs : FS) (fileList randomize loop includeImages : Val) (outputShape : ShapeVal) :
    Except Exc (List String × Bool × Bool) :=
  match includeImages with
  | .bool _ =>
    if shapeOk outputShape then
      match init fs fileList randomize loop with
      | .error e => .error e
      | .ok q => if q.1.all (fun p => p.endsWith ".mat") then .ok q else .error .valueError
    else .error .valueError
  | _ => .error .valueError

/-- `NumpyFlowFieldScheduler.__init__` (numpy.py lines 52-77). The check of the images runs over the list in its shuffled
order; as it only reports whether all frames exist, and `ValueError` and `FileNotFoundError` are all it can raise, the
order matters for which of the two comes first only. -/
def numpy (fs : FS) (fileList randomize loop includeImages : Val) : Except Exc (List String × Bool × Bool) :=
  match includeImages with
  | .bool im =>
    match init fs fileList randomize loop with
    | .error e => .error e
    | .ok q =>
      if q.1.all (fun p => p.endsWith ".npy") then
        if im then
          match Formats.npCheckImages (fun p => fs.isFile (String.ofList p)) (q.1.map String.toList) with
          | .error e => .error e
          | .ok () => .ok q
        else .ok q
      else .error .valueError
  | _ => .error .valueError

end Verif.FormatInit

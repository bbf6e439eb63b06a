import Verif.Model.Exc
/-!
# Arrays

A minimal model of the NumPy arrays handled by the schedulers: a shape and the entries in row-major
order, with the two operations `np.stack` and `np.pad` that `get_batch` uses
(`src/synthpix/scheduler/base.py` lines 231-281).
-/

namespace Verif

/-- A NumPy array: its shape and its entries in row-major (C) order. -/
structure Arr (V : Type) where
  shape : List Nat
  data : List V
  deriving DecidableEq, Repr

namespace Arr
variable {V : Type}

/-- Number of entries of an array of the given shape. -/
def size (shape : List Nat) : Nat := shape.foldr (· * ·) 1

/-- The entries fill the shape exactly. Every NumPy array satisfies this. -/
def WF (a : Arr V) : Prop := a.data.length = size a.shape

instance (a : Arr V) : Decidable a.WF := inferInstanceAs (Decidable (_ = _))

/-- `np.stack(arrays)` along a new first axis (base.py lines 232, 234, 236): raises `ValueError` for an
empty sequence and for arrays of different shapes; otherwise the entries are laid out one after the
other. -/
def stack (as : List (Arr V)) : Except Exc (Arr V) :=
  match as with
  | [] => .error .valueError
  | a :: rest =>
    if rest.all (fun b => b.shape == a.shape) then
      .ok { shape := (rest.length + 1) :: a.shape, data := (a :: rest).flatMap Arr.data }
    else .error .valueError

/-- `np.pad(a, ((0, k), (0, 0), ..., (0, 0)), mode="constant", constant_values=0)` with `pairs` pad pairs
(base.py lines 262-281): raises `ValueError` (failed broadcast) unless the array has exactly `pairs`
axes; padding behind the first axis appends zeros in row-major order. -/
def padFirst (zero : V) (pairs : Nat) (k : Nat) (a : Arr V) : Except Exc (Arr V) :=
  if a.shape.length = pairs then
    match a.shape with
    | [] => .error .valueError
    | n :: rest => .ok { shape := (n + k) :: rest, data := a.data ++ List.replicate (k * size rest) zero }
  else .error .valueError

/-- `a[i]`: the `i`-th sub-array along the first axis. -/
def row (a : Arr V) (i : Nat) : Arr V :=
  { shape := a.shape.tail, data := (a.data.drop (i * size a.shape.tail)).take (size a.shape.tail) }

/-- The list of all sub-arrays along the first axis. -/
def rows (a : Arr V) : List (Arr V) := (List.range (a.shape.headD 0)).map a.row

/-- `np.zeros(shape)`. -/
def zeros (zero : V) (shape : List Nat) : Arr V := { shape := shape, data := List.replicate (size shape) zero }

end Arr
end Verif

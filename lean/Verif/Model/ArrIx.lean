import Verif.Model.Arr
/-!
# Entries of arrays

Indexing and pointwise construction of row-major arrays.
-/

namespace Verif.Arr
variable {V : Type}

/-- The position of the entry with the given index in row-major order; `none` unless there is one index in
range for every axis. -/
def offset : List Nat → List Nat → Option Nat
  | [], [] => some 0
  | n :: sh, i :: is => if i < n then (offset sh is).map (i * size sh + ·) else none
  | _, _ => none

/-- `a[i0, i1, ...]` for an index with one entry per axis. -/
def at? (a : Arr V) (idx : List Nat) : Option V := (offset a.shape idx).bind (fun k => a.data[k]?)

/-- The entries of the array of the given shape with `f idx` at index `idx`. -/
def buildData : (shape : List Nat) → (List Nat → V) → List V
  | [], f => [f []]
  | n :: sh, f => (List.range n).flatMap (fun i => buildData sh (fun is => f (i :: is)))

/-- The array of the given shape with `f idx` at index `idx`. -/
def build (shape : List Nat) (f : List Nat → V) : Arr V := ⟨shape, buildData shape f⟩

end Verif.Arr

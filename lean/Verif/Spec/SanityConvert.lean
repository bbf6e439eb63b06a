import Verif.Model.SanityConvert
/-!
# What a NumPy or JAX value stands for
-/

namespace Verif.Spec
open Verif Sanity SanityConvert

/-- The standard Python value of a value without parts. -/
def plainScal : Scal → Val
  | .std v => v
  | .npFloat x => .float x
  | .npInt z => .int z
  | .npBool b => .bool b

/-- The item of nested lists at the indices. -/
def itemAt : Val → List Nat → Option Val
  | v, [] => some v
  | .list l, i :: idx => (l[i]?).bind (fun w => itemAt w idx)
  | _, _ :: _ => none

/-- `v` is the standard value that `o` stands for: the same number, nested lists with the entries of the array at the same places, or the
list of what the items stand for. -/
inductive StandsFor : Obj → Val → Prop
  | scal (s : Scal) : StandsFor (.scal s) (plainScal s)
  | array (a : Arr Val) (v : Val) : (∀ idx : List Nat, idx.length = a.shape.length → itemAt v idx = a.at? idx) → StandsFor (.array a) v
  | seq (l : List Scal) : StandsFor (.seq l) (.list (l.map plainScal))

/-- The value of `key` after the updates: that of the update if there is one, else the one before. -/
def updatedObj (config updates : ObjConfig) (key : String) : Option Obj :=
  match getObj updates key with
  | some o => some o
  | none => getObj config key

end Verif.Spec

import Verif.Model.ForLoop
import Verif.Model.Episodic
import Verif.Model.Prefetch
/-!
# Which objects can be iterated (`src/synthpix/scheduler/`, `src/synthpix/sampler/base.py` lines 69-94)

Python's built-in `next(x)` needs a method `__next__` in the class of `x`; a `for` statement needs a method `__iter__` whose result has `__next__`.
-/

namespace Verif.Iteration
open Verif ForLoop

/-- The two methods of a class, as far as it has them. `__iter__` returns the object itself in all of them, after changing it as given. -/
structure Methods (S B : Type) where
  iter : Option (S → S)
  next : Option (S → Option (Except Exc B × S))

/-- `next(x)`: `TypeError` without `__next__`. -/
def pyNext {S B : Type} (m : Methods S B) (s : S) : Option (Except Exc B × S) :=
  match m.next with
  | none => some (.error .typeError, s)
  | some f => f s

/-- `for b in x: …`: `__iter__` first; `TypeError` if there is none or its result has no `__next__`. -/
def pyFor {S B : Type} (m : Methods S B) (brk : Nat → B → Bool) (fuel : Nat) (s : S) : Option (List B × Ending × S) :=
  match m.iter with
  | none => some ([], .raised .typeError, s)
  | some it =>
    match m.next with
    | none => some ([], .raised .typeError, it s)
    | some f => forLoop f brk fuel 0 (it s)

/-- The file schedulers: `__iter__` (base.py lines 133-139); neither base.py nor hdf5.py, mat.py, numpy.py, protocol.py defines `__next__` (the method that
returns single samples is called `_get_next`, base.py line 154). -/
def baseMethods (S B : Type) : Methods S B := ⟨some id, none⟩

/-- The episodic scheduler: `__iter__` (episodic.py lines 114-117), no `__next__`, although the example in the description of the class (lines 53-54)
calls `next`. -/
def episodicMethods (S Key B : Type) : Methods (Episodic.St S Key) B := ⟨some Episodic.iter, none⟩

/-- The prefetching scheduler (prefetch.py): neither. -/
def prefetchMethods (S B : Type) : Methods (Prefetch.St S B) B := ⟨none, none⟩

/-- The samplers: `__iter__` (sampler/base.py lines 69-71) and `__next__` (lines 73-94), given as `next`. -/
def samplerMethods {S B : Type} (next : S → Option (Except Exc B × S)) : Methods S B := ⟨some id, some next⟩

end Verif.Iteration

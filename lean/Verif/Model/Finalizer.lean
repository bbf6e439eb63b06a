import Verif.Model.Prefetch
import Mathlib.Logic.Relation
/-!
# When `PrefetchingFlowFieldScheduler.__del__` may run (`src/synthpix/scheduler/prefetch.py`)

Python calls `__del__` (lines 249-251) once no chain of references leads from the variables of the program, or from the
interpreter, to the object. This file has the references between the objects concerned. Simplifications: only references
that the file makes, or that `threading.Thread` makes on its behalf, are listed; queue and wrapped scheduler refer to none
of these objects; the end of the interpreter, at which `__del__` may be called or not, is not modelled.
-/

namespace Verif.Prefetch
open Verif
variable {S B : Type}

/-- What can refer to what. -/
inductive Obj where
  /-- the variables of the program that uses the scheduler, for example through a sampler -/
  | program
  /-- the interpreter: it knows the threads that are alive (`threading._active`) and their stacks -/
  | interpreter
  /-- the prefetching scheduler -/
  | scheduler
  /-- the object in `self._thread` -/
  | thread
  /-- the stack of the background thread, where `self` is a local variable of `_worker` (line 138) -/
  | stack
  deriving DecidableEq, Repr

/-- The references; `held`: the program has kept a reference to the scheduler. The scheduler refers to its thread (lines 60
and 216); the thread refers to the bound method `self._worker` (lines 60 and 216) until `Thread.run` has returned, which
deletes the reference. -/
def refers (held : Bool) (s : St S B) : Obj → Obj → Prop
  | .program, .scheduler => held = true
  | .interpreter, .thread => s.w.ended = false
  | .interpreter, .stack => s.w.ended = false
  | .stack, .scheduler => s.w.ended = false
  | .scheduler, .thread => True
  | .thread, .scheduler => s.w = .idle ∨ s.w.ended = false
  | _, _ => False

/-- `__del__` may be called: nothing that is alive leads to the scheduler. -/
def Finalizable (held : Bool) (s : St S B) : Prop :=
  ¬ Relation.ReflTransGen (refers held s) .program .scheduler ∧
  ¬ Relation.ReflTransGen (refers held s) .interpreter .scheduler

/-- `__del__` (prefetch.py lines 249-251): the calls of `shutdown` (lines 221-247). -/
def finalizer : List Action := [.shutdown, .shutDrain, .shutPut, .shutJoin]

/-- What can happen when nobody calls a method of the scheduler any more: steps of the background thread. -/
def Alone (p : Src S B) (cfg : Cfg) (s s' : St S B) : Prop :=
  ∃ as outs, (∀ a ∈ as, a.isWorker = true) ∧ run p cfg as s = some (s', outs)

/-! ## The constructor, attribute by attribute -/

/-- The attributes that `__del__` needs. -/
inductive Attr where
  | queue | stopEvent | thread
  deriving DecidableEq, Repr

/-- How far the constructor gets (prefetch.py lines 49-75), where `badSize`: `batch_size` or `buffer_size` is refused (lines
51-54), `badTime`: one of the timeouts is (lines 65-72). The attributes that are set, and whether `ValueError` is raised. -/
def construct (badSize badTime : Bool) : List Attr × Bool :=
  if badSize then ([], true)
  else
    let set := [.queue, .stopEvent, .thread]
    (set, badTime)

/-- `shutdown` on an object with these attributes, as far as missing attributes matter (prefetch.py lines 227-247): a missing
stop event ends it quietly, any other missing attribute is an `AttributeError`. -/
def shutdownWith (attrs : List Attr) : Except Exc Unit :=
  if .stopEvent ∈ attrs then
    if .queue ∈ attrs then if .thread ∈ attrs then .ok () else .error .attributeError
    else .error .attributeError
  else .ok ()

end Verif.Prefetch

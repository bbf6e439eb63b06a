import Verif.Model.Racing
import Verif.Spec.Base
/-!
# What is said about threads that share a scheduler
-/

namespace Verif.Racing
open Verif Verif.Base Verif.Formats
open Verif.Interrupt (Raw)

variable {V D Key : Type}

/-- The schedulers of the three formats. -/
def matRWorld {Key : Type} (io : MatIO) (c : MatCfg) (split : Key → Key × Key) (perm : Key → Nat → List Nat) : RWorld Rat (Sample Rat) Key :=
  { load := matLoad io c, prog := matProg c, split := split, perm := perm }

@[inherit_doc matRWorld]
def h5RWorld (files : String → H5File V) (split : Key → Key × Key) (perm : Key → Nat → List Nat) : RWorld V (Arr V) Key :=
  { load := fun p => h5Load (files p), prog := h5Prog, split := split, perm := perm }

@[inherit_doc matRWorld]
def npRWorld (io : NpIO V) (includeImages : Bool) (split : Key → Key × Key) (perm : Key → Nat → List Nat) : RWorld V (Sample V) Key :=
  { load := npLoad io, prog := npProg io includeImages, split := split, perm := perm }

/-- `jax.random.permutation` gives a permutation. -/
def Permutes (perm : Key → Nat → List Nat) : Prop := ∀ k n, (perm k n).Perm (List.range n)

/-- After the constructor, and before any call. -/
def start (w : RWorld V D Key) (c : Cfg) (fl : List String) (key : Key) : RSt V D Key := rinit (Raw.of (Base.init w.alone c fl key))

/-- A call by the thread `i` that nobody disturbs: it begins, takes `k` steps and ends. -/
def callAlone (i k : Nat) : List Act := .call i :: (List.replicate k (.step i) ++ [.take i])

/-- The same for `reset`. -/
def resetAlone (i k : Nat) : List Act := .reset i :: List.replicate k (.step i)

/-- What the threads want from the scheduler, one after the other. -/
inductive Op where
  | call (i : Nat)
  | reset (i : Nat)

/-- Undisturbed, in `k` steps. -/
def Op.alone : Op → Nat → List Act
  | .call i, k => callAlone i k
  | .reset i, k => resetAlone i k

/-- Without threads, `_get_next` and `reset` are called in this order and the calls of `_get_next` have these results. -/
inductive Sequence (w : World V D Key) (c : Cfg) : Base.St D Key → List Op → List (Nat × Next V) → Base.St D Key → Prop
  | nil (s) : Sequence w c s [] [] s
  | call {s i fuel r t ops rs u} : Base.getNext w c fuel s = some (r, t) → Sequence w c t ops rs u → Sequence w c s (.call i :: ops) ((i, r) :: rs) u
  | reset {s i ops rs u} : Sequence w c (Base.reset w c s) ops rs u → Sequence w c s (.reset i :: ops) rs u

end Verif.Racing

import Verif.Spec.Base
import Verif.Model.FileList
/-!
# Specification: files that are added while they are being served

The scheduler as a queue of samples: adding files puts their samples at the end, a batch takes from the front.
-/

namespace Verif.Append
open Verif

/-- What a user does: ask for a batch, or append files to the list. -/
inductive Ev where
  | batch (n : Nat)
  | add (more : List String)
  deriving DecidableEq, Repr

/-- The same as calls: `scheduler.file_list = scheduler.file_list + more` is an assignment of the longer list. -/
def calls : List String → List Ev → List FileList.Op
  | _, [] => []
  | cur, .batch n :: es => .batch n :: calls cur es
  | cur, .add more :: es => .assign (cur ++ more) :: calls (cur ++ more) es

/-- All files that are added. -/
def added : List Ev → List String
  | [] => []
  | .batch _ :: es => added es
  | .add more :: es => more ++ added es

/-- What each request should deliver: the first samples waiting, as many as asked for if there are so many. -/
def served {A : Type} (content : String → List A) : List A → List Ev → List (List A)
  | _, [] => []
  | waiting, .batch n :: es => waiting.take n :: served content (waiting.drop n) es
  | waiting, .add more :: es => served content (waiting ++ more.flatMap content) es

end Verif.Append

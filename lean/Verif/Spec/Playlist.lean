import Verif.Spec.Episodic
/-!
# Specification vocabulary for the files that episodes consist of
-/

namespace Verif.Episodic
open Verif
variable {S B : Type}

/-- A file may be played: some generator that draws admissible starts puts it into the queue, at construction or after some
history of calls. -/
def MayBePlayed (Key : Type) (sch : Sched S B) (os : LeafDirs.OS) (glob : String → List String) (b l : Nat) (inner : S)
    (f : String) : Prop :=
  ∃ (rng : Rng Key) (key : Key) (cfg : Cfg) (e0 e : St S Key) (ops : List Op) (outs : List (Out B)), ChoiceOK rng ∧
    init sch rng os glob (some b) (some l) inner key = .ok (cfg, e0) ∧ run sch rng cfg ops e0 = some (outs, e) ∧
    f ∈ sch.fileList e.inner

/-- The directory `d` has no subdirectories, and it can be read. -/
def IsLeaf (os : LeafDirs.OS) (d : String) : Prop :=
  ∃ es, os.scan d = .entries es ∧ ∀ x ∈ es, x.isDir false = false

/-- The scheduler is given a list without omissions: with one file of a leaf directory it names all that the directory
holds. -/
def WholeDirectories (os : LeafDirs.OS) (glob : String → List String) (fl : List String) : Prop :=
  ∀ p ∈ fl, IsLeaf os (os.parent p) → ∀ f ∈ glob (os.parent p), f ∈ fl

/-- Every file of the list is one that the search in its directory finds, and its directory is a leaf. -/
def AllInLeaves (os : LeafDirs.OS) (glob : String → List String) (fl : List String) : Prop :=
  ∀ f ∈ fl, ∃ p ∈ fl, IsLeaf os (os.parent p) ∧ f ∈ glob (os.parent p)

end Verif.Episodic

import Verif.Model.Changing
/-!
# Specification vocabulary for files that change
-/

namespace Verif.Changing
open Verif
variable {V D Key : Type}

/-- Files that do not change: each is as the changing one is at the opening whose number is its place in the list. -/
def seen (w : World V D Key) (order : List String) : Base.World V D Key :=
  ⟨fun p => w.load (order.idxOf p) p, w.slice, w.split, w.perm⟩

/-- The files after the first `n` openings. -/
def World.after (w : World V D Key) (n : Nat) : World V D Key := { w with load := fun t => w.load (n + t) }

end Verif.Changing

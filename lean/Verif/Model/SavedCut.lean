import Verif.Model.Saved
/-!
# What a run of the main program that is cut short leaves in the output directory (`src/main.py` lines 20-64 and 82-107)
-/

namespace Verif.Saved
open Verif Scripts

/-- The pictures that the events of a run write, one by one and in the order of writing (src/main.py lines 46-47 and 61 for every pass through
lines 88-98). -/
def writes : List Ev → List (Nat × Nat × Part)
  | [] => []
  | .save i j :: evs => (i, j, .image1) :: (i, j, .image2) :: (i, j, .quiver) :: writes evs
  | .shutdown :: evs => writes evs

/-- The output directory after the given pictures have been written (src/main.py lines 46-47 and 61). -/
def written {α : Type} (x : Nat → Nat → Part → α) (ws : List (Nat × Nat × Part)) (fs : Files α) : Files α :=
  ws.foldl (fun fs w => put fs (fileName w.1 w.2.1 w.2.2) (x w.1 w.2.1 w.2.2)) fs

/-- The output directory when the run stops after `m` pictures, by an exception of `imsave` or `savefig` (disc full, a picture that cannot be
drawn), an interrupt or the death of the process. The picture that was being written may be in any state: `torn = none` says that its file has not been
touched, `some y` that it is now as `y` says (absent, empty or half written). Simplification: what has been written reaches the disc. -/
def cutShort {α : Type} (x : Nat → Nat → Part → α) (ws : List (Nat × Nat × Part)) (m : Nat) (torn : Option (Option α)) (fs : Files α) : Files α :=
  match ws[m]?, torn with
  | some w, some y => fun q => if q = fileName w.1 w.2.1 w.2.2 then y else written x (ws.take m) fs q
  | _, _ => written x (ws.take m) fs

end Verif.Saved
